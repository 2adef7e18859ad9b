import Verif.Spec.Profile
import Verif.Model.Profile
import Verif.Props.Stretch
import Verif.Props.Compare
import Verif.Props.Load
import Verif.Props.RelExt
import Verif.Lemmas.StretchTool
import Verif.Lemmas.ArcTrack
import Verif.Model.Cli

/-
  C118: the edge width of a Cura program is the nozzle size of its profile.
-/

set_option linter.unusedSectionVars false

namespace GCodeUtils

open Spec

variable {α : Type} [Field α] [LinearOrder α] [IsStrictOrderedRing α] [FloorRing α]

theorem splitOnce_found {sep : Char} {a : Str} (h : sep ∉ a) (b : Str) : splitOnce sep (a ++ sep :: b) = [a, b] := by
  induction a with
  | nil => simp [splitOnce]
  | cons c a ih =>
    have hc : c ≠ sep := fun e => h (by simp [e])
    rw [List.cons_append, splitOnce, if_neg hc, ih (fun k => h (by simp [k]))]

theorem splitOnce_missing {sep : Char} {a : Str} (h : sep ∉ a) : splitOnce sep a = [a] := by
  induction a with
  | nil => rfl
  | cons c a ih =>
    have hc : c ≠ sep := fun e => h (by simp [e])
    rw [splitOnce, if_neg hc, ih (fun k => h (by simp [k]))]

theorem cut_first (sep : Char) (s : Str) : sep ∉ s ∨ ∃ a b, s = a ++ sep :: b ∧ sep ∉ a := by
  induction s with
  | nil => exact .inl (by simp)
  | cons c s ih =>
    by_cases hc : c = sep
    · exact .inr ⟨[], s, by simp [hc], by simp⟩
    · rcases ih with ih | ⟨a, b, rfl, ih⟩
      · exact .inl (by simp [ih, Ne.symm hc])
      · exact .inr ⟨c :: a, b, rfl, by simp [ih, Ne.symm hc]⟩

theorem splitAll_parts (sep : Char) (s : Str) :
    s = List.intercalate [sep] (splitAll sep s) ∧ splitAll sep s ≠ [] ∧ ∀ p ∈ splitAll sep s, sep ∉ p := by
  induction s with
  | nil => exact ⟨by simp [splitAll, List.intercalate], by simp [splitAll], by simp [splitAll]⟩
  | cons c s ih =>
    obtain ⟨h1, h2, h3⟩ := ih
    rw [splitAll]
    by_cases hc : c = sep
    · rw [if_pos hc]
      refine ⟨?_, by simp, ?_⟩
      · cases e : splitAll sep s with
        | nil => exact absurd e h2
        | cons q qs =>
          rw [e] at h1
          conv_lhs => rw [h1, hc]
          simp [List.intercalate]
      · intro p hp
        rcases List.mem_cons.1 hp with rfl | hp
        · simp
        · exact h3 p hp
    · rw [if_neg hc]
      cases e : splitAll sep s with
      | nil => exact absurd e h2
      | cons q qs =>
        rw [e] at h1 h3
        refine ⟨?_, by simp, ?_⟩
        · conv_lhs => rw [h1]
          cases qs <;> simp [List.intercalate]
        · intro p hp
          rcases List.mem_cons.1 hp with rfl | hp
          · intro k
            rcases List.mem_cons.1 k with k | k
            · exact hc k.symm
            · exact h3 q (by simp) k
          · exact h3 p (by simp [hp])

theorem splitAll_append {sep : Char} {p : Str} (h : sep ∉ p) (s : Str) : splitAll sep (p ++ sep :: s) = p :: splitAll sep s := by
  induction p with
  | nil => simp [splitAll]
  | cons c p ih =>
    have hc : c ≠ sep := fun e => h (by simp [e])
    rw [List.cons_append, splitAll, if_neg hc, ih (fun k => h (by simp [k]))]

theorem splitAll_last {sep : Char} {p : Str} (h : sep ∉ p) : splitAll sep p = [p] := by
  induction p with
  | nil => rfl
  | cons c p ih =>
    have hc : c ≠ sep := fun e => h (by simp [e])
    rw [splitAll, if_neg hc, ih (fun k => h (by simp [k]))]

theorem splitAll_intercalate {sep : Char} (os : List Str) (h : os ≠ []) (hs : ∀ o ∈ os, sep ∉ o) : splitAll sep (List.intercalate [sep] os) = os := by
  induction os with
  | nil => exact absurd rfl h
  | cons o os ih =>
    cases os with
    | nil =>
      have e : List.intercalate [sep] [o] = o := by simp [List.intercalate]
      rw [e, splitAll_last (hs o (by simp))]
    | cons q os =>
      have e : List.intercalate [sep] (o :: q :: os) = o ++ sep :: List.intercalate [sep] (q :: os) := by simp [List.intercalate]
      rw [e, splitAll_append (hs o (by simp)), ih (by simp) (fun o ho => hs o (by simp [ho]))]

theorem mem_intercalate {c sep : Char} {os : List Str} (h : c ∈ List.intercalate [sep] os) : c = sep ∨ ∃ o ∈ os, c ∈ o := by
  induction os with
  | nil => simp [List.intercalate] at h
  | cons o os ih =>
    cases os with
    | nil => exact .inr ⟨o, by simp, by simpa [List.intercalate] using h⟩
    | cons q os =>
      have e : List.intercalate [sep] (o :: q :: os) = o ++ sep :: List.intercalate [sep] (q :: os) := by simp [List.intercalate]
      rw [e] at h
      rcases List.mem_append.1 h with h | h
      · exact .inr ⟨o, by simp, h⟩
      · rcases List.mem_cons.1 h with h | h
        · exact .inl h
        · rcases ih h with k | ⟨p, hp, k⟩
          · exact .inl k
          · exact .inr ⟨p, by simp [hp], k⟩

/-- The options the program sees are the ones the text has. -/
theorem options_iff (text : Str) (os : List Str) :
    ProfileOptions text os ↔ ∃ opts alt, splitOnce '\x0c' text = [opts, alt] ∧ splitAll '\x08' opts = os := by
  constructor
  · rintro ⟨alt, rfl, h1, h2⟩
    refine ⟨_, alt, splitOnce_found ?_ alt, splitAll_intercalate os h1 (fun o ho => (h2 o ho).1)⟩
    intro k
    rcases mem_intercalate k with k | ⟨o, ho, k⟩
    · revert k; decide
    · exact (h2 o ho).2 k
  · rintro ⟨opts, alt, h1, rfl⟩
    rcases cut_first '\x0c' text with h | ⟨a, b, rfl, h⟩
    · rw [splitOnce_missing h] at h1; simp at h1
    · rw [splitOnce_found h] at h1
      simp only [List.cons.injEq, and_true] at h1
      obtain ⟨rfl, rfl⟩ := h1
      obtain ⟨e, h2, h3⟩ := splitAll_parts '\x08' a
      refine ⟨b, by rw [← e], h2, fun o ho => ⟨h3 o ho, fun k => h ?_⟩⟩
      rw [e]
      obtain ⟨x, y, hxy⟩ := List.append_of_mem ho
      rw [hxy]
      have : ∀ x : List Str, ∀ c ∈ o, c ∈ List.intercalate ['\x08'] (x ++ o :: y) := by
        intro x c hc
        induction x with
        | nil => cases y <;> simp [List.intercalate, hc]
        | cons z x ih =>
          have e : List.intercalate ['\x08'] (z :: x ++ o :: y) = z ++ '\x08' :: List.intercalate ['\x08'] (x ++ o :: y) := by
            cases x <;> simp [List.intercalate]
          rw [e]
          exact List.mem_append_right _ (List.mem_cons_of_mem _ ih)
      exact this x _ k

theorem nozzle_other {flt : Str → Option α} {o : Str} (h : OtherOption o) (os : List Str) : nozzleSize flt (o :: os) = nozzleSize flt os := by
  rw [nozzleSize]
  rcases h with rfl | ⟨k, v, rfl, h1, h2⟩
  · rfl
  · rw [if_pos (by simp), splitOnce_found h1]
    simp only [if_neg h2]

theorem nozzle_here {flt : Str → Option α} (v : Str) (os : List Str) :
    nozzleSize flt ((c!"nozzle_size=" ++ v) :: os) = (match flt v with | some w => .ok (some w) | none => .error .valueError) := by
  rw [nozzleSize, if_pos (by simp)]
  have e : c!"nozzle_size=" ++ v = c!"nozzle_size" ++ '=' :: v := by simp
  rw [e, splitOnce_found (by decide)]
  simp only [if_true]
  cases flt v <;> rfl

theorem option_cases (o : Str) : OtherOption o ∨ (∃ v, o = c!"nozzle_size=" ++ v) ∨ (o ≠ [] ∧ '=' ∉ o) := by
  by_cases h : o = []
  · exact .inl (.inl h)
  · rcases cut_first '=' o with k | ⟨a, b, rfl, k⟩
    · exact .inr (.inr ⟨h, k⟩)
    · by_cases ha : a = c!"nozzle_size"
      · exact .inr (.inl ⟨b, by rw [ha]; simp⟩)
      · exact .inl (.inr ⟨a, b, rfl, k, ha⟩)

theorem other_not_nozzle {v : Str} : ¬ OtherOption (c!"nozzle_size=" ++ v) := by
  rintro (h | ⟨k, x, h, h1, h2⟩)
  · simp at h
  · have e : splitOnce '=' (c!"nozzle_size=" ++ v) = [c!"nozzle_size", v] := splitOnce_found (a := c!"nozzle_size") (by decide) v
    rw [h, splitOnce_found h1] at e
    simp only [List.cons.injEq, and_true] at e
    exact h2 e.1

theorem nozzle_value {flt : Str → Option α} (os : List Str) :
    (∃ a v b, os = a ++ (c!"nozzle_size=" ++ v) :: b ∧ (∀ o ∈ a, OtherOption o) ∧
      nozzleSize flt os = (match flt v with | some w => .ok (some w) | none => .error .valueError)) ∨
    ((∀ o ∈ os, OtherOption o) ∧ nozzleSize flt os = .ok none) ∨
    ((∃ a o b, os = a ++ o :: b ∧ (∀ o ∈ a, OtherOption o) ∧ o ≠ [] ∧ '=' ∉ o) ∧ nozzleSize flt os = .error .valueError) := by
  induction os with
  | nil => exact .inr (.inl ⟨by simp, rfl⟩)
  | cons o os ih =>
    rcases option_cases o with h | ⟨v, rfl⟩ | ⟨h1, h2⟩
    · have cons_all : ∀ {a : List Str}, (∀ o ∈ a, OtherOption o) → ∀ x ∈ o :: a, OtherOption x := by
        intro a k x hx
        rcases List.mem_cons.1 hx with rfl | hx
        · exact h
        · exact k x hx
      rw [nozzle_other h]
      rcases ih with ⟨a, v, b, rfl, k1, k2⟩ | ⟨k1, k2⟩ | ⟨⟨a, p, b, rfl, k1, k3⟩, k2⟩
      · exact .inl ⟨o :: a, v, b, rfl, cons_all k1, k2⟩
      · exact .inr (.inl ⟨cons_all k1, k2⟩)
      · exact .inr (.inr ⟨⟨o :: a, p, b, rfl, cons_all k1, k3⟩, k2⟩)
    · exact .inl ⟨[], v, os, rfl, by simp, nozzle_here v os⟩
    · refine .inr (.inr ⟨⟨[], o, os, rfl, by simp, h1, h2⟩, ?_⟩)
      rw [nozzleSize, if_pos (List.length_pos_iff.2 h1), splitOnce_missing h2]

theorem nozzle_unique {a a' b b' : List Str} {v v' : Str} (h : a ++ (c!"nozzle_size=" ++ v) :: b = a' ++ (c!"nozzle_size=" ++ v') :: b')
    (h1 : ∀ o ∈ a, OtherOption o) (h2 : ∀ o ∈ a', OtherOption o) : v = v' := by
  induction a generalizing a' with
  | nil =>
    cases a' with
    | nil => exact (show v = v' ∧ b = b' by simpa using h).1
    | cons o a' =>
      simp only [List.nil_append, List.cons_append, List.cons.injEq] at h
      exact absurd (h.1 ▸ h2 o (by simp)) other_not_nozzle
  | cons o a ih =>
    cases a' with
    | nil =>
      simp only [List.nil_append, List.cons_append, List.cons.injEq] at h
      exact absurd (h.1 ▸ h1 o (by simp)) other_not_nozzle
    | cons o' a' =>
      simp only [List.cons_append, List.cons.injEq] at h
      exact ih h.2 (fun o ho => h1 o (by simp [ho])) (fun o ho => h2 o (by simp [ho]))

/-- C118 (Python 2): what a decoded profile gives.  The width is the value of the first option for the nozzle size, and there is none
exactly when the options are all well-formed and about other things; in every other case there is a `ValueError`. -/
theorem C118_profile_partial {decode : Str → Except Err Str} {flt : Str → Option α} {t text : Str} (h : decode t = .ok text) :
    (∀ w, parseCuraProfile .halfAway decode flt t = .ok (some w) ↔ ∃ v, StatesNozzle text v ∧ flt v = some w) ∧
    (parseCuraProfile .halfAway decode flt t = .ok none ↔ NoNozzle text) ∧
    (∀ er, parseCuraProfile .halfAway decode flt t = .error er ↔ er = .valueError ∧ ¬ NoNozzle text ∧ ∀ v, StatesNozzle text v → flt v = none) := by
  have e : parseCuraProfile .halfAway decode flt t = (match splitOnce '\x0c' text with
      | [opts, _] => nozzleSize flt (splitAll '\x08' opts)
      | _ => .error .valueError) := by
    unfold parseCuraProfile; rw [h]; rfl
  rcases cut_first '\x0c' text with k | ⟨opts, alt, k, kn⟩
  · rw [splitOnce_missing k] at e
    simp only at e
    have no : ∀ os, ¬ ProfileOptions text os := by
      intro os ho
      obtain ⟨o, a, ho, _⟩ := (options_iff text os).1 ho
      rw [splitOnce_missing k] at ho
      simp at ho
    have n1 : ¬ NoNozzle text := fun ⟨os, ho, _⟩ => no os ho
    have n2 : ∀ v, ¬ StatesNozzle text v := fun v ⟨_, _, ho, _⟩ => no _ ho
    rw [e]
    refine ⟨fun w => ⟨fun k => (nomatch k), fun ⟨v, hv, _⟩ => absurd hv (n2 v)⟩, ⟨fun k => (nomatch k), fun k => absurd k n1⟩, fun er => ?_⟩
    exact ⟨fun k => ⟨by cases k; rfl, n1, fun v hv => absurd hv (n2 v)⟩, fun k => by rw [k.1]⟩
  · have hs : splitOnce '\x0c' text = [opts, alt] := by rw [k]; exact splitOnce_found kn alt
    rw [hs] at e
    simp only at e
    have ho : ∀ os, ProfileOptions text os ↔ os = splitAll '\x08' opts := by
      intro os
      rw [options_iff, hs]
      constructor
      · rintro ⟨o, a, h1, rfl⟩
        simp only [List.cons.injEq] at h1
        rw [h1.1]
      · rintro rfl
        exact ⟨opts, alt, rfl, rfl⟩
    rw [e]
    rcases nozzle_value (flt := flt) (splitAll '\x08' opts) with ⟨a, v, b, h1, h2, h3⟩ | ⟨h1, h2⟩ | ⟨⟨a, o, b, h1, h2, h3, h4⟩, h5⟩
    · have hv : ∀ v', StatesNozzle text v' ↔ v' = v := by
        intro v'
        constructor
        · rintro ⟨a', b', k1, k2⟩
          have := (ho _).1 k1
          rw [h1] at this
          exact nozzle_unique this k2 h2
        · rintro rfl
          exact ⟨a, b, (ho _).2 h1.symm, h2⟩
      have n1 : ¬ NoNozzle text := by
        rintro ⟨os, k1, k2⟩
        rw [(ho _).1 k1, h1] at k2
        exact other_not_nozzle (k2 (c!"nozzle_size=" ++ v) (by simp))
      rw [h3]
      refine ⟨fun w => ?_, ⟨fun k => ?_, fun k => absurd k n1⟩, fun er => ?_⟩
      · cases hf : flt v with
        | none =>
          refine ⟨fun k => (nomatch k), fun ⟨v', k1, k2⟩ => ?_⟩
          rw [(hv v').1 k1, hf] at k2; cases k2
        | some w' =>
          simp only [Except.ok.injEq, Option.some.injEq]
          refine ⟨fun k => ⟨v, (hv v).2 rfl, by rw [hf, k]⟩, fun ⟨v', k1, k2⟩ => ?_⟩
          rw [(hv v').1 k1, hf] at k2
          simpa using k2
      · cases hf : flt v <;> rw [hf] at k <;> cases k
      · cases hf : flt v with
        | none =>
          refine ⟨fun k => ⟨by cases k; rfl, n1, fun v' k' => by rw [(hv v').1 k', hf]⟩, fun k => by rw [k.1]⟩
        | some w' =>
          refine ⟨fun k => (nomatch k), fun k => ?_⟩
          have := k.2.2 v ((hv v).2 rfl)
          rw [hf] at this; cases this
    · have n1 : NoNozzle text := ⟨_, (ho _).2 rfl, h1⟩
      have n2 : ∀ v, ¬ StatesNozzle text v := by
        rintro v ⟨a, b, k1, _⟩
        rw [← (ho _).1 k1] at h1
        exact other_not_nozzle (h1 (c!"nozzle_size=" ++ v) (by simp))
      rw [h2]
      exact ⟨fun w => ⟨fun k => (nomatch k), fun ⟨v, hv, _⟩ => absurd hv (n2 v)⟩, ⟨fun _ => n1, fun _ => rfl⟩, fun er => ⟨fun k => (nomatch k), fun k => absurd n1 k.2.1⟩⟩
    · have bad : ¬ OtherOption o := by
        rintro (k | ⟨x, y, k, _⟩)
        · exact h3 k
        · exact h4 (by rw [k]; simp)
      have n1 : ¬ NoNozzle text := by
        rintro ⟨os, k1, k2⟩
        rw [(ho _).1 k1, h1] at k2
        exact bad (k2 _ (by simp))
      have n2 : ∀ v, ¬ StatesNozzle text v := by
        rintro v ⟨a', b', k1, k2⟩
        have k3 := (ho _).1 k1
        rw [h1] at k3
        clear * - k3 k2 h2 h4 bad
        induction a generalizing a' with
        | nil =>
          cases a' with
          | nil =>
            simp only [List.nil_append, List.cons.injEq] at k3
            exact h4 (by rw [← k3.1]; simp)
          | cons q a' =>
            simp only [List.nil_append, List.cons_append, List.cons.injEq] at k3
            exact bad (k3.1 ▸ k2 q (by simp))
        | cons q a ih =>
          cases a' with
          | nil =>
            simp only [List.nil_append, List.cons_append, List.cons.injEq] at k3
            exact other_not_nozzle (k3.1 ▸ h2 q (by simp))
          | cons q' a' =>
            simp only [List.cons_append, List.cons.injEq] at k3
            exact ih (fun o ho => h2 o (by simp [ho])) a' (fun o ho => k2 o (by simp [ho])) k3.2
      rw [h5]
      refine ⟨fun w => ⟨fun k => (nomatch k), fun ⟨v, hv, _⟩ => absurd hv (n2 v)⟩, ⟨fun k => (nomatch k), fun k => absurd k n1⟩, fun er => ?_⟩
      exact ⟨fun k => ⟨by cases k; rfl, n1, fun v hv => absurd hv (n2 v)⟩, fun k => by rw [k.1]⟩

theorem cura_fails_line {repo : StretchRepo α} {profile : ProfileOracle α} (hp : ∀ t, ∃ er, profile t = .error er) {l : PyLine α}
    (h : c!";CURA_PROFILE_STRING:" <+: l.raw) (s : AnnSt α) (b : Bool) : ∃ er, curaLine repo profile s l b = .error er := by
  obtain ⟨t, ht⟩ := h
  obtain ⟨m, _, hm⟩ := curaMarks_marked s l b
  obtain ⟨er, he⟩ := hp (t ++ m)
  refine ⟨er, ?_⟩
  have hd : dropPrefix? c!";CURA_PROFILE_STRING:" (curaMarks s l b).2.raw = some (t ++ m) := by
    rw [dropPrefix_iff, hm]
    show l.raw ++ m = _
    rw [← ht, List.append_assoc]
  rw [curaLine_eq, hd]
  simp only [he]

theorem cura_fails_lines {repo : StretchRepo α} {profile : ProfileOracle α} (hp : ∀ t, ∃ er, profile t = .error er) (ls : List (PyLine α))
    (h : ∃ l ∈ ls, c!";CURA_PROFILE_STRING:" <+: l.raw) : ∀ s : AnnSt α, ∃ er, curaLines repo profile s ls = .error er := by
  induction ls with
  | nil => obtain ⟨l, hl, _⟩ := h; cases hl
  | cons k ls ih =>
    intro s
    rw [curaLines]
    cases hc : curaLine repo profile s k ls.isEmpty with
    | error er => exact ⟨er, rfl⟩
    | ok p =>
      obtain ⟨l, hl, hpre⟩ := h
      rcases List.mem_cons.1 hl with rfl | hl
      · obtain ⟨er, he⟩ := cura_fails_line (repo := repo) hp hpre s ls.isEmpty
        rw [hc] at he; cases he
      · obtain ⟨er, he⟩ := ih ⟨l, hl, hpre⟩ p.1
        refine ⟨er, ?_⟩
        simp only [he]

theorem cura_fails {repo : StretchRepo α} {profile : ProfileOracle α} (hp : ∀ t, ∃ er, profile t = .error er) (Ls : List (Layer α))
    (h : ∃ L ∈ Ls, ∃ l ∈ L.lines, c!";CURA_PROFILE_STRING:" <+: l.raw) : ∀ s : AnnSt α, ∃ er, annotateLayers .cura repo profile s Ls = .error er := by
  induction Ls with
  | nil => obtain ⟨L, hL, _⟩ := h; cases hL
  | cons K Ls ih =>
    intro s
    rw [annotateLayers]
    cases hc : annotateLayer .cura repo profile s K.lines with
    | error er => exact ⟨er, rfl⟩
    | ok p =>
      obtain ⟨L, hL, hl⟩ := h
      rcases List.mem_cons.1 hL with rfl | hL
      · obtain ⟨er, he⟩ := cura_fails_lines (repo := repo) hp L.lines hl { s with type := .unknown, next := none }
        unfold annotateLayer at hc
        simp only at hc
        rw [hc] at he; cases he
      · obtain ⟨er, he⟩ := ih ⟨L, hL, hl⟩ p.1
        refine ⟨er, ?_⟩
        simp only [he]

/-- After the pass every line with a profile has been read without error. -/
theorem cura_told {repo : StretchRepo α} {profile : ProfileOracle α} {Ls ann : List (Layer α)} {d : Option (StretchDist α)}
    (h : setupFilter .cura repo profile Ls = .ok (d, ann)) :
    ∀ x ∈ linesOf ann, ∀ t, x.raw = c!";CURA_PROFILE_STRING:" ++ t → ∃ o, profile t = .ok o := by
  have hline : ∀ {s s' : AnnSt α} {l l' : PyLine α} {b : Bool}, curaLine repo profile s l b = .ok (s', l') →
      ∀ t, l'.raw = c!";CURA_PROFILE_STRING:" ++ t → ∃ o, profile t = .ok o := by
    intro s s' l l' b hc t ht
    rw [(curaLine_marked hc).2] at ht
    rw [curaLine_eq, (dropPrefix_iff _ _ _).2 ht] at hc
    simp only at hc
    cases hp : profile t with
    | error er => rw [hp] at hc; cases hc
    | ok o => exact ⟨o, rfl⟩
  have hlines : ∀ (ls : List (PyLine α)) {s s' : AnnSt α} {ls' : List (PyLine α)}, curaLines repo profile s ls = .ok (s', ls') →
      ∀ x ∈ ls', ∀ t, x.raw = c!";CURA_PROFILE_STRING:" ++ t → ∃ o, profile t = .ok o := by
    intro ls
    induction ls with
    | nil =>
      intro s s' ls' hc x hx
      rw [curaLines] at hc
      simp only [Except.ok.injEq, Prod.mk.injEq] at hc
      rw [← hc.2] at hx; cases hx
    | cons l ls ih =>
      intro s s' ls' hc x hx
      rw [curaLines] at hc
      cases h1 : curaLine repo profile s l ls.isEmpty with
      | error er => rw [h1] at hc; cases hc
      | ok p =>
        rw [h1] at hc
        simp only at hc
        cases h2 : curaLines repo profile p.1 ls with
        | error er => rw [h2] at hc; cases hc
        | ok q =>
          rw [h2] at hc
          simp only [Except.ok.injEq, Prod.mk.injEq] at hc
          rw [← hc.2] at hx
          rcases List.mem_cons.1 hx with rfl | hx
          · exact hline h1
          · exact ih h2 x hx
  have hlayers : ∀ (Ls : List (Layer α)) {s s' : AnnSt α} {Ls' : List (Layer α)}, annotateLayers .cura repo profile s Ls = .ok (s', Ls') →
      ∀ x ∈ linesOf Ls', ∀ t, x.raw = c!";CURA_PROFILE_STRING:" ++ t → ∃ o, profile t = .ok o := by
    intro Ls
    induction Ls with
    | nil =>
      intro s s' Ls' hc x hx
      rw [annotateLayers] at hc
      simp only [Except.ok.injEq, Prod.mk.injEq] at hc
      rw [← hc.2] at hx; cases hx
    | cons L Ls ih =>
      intro s s' Ls' hc x hx
      rw [annotateLayers] at hc
      cases h1 : annotateLayer .cura repo profile s L.lines with
      | error er => rw [h1] at hc; cases hc
      | ok p =>
        rw [h1] at hc
        simp only at hc
        cases h2 : annotateLayers .cura repo profile p.1 Ls with
        | error er => rw [h2] at hc; cases hc
        | ok q =>
          rw [h2] at hc
          simp only [Except.ok.injEq, Prod.mk.injEq] at hc
          rw [← hc.2] at hx
          unfold linesOf at hx
          rw [List.flatMap_cons, List.mem_append] at hx
          rcases hx with hx | hx
          · exact hlines L.lines h1 x hx
          · exact ih h2 x hx
  unfold setupFilter at h
  cases h1 : annotateLayers .cura repo profile {} Ls with
  | error er => rw [h1] at h; cases h
  | ok p =>
    rw [h1] at h
    simp only [Except.ok.injEq, Prod.mk.injEq] at h
    rw [← h.2]
    exact hlayers Ls h1

/-- C118 (Python 2): the edge width of a stretched Cura program is the nozzle size stated by the profile of its last line with a
profile, if it states one, and 0.4 if it does not or no line has a profile. -/
theorem C118_width_partial {ε : α} {sqrt : α → α} (hs : IsSqrt ε sqrt) {fuel : ℕ} {repo : StretchRepo α} {decode : Str → Except Err Str} {flt : Str → Option α}
    {g g' : GCode α} {d : Option (StretchDist α)} {ann : List (Layer α)}
    (ha : setupFilter .cura repo (parseCuraProfile .halfAway decode flt) g.allLayers = .ok (d, ann))
    (h : g.stretch sqrt fuel .cura repo (parseCuraProfile .halfAway decode flt) = .ok g') :
    ∃ w D, d = some D ∧ D.loopMax = w * repo.loop ∧ D.insideMax = w * repo.inside ∧ D.outsideMax = w * repo.outside ∧
      D.crossLimit = w * repo.cross ∧ D.fromDist = w * repo.fromDist ∧
      ((∃ a l b t text v, linesOf ann = a ++ l :: b ∧ l.raw = c!";CURA_PROFILE_STRING:" ++ t ∧ decode t = .ok text ∧ StatesNozzle text v ∧ flt v = some w ∧
          ∀ x ∈ b, ¬ c!";CURA_PROFILE_STRING:" <+: x.raw) ∨
       ((∃ a l b t text, linesOf ann = a ++ l :: b ∧ l.raw = c!";CURA_PROFILE_STRING:" ++ t ∧ decode t = .ok text ∧ NoNozzle text ∧
          ∀ x ∈ b, ¬ c!";CURA_PROFILE_STRING:" <+: x.raw) ∧ w = 4 / 10) ∨
       ((∀ x ∈ linesOf ann, ¬ c!";CURA_PROFILE_STRING:" <+: x.raw) ∧ w = 4 / 10)) := by
  have all := cura_told (repo := repo) (profile := parseCuraProfile .halfAway decode flt) ha
  have quiet : ∀ b : List (PyLine α), (∀ x ∈ b, x ∈ linesOf ann) → (∀ x ∈ b, ∀ v, ¬ curaSays (parseCuraProfile .halfAway decode flt) x v) →
      ∀ x ∈ b, ¬ c!";CURA_PROFILE_STRING:" <+: x.raw := by
    intro b hb hn x hx ⟨t, ht⟩
    obtain ⟨o, ho⟩ := all x (hb x hx) t ht.symm
    exact hn x hx o ⟨t, ht.symm, ho⟩
  have known : ∀ t o, parseCuraProfile .halfAway decode flt t = .ok o → ∃ text, decode t = .ok text := by
    intro t o k
    unfold parseCuraProfile at k
    cases hd : decode t with
    | error er => rw [hd] at k; cases k
    | ok text => exact ⟨text, rfl⟩
  rcases C73_width hs ha h with ⟨w, D, h1, h2, k1, k2, k3, k4, k5⟩ | ⟨h1, _⟩
  · refine ⟨w, D, h1, k1, k2, k3, k4, k5, ?_⟩
    rcases h2 with ⟨a, l, b, e, ⟨t, q1, q2⟩, q3⟩ | ⟨⟨a, l, b, e, ⟨t, q1, q2⟩, q3⟩ | h2, hw⟩
    · obtain ⟨text, ht⟩ := known t _ q2
      obtain ⟨v, v1, v2⟩ := ((C118_profile_partial ht).1 w).1 q2
      exact .inl ⟨a, l, b, t, text, v, e, q1, ht, v1, v2, quiet b (fun x hx => by rw [e]; simp [hx]) q3⟩
    · obtain ⟨text, ht⟩ := known t _ q2
      exact .inr (.inl ⟨⟨a, l, b, t, text, e, q1, ht, (C118_profile_partial ht).2.1.1 q2, quiet b (fun x hx => by rw [e]; simp [hx]) q3⟩, hw⟩)
    · exact .inr (.inr ⟨quiet _ (fun x hx => hx) h2, hw⟩)
  · cases h1

/-- C118: under Python 3 no Cura program with a profile can be stretched. -/
theorem C118_python3 {env : Env α} {sqrt : α → α} {fuel : ℕ} {repo : StretchRepo α} {decode : Str → Except Err Str} {flt : Str → Option α}
    {data : List Str} {t : Str} (h : ∃ s ∈ data, IsStrip s (c!";CURA_PROFILE_STRING:" ++ t)) :
    ∃ er, stretchPipeline env sqrt fuel repo (parseCuraProfile .halfEven decode flt) data = .error er := by
  unfold stretchPipeline
  cases hg : (GCode.load env data : Except Err (GCode α)) with
  | error er => exact ⟨er, rfl⟩
  | ok g =>
    obtain ⟨s, hs, hst⟩ := h
    have hs' := C01_strip_unique s _ hst
    obtain ⟨out, hr, hl⟩ := load_run hg
    rw [if_neg (by decide)] at hl
    have hin : ({ raw := strip s } : PyLine α) ∈ (readLines data : List (PyLine α)) := by
      unfold readLines
      refine List.mem_map.2 ⟨strip s, List.mem_filter.2 ⟨List.mem_map.2 ⟨s, hs, rfl⟩, ?_⟩, rfl⟩
      rw [← hs']; rfl
    have hout : ({ raw := strip s } : PyLine α) ∈ program g := by
      have hp : g.lines = program g := (load_indexed hg).flat
      rw [← hp, hl]
      clear * - hr hin hs'
      have hc : IsComment (strip s) := ⟨[], c!"CURA_PROFILE_STRING:" ++ t, by simp, .inl (by rw [← hs']; rfl)⟩
      generalize (Machine.init : Machine α) = m0, (readLines data : List (PyLine α)) = rl, g.m = m9 at hr hin
      induction hr with
      | nil => cases hin
      | @cons m m1 m' l l' ls out hp _ ih =>
        rcases List.mem_cons.1 hin with k | k
        · have := isComment_process hc Home.init m
          rw [strip_strip, k, hp] at this
          simp only [Except.ok.injEq, Prod.mk.injEq] at this
          rw [k, ← this.2]
          exact List.mem_cons_self
        · exact List.mem_cons_of_mem _ (ih k)
    obtain ⟨g1, h1, _, h2⟩ := toRelativeE_program g
    have hin1 : ({ raw := strip s } : PyLine α) ∈ program g1 := by
      rw [h2]
      obtain ⟨b, hb, hc⟩ := forall₂_mem_left (scan_conv (program g) RelSt.init) _ hout
      rcases hc with rfl | ⟨(⟨hm, _⟩ | hm), _⟩
      · exact hb
      · exact absurd hm (by simp [IsMove])
      · exact absurd hm (by simp [HasCmd])
    have hcura : isCuraGcode g1 = true := by
      unfold isCuraGcode
      refine List.any_eq_true.2 ⟨_, hin1, ?_⟩
      rw [hasSub_iff]
      show _ <:+: strip s
      rw [← hs']
      exact ⟨[';'], ':' :: t, by simp⟩
    have hpre : ∃ L ∈ g1.allLayers, ∃ l ∈ L.lines, c!";CURA_PROFILE_STRING:" <+: l.raw := by
      rw [program_def] at hin1
      obtain ⟨L, hL, hl1⟩ := List.mem_flatMap.1 hin1
      exact ⟨L, hL, _, hl1, ⟨t, hs'⟩⟩
    obtain ⟨er, he⟩ := cura_fails (repo := repo) (profile := parseCuraProfile .halfEven decode flt) (by
      intro t
      unfold parseCuraProfile
      cases decode t with
      | error er => exact ⟨er, rfl⟩
      | ok text => exact ⟨_, rfl⟩) g1.allLayers hpre {}
    refine ⟨er, ?_⟩
    show (g.toRelativeE >>= fun g => (g.stretch sqrt fuel (if isCuraGcode g then .cura else .slic3r) repo (parseCuraProfile .halfEven decode flt) >>= fun g => .ok g.write)) = _
    rw [h1]
    show (g1.stretch sqrt fuel (if isCuraGcode g1 then .cura else .slic3r) repo (parseCuraProfile .halfEven decode flt) >>= fun g => .ok g.write) = _
    rw [hcura, if_pos rfl]
    unfold GCode.stretch setupFilter
    rw [he]
    rfl

/-- A profile as Cura writes it: options, a form feed, alterations. -/
def profileText : Str := c!"layer_height=0.2\x08nozzle_size=0.35\x08\x08comment=a=b\x0cstart.gcode=G28"

example : StatesNozzle profileText c!"0.35" := by
  refine ⟨[c!"layer_height=0.2"], [[], c!"comment=a=b"], ⟨c!"start.gcode=G28", by decide +kernel, by decide, by decide +kernel⟩, ?_⟩
  intro o ho
  rw [List.mem_singleton.1 ho]
  exact .inr ⟨c!"layer_height", c!"0.2", by decide, by decide, by decide⟩

/-- A decoder that yields this profile. -/
def profileDecode : Str → Except Err Str := fun _ => .ok profileText

example : parseCuraProfile .halfAway profileDecode parseFloat c!"eJx" = .ok (some (7 / 20 : ℚ)) ∧
    parseCuraProfile .halfAway (fun _ => .ok c!"a=1\x08b\x0c") parseFloat c!"" = (.error .valueError : Except Err (Option ℚ)) ∧
    parseCuraProfile .halfAway (fun _ => .ok c!"a=1\x08nozzle_size=0.4") parseFloat c!"" = (.error .valueError : Except Err (Option ℚ)) ∧
    parseCuraProfile .halfAway (fun _ => .ok c!"a=1\x08nozzle_size =0.4\x0c") parseFloat c!"" = (.ok none : Except Err (Option ℚ)) := by decide +kernel

/-- C118 is false: a Cura program that is stretched under Python 2, with the nozzle size of its profile, is rejected under Python 3. -/
theorem C118_refuted :
    (stretchPipeline qEnv rSqrt 100 (StretchRepo.default 1) (parseCuraProfile .halfAway profileDecode parseFloat) (squareC ++ [c!";CURA_PROFILE_STRING:eJx"])).isOk = true ∧
    stretchPipeline qEnv rSqrt 100 (StretchRepo.default 1) (parseCuraProfile .halfEven profileDecode parseFloat) (squareC ++ [c!";CURA_PROFILE_STRING:eJx"]) =
      .error .typeError := by decide +kernel

end GCodeUtils
