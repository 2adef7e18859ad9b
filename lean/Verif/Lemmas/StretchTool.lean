import Verif.Lemmas.StretchTrack
import Verif.Lemmas.Commute
import Verif.Props.Announce

/-
  What conversion to relative extrusion leaves of the comments of a slicer.
-/

set_option linter.unusedSectionVars false

namespace GCodeUtils

open Spec

variable {α : Type} [Field α] [LinearOrder α] [IsStrictOrderedRing α] [FloorRing α]

/-- Text without comments and small letters. -/
def Bland (s : Str) : Prop := ∀ c ∈ s, c ∈ c!"GMXYZEFIJ 0123456789.+-"

theorem Bland.not_infix {s p : Str} (h : Bland s) (hp : ∃ c ∈ p, c ∉ c!"GMXYZEFIJ 0123456789.+-") : ¬ p <:+: s := by
  rintro ⟨a, b, rfl⟩
  obtain ⟨c, h1, h2⟩ := hp
  exact h2 (h c (by simp [h1]))

theorem Bland.not_prefix {s p : Str} (h : Bland s) (hp : ∃ c ∈ p, c ∉ c!"GMXYZEFIJ 0123456789.+-") : ¬ p <+: s :=
  fun k => h.not_infix hp k.isInfix

theorem fmtArg_bland (c : Char) (hc : c ∈ c!"XYZEFIJ") (d : ℕ) (v : Option α) : Bland (fmtArg c d v) := by
  have sub : ∀ c ∈ c!"0123456789.+-", c ∈ c!"GMXYZEFIJ 0123456789.+-" := by decide
  have sub' : ∀ c ∈ c!"XYZEFIJ", c ∈ c!"GMXYZEFIJ 0123456789.+-" := by decide
  cases v with
  | none => intro k hk; simp [fmtArg] at hk
  | some a =>
    intro k hk
    simp only [fmtArg, List.mem_cons] at hk
    rcases hk with rfl | rfl | hk
    · decide
    · exact sub' _ hc
    · exact sub _ (fmtFixed_chars d a _ hk)

theorem Bland.append {a b : Str} (ha : Bland a) (hb : Bland b) : Bland (a ++ b) := by
  intro c hc
  rcases List.mem_append.1 hc with h | h
  · exact ha c h
  · exact hb c h

theorem unsplit_bland {l : PyLine α} (hm : IsMove l) : Bland (unsplit l).raw := by
  obtain ⟨cmd, h1, h2⟩ := hm
  have hG : Bland cmd := by
    clear h2
    have : ∀ cmd ∈ [c!"G0", c!"G1", c!"G2", c!"G3"], ∀ c ∈ cmd, c ∈ c!"GMXYZEFIJ 0123456789.+-" := by decide
    exact this cmd h1
  simp only [unsplit, h2, Option.getD_some]
  exact (((((((hG.append (fmtArg_bland _ (by decide) _ _)).append (fmtArg_bland _ (by decide) _ _)).append (fmtArg_bland _ (by decide) _ _)).append
    (fmtArg_bland _ (by decide) _ _)).append (fmtArg_bland _ (by decide) _ _)).append (fmtArg_bland _ (by decide) _ _)).append (fmtArg_bland _ (by decide) _ _))

/-- A line and what conversion makes of it. -/
def Conv (a b : PyLine α) : Prop :=
  b = a ∨ (((IsMove a ∧ a.e ≠ none) ∨ HasCmd a c!"M82") ∧ Bland b.raw ∧ (XYMove b ↔ XYMove a) ∧ (XYMove a → b.command = a.command ∧ b.x = a.x ∧ b.y = a.y))

theorem relLine_conv (s : RelSt α) (l : PyLine α) : Conv l (relLine s l).2 := by
  unfold relLine
  by_cases c1 : HasCmd l c!"M83"
  · rw [if_pos c1]; exact .inl rfl
  rw [if_neg c1]
  by_cases c2 : HasCmd l c!"M82"
  · rw [if_pos c2]
    have nx : ∀ {l : PyLine α} {c : Str}, HasCmd l c → c ≠ c!"G0" → c ≠ c!"G1" → ¬ XYMove l := by
      intro l c h a b hx
      rw [HasCmd] at h
      rcases hx.1 with k | k <;> rw [h, Option.some.injEq] at k
      · exact a k
      · exact b k
    have n1 := nx c2 (by decide) (by decide)
    have n2 := nx (l := (rawToLine c!"M83" : PyLine α)) m83_line (by decide) (by decide)
    refine .inr ⟨.inr c2, ?_, ⟨fun h => absurd h n2, fun h => absurd h n1⟩, fun h => absurd h n1⟩
    show ∀ c ∈ c!"M83", _
    decide
  rw [if_neg c2]
  by_cases c3 : HasCmd l c!"G92"
  · rw [if_pos c3]
    cases l.e with
    | some e => exact .inl rfl
    | none => simp only; split_ifs <;> exact .inl rfl
  rw [if_neg c3]
  by_cases c4 : IsMove l ∧ s.relative = false
  · rw [if_pos c4]
    cases he : l.e with
    | none => exact .inl rfl
    | some e =>
      simp only
      have hm : IsMove ({ l with e := some (e - s.current), relativeE := some true } : PyLine α) := c4.1
      exact .inr ⟨.inl ⟨c4.1, by rw [he]; simp⟩, unsplit_bland hm, Iff.rfl, fun _ => ⟨rfl, rfl, rfl⟩⟩
  · rw [if_neg c4]; exact .inl rfl

theorem scan_conv (ls : List (PyLine α)) : ∀ s : RelSt α, List.Forall₂ Conv ls (scan relLine s ls).2 := by
  induction ls with
  | nil => intro s; exact .nil
  | cons l ls ih => intro s; exact .cons (relLine_conv s l) (ih _)

theorem scanLayers_conv (Ls : List (Layer α)) : ∀ s : RelSt α,
    List.Forall₂ (fun L L' => L' = { L with lines := L'.lines } ∧ List.Forall₂ Conv L.lines L'.lines) Ls (scanLayers relLine s Ls).2 := by
  induction Ls with
  | nil => intro s; exact .nil
  | cons L Ls ih => intro s; exact .cons ⟨rfl, scan_conv _ _⟩ (ih _)

theorem toRelativeE_conv {g g1 : GCode α} (h : g.toRelativeE = .ok g1) :
    List.Forall₂ (fun L L' => L' = { L with lines := L'.lines } ∧ List.Forall₂ Conv L.lines L'.lines) g.allLayers g1.allLayers := by
  rw [toRelativeE_eq, Except.ok.injEq] at h
  rw [← h]
  exact scanLayers_conv _ _

theorem conv_infix {p q : Str} (hq : q <:+: p) (hp : ∃ c ∈ q, c ∉ c!"GMXYZEFIJ 0123456789.+-") {a b : PyLine α} (h : Conv a b) (hs : Silent q a) :
    p <:+: b.raw ↔ p <:+: a.raw := by
  rcases h with rfl | ⟨h1, h2, -⟩
  · exact Iff.rfl
  · exact ⟨fun k => absurd (hq.trans k) (h2.not_infix hp), fun k => absurd (hq.trans k) (hs h1)⟩

theorem conv_prefix {p q : Str} (hq : q <:+: p) (hp : ∃ c ∈ q, c ∉ c!"GMXYZEFIJ 0123456789.+-") {a b : PyLine α} (h : Conv a b) (hs : Silent q a) :
    p <+: b.raw ↔ p <+: a.raw := by
  rcases h with rfl | ⟨h1, h2, -⟩
  · exact Iff.rfl
  · exact ⟨fun k => absurd (hq.trans k.isInfix) (h2.not_infix hp), fun k => absurd (hq.trans k.isInfix) (hs h1)⟩

theorem conv_curaSaid {a b : PyLine α} (h : Conv a b) (hs : Silent c!"TYPE:" a) : curaSaid b = curaSaid a := by
  have e1 := conv_infix (p := c!"TYPE:WALL-OUTER") (q := c!"TYPE:") (by decide) (by decide) h hs
  have e2 := conv_infix (p := c!"TYPE:WALL-INNER") (q := c!"TYPE:") (by decide) (by decide) h hs
  have e3 := conv_infix (p := c!"TYPE:SKIN") (q := c!"TYPE:") (by decide) (by decide) h hs
  have e4 := conv_infix (p := c!"TYPE:FILL") (q := c!"TYPE:") (by decide) (by decide) h hs
  have e5 := conv_prefix (p := c!";TYPE:") (q := c!"TYPE:") (by decide) (by decide) h hs
  unfold curaSaid
  by_cases c1 : c!"TYPE:WALL-OUTER" <:+: a.raw
  · rw [if_pos c1, if_pos (e1.2 c1)]
  rw [if_neg c1, if_neg (fun h => c1 (e1.1 h))]
  by_cases c2 : c!"TYPE:WALL-INNER" <:+: a.raw
  · rw [if_pos c2, if_pos (e2.2 c2)]
  rw [if_neg c2, if_neg (fun h => c2 (e2.1 h))]
  by_cases c3 : c!"TYPE:SKIN" <:+: a.raw
  · rw [if_pos c3, if_pos (e3.2 c3)]
  rw [if_neg c3, if_neg (fun h => c3 (e3.1 h))]
  by_cases c4 : c!"TYPE:FILL" <:+: a.raw ∨ c!";TYPE:" <+: a.raw
  · rw [if_pos c4, if_pos ((or_congr e4 e5).2 c4)]
  rw [if_neg c4, if_neg (fun h => c4 ((or_congr e4 e5).1 h))]

theorem conv_anyType {a b : PyLine α} (h : Conv a b) (hs : Silent c!"TYPE:" a) : (OpensType b ↔ OpensType a) ∧ (AnyType b ↔ AnyType a) := by
  have e1 := conv_infix (p := c!"TYPE:WALL-OUTER") (q := c!"TYPE:") (by decide) (by decide) h hs
  have e2 := conv_infix (p := c!"TYPE:WALL-INNER") (q := c!"TYPE:") (by decide) (by decide) h hs
  have e3 := conv_infix (p := c!"TYPE:SKIN") (q := c!"TYPE:") (by decide) (by decide) h hs
  have e4 := conv_infix (p := c!"TYPE:FILL") (q := c!"TYPE:") (by decide) (by decide) h hs
  have : OpensType b ↔ OpensType a := by unfold OpensType; rw [e1, e2, e3]
  exact ⟨this, by unfold AnyType; rw [this, e4]⟩

theorem forall₂_map_eq {β γ : Type} {R : β → β → Prop} {f : β → γ} {P : β → Prop} (hf : ∀ a b, R a b → P a → f b = f a) {A B : List β}
    (h : List.Forall₂ R A B) (hp : ∀ a ∈ A, P a) : B.map f = A.map f := by
  induction h with
  | nil => rfl
  | cons h1 _ ih => rw [List.map_cons, List.map_cons, hf _ _ h1 (hp _ (by simp)), ih (fun a ha => hp a (by simp [ha]))]

theorem curaKind_congr {A B : List (PyLine α)} (h : B.map curaSaid = A.map curaSaid) (n : ℕ) : curaKind B n = curaKind A n := by
  have e1 : B[n]?.bind curaSaid = A[n]?.bind curaSaid := by
    have := congrArg (fun l => l[n]?) h
    simp only [List.getElem?_map] at this
    cases hB : B[n]? <;> cases hA : A[n]? <;> rw [hA, hB] at this <;> simp_all
  have e2 : (B.take n).filterMap curaSaid = (A.take n).filterMap curaSaid := by
    have key : ∀ X : List (PyLine α), X.filterMap curaSaid = (X.map curaSaid).filterMap id := by
      intro X; rw [List.filterMap_map]; rfl
    rw [key, key, List.map_take, List.map_take, h]
  unfold curaKind
  rw [e1, e2]

theorem conv_followable {A B : List (PyLine α)} (h : List.Forall₂ Conv A B) (hs : ∀ a ∈ A, Silent c!"TYPE:" a)
    (hf : Spaced A ∧ QuietEnd A ∧ KnownTypes A) : Spaced B ∧ QuietEnd B ∧ KnownTypes B := by
  obtain ⟨h1, h2, h3⟩ := hf
  have back : ∀ (i : ℕ) (b : PyLine α), B[i]? = some b → ∃ a, A[i]? = some a ∧ Conv a b ∧ Silent c!"TYPE:" a := by
    intro i b hb
    obtain ⟨hi, hb'⟩ := List.getElem?_eq_some_iff.1 hb
    have hi' : i < A.length := by rw [h.length_eq]; exact hi
    refine ⟨A[i], List.getElem?_eq_getElem hi', ?_, hs _ (List.getElem_mem _)⟩
    have := h.get hi' hi
    simp only [List.get_eq_getElem, hb'] at this
    exact this
  refine ⟨?_, ?_, ?_⟩
  · intro i b b' hb hb' ho
    obtain ⟨a, ha, c, s⟩ := back i b hb
    obtain ⟨a', ha', c', s'⟩ := back (i + 1) b' hb'
    obtain ⟨k1, k2⟩ := h1 i a a' ha ha' ((conv_anyType c s).1.1 ho)
    exact ⟨fun hn => k1 ((conv_anyType c' s').2.1 hn), by rw [← h.length_eq]; exact k2⟩
  · intro b hb hx
    rw [List.getLast?_eq_getElem?, ← h.length_eq] at hb
    obtain ⟨a, ha, c, s⟩ := back _ b hb
    rw [← List.getLast?_eq_getElem?] at ha
    rcases c with rfl | ⟨-, -, c, -⟩
    · exact h2 _ ha hx
    · exact h2 _ ha (c.1 hx)
  · intro b hb hp
    obtain ⟨i, hi⟩ := List.mem_iff_getElem?.1 hb
    obtain ⟨a, ha, c, s⟩ := back i b hi
    exact (conv_anyType c s).2.2 (h3 a (List.mem_of_getElem? ha) ((conv_prefix (q := c!"TYPE:") (by decide) (by decide) c s).1 hp))

theorem conv_unmarked {A B : List (PyLine α)} (h : List.Forall₂ Conv A B) (hu : Unmarked A) : Unmarked B := by
  intro b hb
  obtain ⟨i, hi⟩ := List.mem_iff_getElem?.1 hb
  obtain ⟨hi1, hb'⟩ := List.getElem?_eq_some_iff.1 hi
  have hi' : i < A.length := by rw [h.length_eq]; exact hi1
  have hc := h.get hi' hi1
  simp only [List.get_eq_getElem, hb'] at hc
  rcases hc with rfl | ⟨-, k, -⟩
  · exact hu _ (List.getElem_mem _)
  · exact ⟨k.not_infix (by decide), k.not_infix (by decide)⟩

/-! ### Slic3r -/

/-- Without perimeter comments nothing is announced. -/
theorem slic3r_nothing (ls : List (PyLine α)) (h : ∀ l ∈ ls, ¬ c!"; perimeter" <:+: l.raw) (ext : ℕ) :
    ∀ k ∈ slic3rKinds none ext ls, k = none := by
  induction ls generalizing ext with
  | nil => intro k hk; simp [slic3rKinds] at hk
  | cons l ls ih =>
    have hfp : firstPerimeter ls = none := by
      unfold firstPerimeter
      rw [Option.map_eq_none_iff, List.find?_eq_none]
      intro x hx
      simpa using h x (by simp [hx])
    have hsaid : slic3rSaid l ls = none ∨ slic3rSaid l ls = some none := by
      unfold slic3rSaid
      rw [if_neg (h l (by simp)), hfp]
      split_ifs <;> simp
    have hnow : (slic3rSaid l ls).getD none = none := by rcases hsaid with e | e <;> rw [e] <;> rfl
    have hext : ¬ (slic3rSaid l ls = some (some true) ∧ ((none : Option Bool) ≠ some true ∨ ToPerimeter l)) := by
      rintro ⟨e, -⟩
      rcases hsaid with e' | e' <;> rw [e'] at e <;> simp at e
    intro k hk
    simp only [slic3rKinds, hnow, if_neg hext, List.mem_cons] at hk
    rcases hk with rfl | hk
    · rfl
    · exact ih (fun x hx => h x (by simp [hx])) ext k hk

/-- Conversion from absolute extrusion removes the comments of all moves with E word. -/
theorem relLine_absolute {s : RelSt α} {l : PyLine α} (hs : s.relative = false) (hm : IsMove l) (he : l.e ≠ none) :
    Bland (relLine s l).2.raw := by
  rw [relLine_move hm, if_pos hs]
  obtain ⟨e, hE⟩ := Option.ne_none_iff_exists'.1 he
  rw [hE]
  exact unsplit_bland (l := { l with e := some (e - s.current), relativeE := some true }) hm

theorem relLine_stays {s : RelSt α} {l : PyLine α} (hs : s.relative = false) (h83 : ¬ HasCmd l c!"M83") : (relLine s l).1.relative = false := by
  unfold relLine
  rw [if_neg h83]
  by_cases c2 : HasCmd l c!"M82"
  · rw [if_pos c2]
  rw [if_neg c2]
  by_cases c3 : HasCmd l c!"G92"
  · rw [if_pos c3]
    cases l.e with
    | some e => exact hs
    | none => simp only; split_ifs <;> exact hs
  rw [if_neg c3]
  by_cases c4 : IsMove l ∧ s.relative = false
  · rw [if_pos c4]
    cases l.e <;> exact hs
  · rw [if_neg c4]; exact hs

/-- In a program with absolute extrusion, a comment that stands only on moves with E word is lost. -/
theorem scan_loses {p : Str} (hp : ∃ c ∈ p, c ∉ c!"GMXYZEFIJ 0123456789.+-") (ls : List (PyLine α)) (h83 : ∀ l ∈ ls, ¬ HasCmd l c!"M83")
    (h : ∀ l ∈ ls, p <:+: l.raw → IsMove l ∧ l.e ≠ none) : ∀ s : RelSt α, s.relative = false → ∀ l ∈ (scan relLine s ls).2, ¬ p <:+: l.raw := by
  induction ls with
  | nil => intro s _ l hl; simp [scan] at hl
  | cons a ls ih =>
    intro s hs l hl
    simp only [scan, List.mem_cons] at hl
    have h0 := h83 a (by simp)
    rcases hl with rfl | hl
    · by_cases hc : p <:+: a.raw
      · obtain ⟨hm, he⟩ := h a (by simp) hc
        exact (relLine_absolute hs hm he).not_infix hp
      · rcases relLine_conv s a with e | ⟨-, e, -⟩
        · rw [e]; exact hc
        · exact e.not_infix hp
    · exact ih (fun l hl => h83 l (by simp [hl])) (fun l hl => h l (by simp [hl])) _ (relLine_stays hs h0) l hl

/-- In a program with relative extrusion, nothing changes. -/
theorem scan_relative (ls : List (PyLine α)) (h82 : ∀ l ∈ ls, ¬ HasCmd l c!"M82") : ∀ s : RelSt α,
    (s.relative = true ∨ ∀ pre l post, ls = pre ++ l :: post → IsMove l → l.e ≠ none → ∃ m ∈ pre, HasCmd m c!"M83") →
    (scan relLine s ls).2 = ls := by
  induction ls with
  | nil => intro s _; rfl
  | cons a ls ih =>
    intro s hs
    have h0 := h82 a (by simp)
    have key : (relLine s a).2 = a ∧ ((relLine s a).1.relative = true ∨ ∀ pre l post, ls = pre ++ l :: post → IsMove l → l.e ≠ none → ∃ m ∈ pre, HasCmd m c!"M83") := by
      have tail : ∀ s' : RelSt α, s'.relative = s.relative → ¬ HasCmd a c!"M83" →
          (s'.relative = true ∨ ∀ pre l post, ls = pre ++ l :: post → IsMove l → l.e ≠ none → ∃ m ∈ pre, HasCmd m c!"M83") := by
        intro s' e h83
        rcases hs with hs | hs
        · exact .inl (e.trans hs)
        · refine .inr fun pre l post hls hm he => ?_
          obtain ⟨m, hm1, hm2⟩ := hs (a :: pre) l post (by rw [hls]; rfl) hm he
          rcases List.mem_cons.1 hm1 with rfl | hm1
          · exact absurd hm2 h83
          · exact ⟨m, hm1, hm2⟩
      unfold relLine
      by_cases c1 : HasCmd a c!"M83"
      · rw [if_pos c1]; exact ⟨rfl, .inl rfl⟩
      rw [if_neg c1, if_neg h0]
      by_cases c3 : HasCmd a c!"G92"
      · rw [if_pos c3]
        cases a.e with
        | some e => exact ⟨rfl, tail _ rfl c1⟩
        | none => simp only; split_ifs <;> exact ⟨rfl, tail _ rfl c1⟩
      rw [if_neg c3]
      by_cases c4 : IsMove a ∧ s.relative = false
      · rw [if_pos c4]
        cases he : a.e with
        | none => exact ⟨rfl, tail _ rfl c1⟩
        | some e =>
          exfalso
          rcases hs with hs | hs
          · rw [c4.2] at hs; simp at hs
          · obtain ⟨m, hm, _⟩ := hs [] a ls rfl c4.1 (by rw [he]; simp)
            simp at hm
      · rw [if_neg c4]; exact ⟨rfl, tail _ rfl c1⟩
    simp only [scan]
    rw [key.1, ih (fun l hl => h82 l (by simp [hl])) _ key.2]

end GCodeUtils
