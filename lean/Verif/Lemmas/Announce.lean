import Verif.Spec.Announce
import Verif.Lemmas.CuraLoops

/-
  The loop marks follow the comments of the slicers.
-/

set_option linter.unusedSectionVars false

namespace GCodeUtils

open Spec

variable {α : Type} [Field α] [LinearOrder α] [IsStrictOrderedRing α] [FloorRing α]

/-! ### texts -/

/-- A text that cannot reach into `s`. -/
def NoOverlap (t s : Str) : Prop := ∀ v ∈ t.tails, v ≠ [] → v ≠ t → ¬ v <+: s

instance (t s : Str) : Decidable (NoOverlap t s) := by unfold NoOverlap; infer_instance

theorem infix_append_iff {t s : Str} (h : NoOverlap t s) (a : Str) : t <:+: a ++ s ↔ t <:+: a ∨ t <:+: s := by
  constructor
  · rintro ⟨p, q, e⟩
    rcases List.append_eq_append_iff.1 e with ⟨u, e1, e2⟩ | ⟨u, e1, e2⟩
    · exact .inl ⟨p, u, e1.symm⟩
    · rcases List.append_eq_append_iff.1 e1 with ⟨v, f1, f2⟩ | ⟨v, f1, f2⟩
      · -- `u` is a suffix of `t`
        by_cases hv : u = []
        · subst hv
          left
          rw [List.append_nil] at f2
          exact ⟨p, [], by rw [List.append_nil, f2, f1]⟩
        · by_cases ht : u = t
          · right
            exact ⟨[], q, by rw [List.nil_append, ← ht, e2]⟩
          · exact absurd ⟨q, e2.symm⟩ (h u ((List.mem_tails _ _).2 ⟨v, f2.symm⟩) hv ht)
      · right
        exact ⟨v, q, by rw [e2, f2]⟩
  · rintro (h | h)
    · exact h.trans (List.infix_append' [] a s)
    · exact h.trans ⟨a, [], by simp⟩

/-- The texts the filters look for. -/
def soughtTexts : List Str :=
  [c!"stretch-loop-start stretch-inner-edge-start", c!"stretch-loop-start stretch-outer-edge-start", c!"stretch-loop-start", c!"stretch-loop-stop",
   c!"; perimeter external", c!"; perimeter", c!"; move to first perimeter point", c!"unretract"]

theorem sought_addMark {t sep m : Str} (l : PyLine α) (ht : t ∈ soughtTexts) (hsep : sep ∈ [c!" ; ", c!"; "]) (hm : m ∈ markTexts) :
    t <:+: (addMark sep m l).raw ↔ t <:+: l.raw ∨ t <:+: m := by
  have hall : ∀ t ∈ soughtTexts, ∀ sep ∈ [c!" ; ", c!"; "], ∀ m ∈ markTexts, NoOverlap t (sep ++ m) ∧ (t <:+: sep ++ m ↔ t <:+: m) := by
    decide +kernel
  obtain ⟨h1, h2⟩ := hall t ht sep hsep m hm
  show t <:+: l.raw ++ sep ++ m ↔ _
  rw [List.append_assoc, infix_append_iff h1, h2]

/-! ### Cura, one line -/

/-- The announcements that the Cura pass knows. -/
def curaKnown (l : PyLine α) : Option (Option LoopKind) :=
  if c!"TYPE:WALL-OUTER" <:+: l.raw then some (some .outer)
  else if c!"TYPE:WALL-INNER" <:+: l.raw then some (some .inner)
  else if c!"TYPE:SKIN" <:+: l.raw then some (some .other)
  else if c!"TYPE:FILL" <:+: l.raw then some none
  else none

/-- The loop that the Cura pass takes a line to be in. -/
def curaKnownKind (ls : List (PyLine α)) (n : ℕ) : Option LoopKind :=
  if n + 1 = ls.length ∨ (ls[n]?.bind curaKnown).isSome then none else ((ls.take n).filterMap curaKnown).getLast?.join

/-- The kind of loop that a pending mark opens. -/
def kindOf : Bool × Bool → LoopKind
  | (true, true) => .outer
  | (true, false) => .inner
  | (false, _) => .other

/-- The pending mark for a kind of loop. -/
def pendOf : LoopKind → Bool × Bool
  | .outer => (true, true)
  | .inner => (true, false)
  | .other => (false, false)

theorem edge_sought {t : Str} (ht : t ∈ [innerEdgeMarker, outerEdgeMarker]) : t ∈ soughtTexts := by
  have : ∀ t ∈ [innerEdgeMarker, outerEdgeMarker], t ∈ soughtTexts := by decide
  exact this t ht

theorem edge_addMark {t m : Str} (l : PyLine α) (ht : t ∈ [innerEdgeMarker, outerEdgeMarker]) (hm : m ∈ markTexts) (hne : ¬ t <:+: m) :
    t <:+: (addMark c!" ; " m l).raw ↔ t <:+: l.raw := by
  rw [sought_addMark l (edge_sought ht) (by decide) hm]
  simp [hne]

theorem edge_annotate {t : Str} (s : AnnSt α) (l : PyLine α) (ht : t ∈ [innerEdgeMarker, outerEdgeMarker]) :
    t <:+: (annotateExtrusion s l).2.raw ↔ t <:+: l.raw := by
  have h1 : ∀ t ∈ [innerEdgeMarker, outerEdgeMarker], ¬ t <:+: extrusionOnMarker ∧ ¬ t <:+: extrusionOffMarker := by decide
  unfold annotateExtrusion
  split_ifs
  · exact edge_addMark l ht (by decide) (h1 t ht).1
  · exact edge_addMark l ht (by decide) (h1 t ht).2
  · exact Iff.rfl

theorem edge_stopMark {t : Str} (l : PyLine α) (ht : t ∈ [innerEdgeMarker, outerEdgeMarker]) :
    t <:+: (addMark c!" ; " loopStopMarker l).raw ↔ t <:+: l.raw := by
  have h1 : ∀ t ∈ [innerEdgeMarker, outerEdgeMarker], ¬ t <:+: loopStopMarker := by decide
  exact edge_addMark l ht (by decide) (h1 t ht)

theorem edge_stop {t : Str} (s : AnnSt α) (l : PyLine α) (ht : t ∈ [innerEdgeMarker, outerEdgeMarker]) :
    t <:+: (curaStop s l).2.raw ↔ t <:+: l.raw := by
  unfold curaStop
  by_cases h : s.type ≠ .unknown
  · simp only [if_pos h]; exact edge_stopMark l ht
  · simp only [if_neg h]

theorem edge_type {t : Str} (s : AnnSt α) (l : PyLine α) (ht : t ∈ [innerEdgeMarker, outerEdgeMarker]) :
    t <:+: (curaType s l).2.raw ↔ t <:+: l.raw := by
  unfold curaType
  split_ifs
  · exact edge_stop s l ht
  · exact edge_stop s l ht
  · exact edge_stop s l ht
  · exact edge_stop s l ht
  · exact Iff.rfl

/-- The mark that a pending announcement adds. -/
def pendingMark : Bool × Bool → Str
  | (true, true) => outerEdgeMarker
  | (true, false) => innerEdgeMarker
  | (false, _) => loopStartMarker

theorem edge_next {t : Str} (s : AnnSt α) (l : PyLine α) (ht : t ∈ [innerEdgeMarker, outerEdgeMarker]) :
    t <:+: (curaNext s l).2.raw ↔ t <:+: l.raw ∨ ∃ p, s.next = some p ∧ t <:+: pendingMark p := by
  unfold curaNext
  cases hn : s.next with
  | none => simp
  | some p =>
    obtain ⟨ext, outer⟩ := p
    have he : (if ext then (if outer then addMark c!" ; " outerEdgeMarker l else addMark c!" ; " innerEdgeMarker l) else addMark c!" ; " loopStartMarker l) =
        addMark c!" ; " (pendingMark (ext, outer)) l := by
      cases ext <;> cases outer <;> rfl
    have hm : pendingMark (ext, outer) ∈ markTexts := by cases ext <;> cases outer <;> decide
    simp only [curaPerimeter, he, Option.some.injEq, exists_eq_left']
    by_cases h : s.type ≠ .unknown
    · rw [if_pos h, edge_stopMark _ ht, sought_addMark l (edge_sought ht) (by decide) hm]
    · rw [if_neg h, sought_addMark l (edge_sought ht) (by decide) hm]

theorem edge_marks {t : Str} (s : AnnSt α) (l : PyLine α) (last : Bool) (ht : t ∈ [innerEdgeMarker, outerEdgeMarker]) :
    t <:+: (curaMarks s l last).2.raw ↔ t <:+: l.raw ∨ ∃ p, s.next = some p ∧ t <:+: pendingMark p := by
  have h1 := edge_next (annotateExtrusion s l).1 (annotateExtrusion s l).2 ht
  rw [edge_annotate s l ht, (annotateExtrusion_loop s l).2.1] at h1
  unfold curaMarks
  simp only
  by_cases h : last = true
  · rw [if_pos h, edge_stop _ _ ht, edge_type _ _ ht, h1]
  · rw [if_neg h, edge_type _ _ ht, h1]

theorem unmarked_edges {l : PyLine α} (h : ¬ c!"stretch-loop-start" <:+: l.raw) {t : Str} (ht : t ∈ [innerEdgeMarker, outerEdgeMarker]) :
    ¬ t <:+: l.raw := by
  have hall : ∀ t ∈ [innerEdgeMarker, outerEdgeMarker], c!"stretch-loop-start" <:+: t := by decide
  exact fun hc => h ((hall t ht).trans hc)

theorem anyType_iff (l : PyLine α) : AnyType l ↔ curaKnown l ≠ none := by
  unfold AnyType OpensType curaKnown
  split_ifs <;> simp_all

theorem loopStep_markers (st : Option LoopKind) (l : PyLine α) : loopStep st l =
    if innerEdgeMarker <:+: l.raw then some .inner else if outerEdgeMarker <:+: l.raw then some .outer
    else if c!"stretch-loop-start" <:+: l.raw then some .other else if c!"stretch-loop-stop" <:+: l.raw then none else st := by
  have h1 : innerEdgeMarker = c!"stretch-loop-start stretch-inner-edge-start" := by decide
  have h2 : outerEdgeMarker = c!"stretch-loop-start stretch-outer-edge-start" := by decide
  rw [h1, h2]
  unfold loopStep
  by_cases a1 : c!"stretch-loop-start stretch-inner-edge-start" <:+: l.raw
  · rw [if_pos a1, if_pos a1]
  rw [if_neg a1, if_neg a1]
  by_cases a2 : c!"stretch-loop-start stretch-outer-edge-start" <:+: l.raw
  · rw [if_pos a2, if_pos a2]
  rw [if_neg a2, if_neg a2]
  by_cases a3 : c!"stretch-loop-start" <:+: l.raw
  · rw [if_pos a3, if_pos a3]
  rw [if_neg a3, if_neg a3]
  by_cases a4 : c!"stretch-loop-stop" <:+: l.raw
  · rw [if_pos a4, if_pos a4]
  rw [if_neg a4, if_neg a4]

/-- The loop that a marked line belongs to. -/
theorem curaMarks_step (s : AnnSt α) (l : PyLine α) (last : Bool) (st : Option LoopKind) (hinv : s.next ≠ none → s.type = .unknown)
    (h1 : ¬ c!"stretch-loop-start" <:+: l.raw) (h2 : ¬ c!"stretch-loop-stop" <:+: l.raw) :
    loopStep st (curaMarks s l last).2 = match s.next with
      | some p => some (kindOf p)
      | none => if (curaKnown l ≠ none ∨ last = true) ∧ s.type ≠ .unknown then none else st := by
  obtain ⟨k1, k2, _, _⟩ := curaMarks_loop s l last hinv h1 h2
  rw [anyType_iff] at k2
  have ki := edge_marks s l last (t := innerEdgeMarker) (by simp)
  have ko := edge_marks s l last (t := outerEdgeMarker) (by simp)
  have ni := unmarked_edges h1 (t := innerEdgeMarker) (by simp)
  have no := unmarked_edges h1 (t := outerEdgeMarker) (by simp)
  rw [loopStep_markers]
  cases hn : s.next with
  | none =>
    simp only [hn, reduceCtorEq, false_and, exists_false, or_false, ne_eq, not_true_eq_false, false_or] at ki ko k1 k2
    rw [if_neg (fun h => ni (ki.1 h)), if_neg (fun h => no (ko.1 h)), if_neg (fun h => k1.1 h)]
    by_cases hc : (¬ curaKnown l = none ∨ last = true) ∧ ¬ s.type = .unknown
    · rw [if_pos (k2.2 hc), if_pos hc]
    · rw [if_neg (fun h => hc (k2.1 h)), if_neg hc]
  | some p =>
    simp only [hn, Option.some.injEq, exists_eq_left', ne_eq, reduceCtorEq, not_false_eq_true, iff_true] at ki ko k1
    obtain ⟨ext, outer⟩ := p
    cases ext
    · have a1 : ¬ innerEdgeMarker <:+: pendingMark (false, outer) := by cases outer <;> decide
      have a2 : ¬ outerEdgeMarker <:+: pendingMark (false, outer) := by cases outer <;> decide
      rw [if_neg (fun h => (ki.1 h).elim ni a1), if_neg (fun h => (ko.1 h).elim no a2), if_pos k1]
      rfl
    · cases outer
      · rw [if_pos (ki.2 (.inr (by decide)))]; rfl
      · have a1 : ¬ innerEdgeMarker <:+: pendingMark (true, true) := by decide
        rw [if_neg (fun h => (ki.1 h).elim ni a1), if_pos (ko.2 (.inr (by decide)))]; rfl

/-- The pending announcement after a line. -/
theorem curaMarks_next (s : AnnSt α) (l : PyLine α) (last : Bool) :
    (curaMarks s l last).1.next = match curaKnown l with
      | some (some .outer) => some (true, true)
      | some (some .inner) => some (true, false)
      | some (some .other) => some (false, false)
      | _ => none := by
  obtain ⟨a1, a2, a3, a4, a5⟩ := annotateExtrusion_loop s l
  obtain ⟨b1, b2⟩ := curaNext_loop (annotateExtrusion s l).1 (annotateExtrusion s l).2
  rw [a1, a2] at b2
  rw [a2] at b1
  have hN : ∃ s1 l1, curaNext (annotateExtrusion s l).1 (annotateExtrusion s l).2 = (s1, l1) ∧ s1.next = none ∧
      ∀ t ∈ [c!"TYPE:WALL-OUTER", c!"TYPE:WALL-INNER", c!"TYPE:SKIN", c!"TYPE:FILL"], (t <:+: l1.raw ↔ t <:+: l.raw) := by
    by_cases hn : s.next = none
    · exact ⟨_, _, b1 hn, by rw [a2, hn], a5⟩
    · obtain ⟨c1, c2, c3, c4, c5⟩ := b2 hn
      exact ⟨_, _, rfl, c2, fun t ht => (c5 t ht).trans (a5 t ht)⟩
  obtain ⟨s1, l1, he, n1, n5⟩ := hN
  have hT : (curaType s1 l1).1.next = match curaKnown l with
      | some (some .outer) => some (true, true)
      | some (some .inner) => some (true, false)
      | some (some .other) => some (false, false)
      | _ => none := by
    unfold curaType curaKnown
    simp only [hasSub_iff]
    simp only [n5 _ (show c!"TYPE:WALL-OUTER" ∈ _ by decide), n5 _ (show c!"TYPE:WALL-INNER" ∈ _ by decide), n5 _ (show c!"TYPE:SKIN" ∈ _ by decide),
      n5 _ (show c!"TYPE:FILL" ∈ _ by decide)]
    split_ifs
    · rfl
    · rfl
    · rfl
    · exact (curaStop_loop s1 l1).2.1.trans n1
    · exact n1
  unfold curaMarks
  simp only [he]
  by_cases h : last = true
  · rw [if_pos h, (curaStop_loop _ _).2.1, hT]
  · rw [if_neg h, hT]

theorem opensType_iff (l : PyLine α) : OpensType l → ∃ k, curaKnown l = some (some k) := by
  unfold OpensType curaKnown
  split_ifs <;> simp_all

/-! ### Cura, one layer -/

theorem getLast_said {β γ : Type} (f : β → Option γ) (l : β) (xs : List β) (d : γ) :
    ((l :: xs).filterMap f).getLast?.getD d = (xs.filterMap f).getLast?.getD ((f l).getD d) := by
  cases hl : f l with
  | none => rw [List.filterMap_cons_none hl]; rfl
  | some c =>
    rw [List.filterMap_cons_some hl]
    cases hx : xs.filterMap f with
    | nil => rfl
    | cons a b => rw [List.getLast?_cons_cons]; rw [List.getLast?_eq_some_getLast (by simp)]; rfl

theorem curaLines_kinds {repo : StretchRepo α} {profile : ProfileOracle α} : ∀ (ls out : List (PyLine α)) (s s' : AnnSt α) (st τ : Option LoopKind),
    Unmarked ls → Spaced ls →
    ((s.next = none ∧ st = τ ∧ (s.type = .unknown ↔ τ = none)) ∨
      (∃ p, s.next = some p ∧ some (kindOf p) = τ ∧ s.type = .unknown ∧ ∀ l, ls.head? = some l → ¬ AnyType l ∧ 1 < ls.length)) →
    curaLines repo profile s ls = .ok (s', out) → ∀ n, n < ls.length →
    (out.take (n + 1)).foldl loopStep st =
      if n + 1 = ls.length ∨ (ls[n]?.bind curaKnown).isSome then none else ((ls.take n).filterMap curaKnown).getLast?.getD τ := by
  intro ls
  induction ls with
  | nil => intro out s s' st τ _ _ _ _ n hn; exact absurd hn (Nat.not_lt_zero _)
  | cons l rest ih =>
    intro out s s' st τ hu hsp hinv h n hn
    rw [curaLines] at h
    cases e1 : curaLine repo profile s l rest.isEmpty with
    | error er => rw [e1] at h; cases h
    | ok p =>
      obtain ⟨s1, l1⟩ := p
      rw [e1] at h
      simp only at h
      cases e2 : curaLines repo profile s1 rest with
      | error er => rw [e2] at h; cases h
      | ok q =>
        obtain ⟨s2, out2⟩ := q
        rw [e2] at h
        simp only [Except.ok.injEq, Prod.mk.injEq] at h
        obtain ⟨rfl, rfl⟩ := h
        obtain ⟨k1, k2, k3⟩ := curaLine_state' e1
        have hul := hu l (by simp)
        have hnx : s.next ≠ none → s.type = .unknown := by
          intro hne
          rcases hinv with ⟨h1, _⟩ | ⟨p, _, _, h1, _⟩
          · exact absurd h1 hne
          · exact h1
        have hstep := curaMarks_step s l rest.isEmpty st hnx hul.1 hul.2
        obtain ⟨_, _, m3, _⟩ := curaMarks_loop s l rest.isEmpty hnx hul.1 hul.2
        have m4 := curaMarks_next s l rest.isEmpty
        rw [← k1] at hstep
        rw [← k2] at m3
        rw [← k3] at m4
        -- the line itself
        have hhere : loopStep st l1 = if rest = [] ∨ curaKnown l ≠ none then none else τ := by
          rw [hstep]
          rcases hinv with ⟨h1, h2, h3⟩ | ⟨p, h1, h2, h3, h4⟩
          · rw [h1]
            simp only
            by_cases hc : rest = [] ∨ curaKnown l ≠ none
            · rw [if_pos hc]
              by_cases ht : s.type = .unknown
              · rw [if_neg (fun hh => hh.2 ht), h2, h3.1 ht]
              · rw [if_pos ⟨hc.elim (fun hr => .inr (by rw [hr]; rfl)) .inl, ht⟩]
            · rw [if_neg hc, if_neg, h2]
              rintro ⟨hh | hh, _⟩
              · exact hc (.inr hh)
              · exact hc (.inl (List.isEmpty_iff.1 hh))
          · rw [h1]
            obtain ⟨ha, hlen⟩ := h4 l rfl
            have hno : ¬ (rest = [] ∨ curaKnown l ≠ none) := by
              rintro (hr | hr)
              · rw [hr] at hlen; simp at hlen
              · exact ha ((anyType_iff l).2 hr)
            rw [if_neg hno, ← h2]
        cases n with
        | zero =>
          rw [zero_add, List.take_succ_cons, List.take_zero, List.foldl_cons, List.foldl_nil, hhere]
          simp only [List.length_cons, List.getElem?_cons_zero, Option.bind_some, List.take_zero, List.filterMap_nil, List.getLast?_nil, Option.getD_none]
          refine if_congr ?_ rfl rfl
          rw [Option.isSome_iff_ne_none]
          cases rest <;> simp
        | succ n =>
          rw [List.take_succ_cons, List.foldl_cons]
          have hn' : n < rest.length := by simpa using hn
          have hne : rest ≠ [] := by rintro rfl; exact absurd hn' (Nat.not_lt_zero _)
          have hemp : rest.isEmpty = false := by cases rest <;> simp at hne ⊢
          rw [ih out2 s1 s2 (loopStep st l1) ((curaKnown l).getD τ) (fun x hx => hu x (List.mem_cons_of_mem _ hx)) ?_ ?_ e2 n hn']
          · rw [List.take_succ_cons, getLast_said]
            simp
          · intro i a b ha hb ho
            have := hsp (i + 1) a b (by simpa using ha) (by simpa using hb) ho
            refine ⟨this.1, ?_⟩
            have h2 := this.2
            simp only [List.length_cons] at h2
            omega
          · rw [hemp] at m3
            simp only [true_and] at m3
            rw [anyType_iff] at m3
            cases hs : curaKnown l with
            | none =>
              left
              rw [hs] at m4 m3 hhere
              refine ⟨m4, by rw [hhere, if_neg (by simp [hne])]; rfl, ?_⟩
              simp only [ne_eq, not_true_eq_false, not_false_eq_true, true_and, Option.getD_none] at m3 ⊢
              rcases hinv with ⟨h1, h2, h3⟩ | ⟨p, h1, h2, h3, h4⟩
              · simp only [h1, not_true_eq_false, false_or] at m3
                exact (not_iff_not.1 m3).trans h3
              · rw [← h2]
                simp only [reduceCtorEq, iff_false]
                exact m3.2 (.inl (by simp [h1]))
            | some k =>
              have hun : s1.type = .unknown := by
                by_contra hc
                exact (m3.1 hc).1 (by simp [hs])
              rw [hs] at m4 hhere
              cases k with
              | none =>
                left
                refine ⟨m4, by rw [hhere, if_pos (by simp)]; rfl, ?_⟩
                simp [hun]
              | some k =>
                right
                have hopen : OpensType l := by
                  unfold curaKnown at hs
                  unfold OpensType
                  by_contra hc
                  rw [not_or, not_or] at hc
                  rw [if_neg hc.1, if_neg hc.2.1, if_neg hc.2.2] at hs
                  split_ifs at hs; simp at hs
                refine ⟨pendOf k, ?_, ?_, hun, ?_⟩
                · rw [m4]; cases k <;> rfl
                · cases k <;> rfl
                · intro x hx
                  have hx0 : rest[0]? = some x := by rw [← List.head?_eq_getElem?]; exact hx
                  have := hsp 0 l x (by simp) (by simpa using hx0) hopen
                  refine ⟨this.1, ?_⟩
                  have h2 := this.2
                  simp only [List.length_cons] at h2
                  omega

theorem curaLines_kind {repo : StretchRepo α} {profile : ProfileOracle α} {ls out : List (PyLine α)} {s s' : AnnSt α} (hu : Unmarked ls) (hsp : Spaced ls)
    (hn : s.next = none) (ht : s.type = .unknown) (h : curaLines repo profile s ls = .ok (s', out)) {n : ℕ} (hlt : n < ls.length) :
    (out.take (n + 1)).foldl loopStep none = curaKnownKind ls n := by
  rw [curaLines_kinds ls out s s' none none hu hsp (.inl ⟨hn, rfl, by simp [ht]⟩) h n hlt]
  unfold curaKnownKind
  split_ifs
  · rfl
  · cases (List.filterMap curaKnown (List.take n ls)).getLast? <;> rfl

theorem known_said {l : PyLine α} (h : c!";TYPE:" <+: l.raw → AnyType l) : curaKnown l = curaSaid l := by
  unfold curaKnown curaSaid
  unfold AnyType OpensType at h
  by_cases h1 : c!"TYPE:WALL-OUTER" <:+: l.raw
  · rw [if_pos h1, if_pos h1]
  rw [if_neg h1, if_neg h1]
  by_cases h2 : c!"TYPE:WALL-INNER" <:+: l.raw
  · rw [if_pos h2, if_pos h2]
  rw [if_neg h2, if_neg h2]
  by_cases h3 : c!"TYPE:SKIN" <:+: l.raw
  · rw [if_pos h3, if_pos h3]
  rw [if_neg h3, if_neg h3]
  by_cases h4 : c!"TYPE:FILL" <:+: l.raw
  · rw [if_pos h4, if_pos (.inl h4)]
  rw [if_neg h4, if_neg]
  rintro (hc | hc)
  · exact h4 hc
  · rcases h hc with (h | h | h) | h
    · exact h1 h
    · exact h2 h
    · exact h3 h
    · exact h4 h

theorem known_kind {ls : List (PyLine α)} (hk : KnownTypes ls) {n : ℕ} (hn : n + 1 ≠ ls.length) : curaKnownKind ls n = curaKind ls n := by
  have hmap : ∀ l ∈ ls, curaKnown l = curaSaid l := fun l hl => known_said (hk l hl)
  unfold curaKnownKind curaKind
  have e1 : ls[n]?.bind curaKnown = ls[n]?.bind curaSaid := by
    cases hg : ls[n]? with
    | none => rfl
    | some l => exact hmap l (List.mem_of_getElem? hg)
  have e2 : (ls.take n).filterMap curaKnown = (ls.take n).filterMap curaSaid :=
    List.filterMap_congr (fun l hl => hmap l (List.mem_of_mem_take hl))
  rw [e1, e2]
  simp [hn]

/-! ### Slic3r, one line -/

/-- A line without loop marks. -/
def Bare (l : PyLine α) : Prop := ¬ c!"stretch-loop-start" <:+: l.raw ∧ ¬ c!"stretch-loop-stop" <:+: l.raw

theorem bare_step (st : Option LoopKind) {l : PyLine α} (h : Bare l) : loopStep st l = st := by
  rw [loopStep_markers, if_neg (unmarked_edges h.1 (by simp)), if_neg (unmarked_edges h.1 (by simp)), if_neg h.1, if_neg h.2]

theorem bare_add {l : PyLine α} {sep m : Str} (h : Bare l) (hsep : sep ∈ [c!" ; ", c!"; "]) (hm : m ∈ [extrusionOnMarker, extrusionOffMarker]) :
    Bare (addMark sep m l) := by
  have hall : ∀ m ∈ [extrusionOnMarker, extrusionOffMarker], m ∈ markTexts ∧ ¬ c!"stretch-loop-start" <:+: m ∧ ¬ c!"stretch-loop-stop" <:+: m := by decide
  obtain ⟨h1, h2, h3⟩ := hall m hm
  unfold Bare
  rw [sought_addMark l (by decide) hsep h1, sought_addMark l (by decide) hsep h1]
  exact ⟨fun hc => hc.elim h.1 h2, fun hc => hc.elim h.2 h3⟩

/-- The kind of loop that a mark opens. -/
def markKind (m : Str) : LoopKind := if m = innerEdgeMarker then .inner else if m = outerEdgeMarker then .outer else .other

theorem start_step (st : Option LoopKind) {l : PyLine α} {sep m : Str} (h : Bare l) (hsep : sep ∈ [c!" ; ", c!"; "])
    (hm : m ∈ [innerEdgeMarker, outerEdgeMarker, loopStartMarker]) :
    loopStep st (addMark sep m l) = some (markKind m) ∧ loopStep st (addMark c!" ; " loopStopMarker (addMark sep m l)) = some (markKind m) := by
  have hall : ∀ m ∈ [innerEdgeMarker, outerEdgeMarker, loopStartMarker], m ∈ markTexts ∧ c!"stretch-loop-start" <:+: m ∧
      (innerEdgeMarker <:+: m ↔ m = innerEdgeMarker) ∧ (outerEdgeMarker <:+: m ↔ m = outerEdgeMarker) := by decide +kernel
  obtain ⟨h1, h2, h3, h4⟩ := hall m hm
  have ni := unmarked_edges h.1 (t := innerEdgeMarker) (by simp)
  have no := unmarked_edges h.1 (t := outerEdgeMarker) (by simp)
  have ki : innerEdgeMarker <:+: (addMark sep m l).raw ↔ m = innerEdgeMarker := by
    rw [sought_addMark l (by decide) hsep h1, h3]
    simp [ni]
  have ko : outerEdgeMarker <:+: (addMark sep m l).raw ↔ m = outerEdgeMarker := by
    rw [sought_addMark l (by decide) hsep h1, h4]
    simp [no]
  have ks : c!"stretch-loop-start" <:+: (addMark sep m l).raw := by
    rw [sought_addMark l (by decide) hsep h1]
    exact .inr h2
  have ks' : c!"stretch-loop-start" <:+: (addMark c!" ; " loopStopMarker (addMark sep m l)).raw := by
    rw [sought_addMark _ (by decide) (by decide) (by decide)]
    exact .inl ks
  unfold markKind
  refine ⟨?_, ?_⟩
  · rw [loopStep_markers, if_pos ks]
    by_cases e1 : m = innerEdgeMarker
    · rw [if_pos (ki.2 e1), if_pos e1]
    rw [if_neg (fun h => e1 (ki.1 h)), if_neg e1]
    by_cases e2 : m = outerEdgeMarker
    · rw [if_pos (ko.2 e2), if_pos e2]
    rw [if_neg (fun h => e2 (ko.1 h)), if_neg e2]
  · rw [loopStep_markers, if_pos ks']
    have ki' := (edge_stopMark (addMark sep m l) (t := innerEdgeMarker) (by simp)).trans ki
    have ko' := (edge_stopMark (addMark sep m l) (t := outerEdgeMarker) (by simp)).trans ko
    by_cases e1 : m = innerEdgeMarker
    · rw [if_pos (ki'.2 e1), if_pos e1]
    rw [if_neg (fun h => e1 (ki'.1 h)), if_neg e1]
    by_cases e2 : m = outerEdgeMarker
    · rw [if_pos (ko'.2 e2), if_pos e2]
    rw [if_neg (fun h => e2 (ko'.1 h)), if_neg e2]

theorem stop_step (st : Option LoopKind) {l : PyLine α} {sep : Str} (h : Bare l) (hsep : sep ∈ [c!" ; ", c!"; "]) :
    loopStep st (addMark sep loopStopMarker l) = none := by
  rw [loopStep_none_iff, sought_addMark l (by decide) hsep (by decide), sought_addMark l (by decide) hsep (by decide)]
  exact ⟨fun hc => hc.elim h.1 (by decide), .inl (.inr (by decide))⟩

/-- The type that the Slic3r pass remembers in a perimeter. -/
def typeOf : Option Bool → LoopType
  | none => .unknown
  | some true => .external
  | some false => .extra

theorem slic3rPerimeter_step (s : AnnSt α) (l : PyLine α) (ext : Bool) (st : Option LoopKind) (h : Bare l) :
    (slic3rPerimeter s l ext).1.type = typeOf (some ext) ∧ (slic3rPerimeter s l ext).1.nextOuter = (s.nextOuter && !ext) ∧
    loopStep st (slic3rPerimeter s l ext).2 = some (if ext then (if s.nextOuter then .outer else .inner) else .other) := by
  have hk : ∀ m ∈ [innerEdgeMarker, outerEdgeMarker, loopStartMarker], ∀ (p : Prop) [Decidable p],
      loopStep st (if p then addMark c!" ; " loopStopMarker (addMark c!" ; " m l) else addMark c!" ; " m l) = some (markKind m) := by
    intro m hm p _
    obtain ⟨h1, h2⟩ := start_step st h (sep := c!" ; ") (by decide) hm
    split_ifs
    · exact h2
    · exact h1
  unfold slic3rPerimeter
  cases ext with
  | true =>
    simp only [if_true]
    cases hn : s.nextOuter with
    | true =>
      simp only [if_true]
      refine ⟨rfl, rfl, ?_⟩
      rw [hk outerEdgeMarker (by simp)]
      decide
    | false =>
      simp only [Bool.false_eq_true, if_false]
      refine ⟨rfl, hn, ?_⟩
      rw [hk innerEdgeMarker (by simp)]
      decide
  | false =>
    simp only [Bool.false_eq_true, if_false]
    refine ⟨rfl, by simp, ?_⟩
    rw [hk loopStartMarker (by simp)]
    decide

/-- The perimeter marks of the Slic3r pass. -/
def slic3rType (s : AnnSt α) (l : PyLine α) (rest : List (PyLine α)) : AnnSt α × PyLine α :=
  if hasSub c!"; perimeter external" l.raw then
    if s.type ≠ .external then slic3rPerimeter s l true else (s, l)
  else if hasSub c!"; perimeter" l.raw then
    if s.type ≠ .extra then slic3rPerimeter s l false else (s, l)
  else if hasSub c!"; move to first perimeter point" l.raw then
    match nextPerimeter rest with
    | some ext => slic3rPerimeter s l ext
    | none => (s, l)
  else if !hasSub c!"unretract" l.raw then
    ({ s with type := .unknown }, if s.type ≠ .unknown then addMark c!" ; " loopStopMarker l else l)
  else (s, l)

theorem slic3rLine_type {repo : StretchRepo α} {s s' : AnnSt α} {l l' : PyLine α} {rest : List (PyLine α)}
    (h : slic3rLine repo s l rest = .ok (s', l')) :
    l' = (slic3rType (annotateExtrusion s l).1 (annotateExtrusion s l).2 rest).2 ∧
    s'.type = (slic3rType (annotateExtrusion s l).1 (annotateExtrusion s l).2 rest).1.type ∧
    s'.nextOuter = (slic3rType (annotateExtrusion s l).1 (annotateExtrusion s l).2 rest).1.nextOuter := by
  have h' : (match slic3rEdgeWidth (slic3rType (annotateExtrusion s l).1 (annotateExtrusion s l).2 rest).2.raw with
      | some t =>
        match edgeFromText repo t with
        | .error er => .error er
        | .ok d => .ok ({ (slic3rType (annotateExtrusion s l).1 (annotateExtrusion s l).2 rest).1 with dist := some d, found := true },
            (slic3rType (annotateExtrusion s l).1 (annotateExtrusion s l).2 rest).2)
      | none => .ok (slic3rType (annotateExtrusion s l).1 (annotateExtrusion s l).2 rest)) = (Except.ok (s', l') : Except Err _) := h
  generalize slic3rType (annotateExtrusion s l).1 (annotateExtrusion s l).2 rest = q at h'
  cases hw : slic3rEdgeWidth q.2.raw with
  | none => rw [hw] at h'; simp only [Except.ok.injEq] at h'; rw [h']; exact ⟨rfl, rfl, rfl⟩
  | some t =>
    rw [hw] at h'
    simp only at h'
    cases he : edgeFromText repo t with
    | error er => rw [he] at h'; cases h'
    | ok d => rw [he] at h'; simp only [Except.ok.injEq, Prod.mk.injEq] at h'; rw [← h'.1, ← h'.2]; exact ⟨rfl, rfl, rfl⟩

theorem external_perimeter {s : Str} (h : c!"; perimeter external" <:+: s) : c!"; perimeter" <:+: s :=
  List.IsInfix.trans ⟨[], c!" external", rfl⟩ h

theorem nextPerimeter_eq (ls : List (PyLine α)) : nextPerimeter ls = firstPerimeter ls := by
  unfold firstPerimeter
  induction ls with
  | nil => rfl
  | cons l rest ih =>
    rw [nextPerimeter]
    simp only [hasSub_iff]
    by_cases h1 : c!"; perimeter external" <:+: l.raw
    · rw [if_pos h1, List.find?_cons_of_pos (by simpa using external_perimeter h1)]
      simp [h1]
    · rw [if_neg h1]
      by_cases h2 : c!"; perimeter" <:+: l.raw
      · rw [if_pos h2, List.find?_cons_of_pos (by simpa using h2)]
        simp [h1]
      · rw [if_neg h2, List.find?_cons_of_neg (by simpa using h2)]
        exact ih

/-- The kind of loop in a perimeter. -/
def perimeterKind (ext : ℕ) : Option Bool → Option LoopKind
  | none => none
  | some false => some .other
  | some true => some (if ext = 1 then .outer else .inner)

theorem annotate_sought (s : AnnSt α) (l : PyLine α) {t : Str} (ht : t ∈ [c!"; perimeter external", c!"; perimeter", c!"; move to first perimeter point", c!"unretract"]) :
    t <:+: (annotateExtrusion s l).2.raw ↔ t <:+: l.raw := by
  have hall : ∀ t ∈ [c!"; perimeter external", c!"; perimeter", c!"; move to first perimeter point", c!"unretract"],
      t ∈ soughtTexts ∧ ¬ t <:+: extrusionOnMarker ∧ ¬ t <:+: extrusionOffMarker := by decide
  obtain ⟨h0, h1, h2⟩ := hall t ht
  unfold annotateExtrusion
  split_ifs
  · rw [sought_addMark l h0 (by decide) (by decide)]; simp [h1]
  · rw [sought_addMark l h0 (by decide) (by decide)]; simp [h2]
  · exact Iff.rfl

theorem annotate_bare (s : AnnSt α) {l : PyLine α} (h : Bare l) : Bare (annotateExtrusion s l).2 := by
  unfold annotateExtrusion
  split_ifs
  · exact bare_add h (by decide) (by simp)
  · exact bare_add h (by decide) (by simp)
  · exact h

theorem annotate_state (s : AnnSt α) (l : PyLine α) : (annotateExtrusion s l).1.type = s.type ∧ (annotateExtrusion s l).1.nextOuter = s.nextOuter := by
  unfold annotateExtrusion
  split_ifs <;> exact ⟨rfl, rfl⟩

/-- One line of the Slic3r pass. -/
theorem slic3rLine_kind {repo : StretchRepo α} {s s' : AnnSt α} {l l' : PyLine α} {rest : List (PyLine α)} {cur : Option Bool} {ext : ℕ}
    (h : slic3rLine repo s l rest = .ok (s', l')) (hb : Bare l) (ht : s.type = typeOf cur) (hn : s.nextOuter = decide (ext = 0)) :
    s'.type = typeOf ((slic3rSaid l rest).getD cur) ∧
    s'.nextOuter = decide ((if slic3rSaid l rest = some (some true) ∧ (cur ≠ some true ∨ ToPerimeter l) then ext + 1 else ext) = 0) ∧
    loopStep (perimeterKind ext cur) l' =
      perimeterKind (if slic3rSaid l rest = some (some true) ∧ (cur ≠ some true ∨ ToPerimeter l) then ext + 1 else ext) ((slic3rSaid l rest).getD cur) := by
  obtain ⟨e1, e2, e3⟩ := slic3rLine_type h
  have hb' := annotate_bare s hb
  obtain ⟨ht', hn'⟩ := annotate_state s l
  rw [ht] at ht'
  rw [hn] at hn'
  have q1 := annotate_sought s l (t := c!"; perimeter external") (by decide)
  have q2 := annotate_sought s l (t := c!"; perimeter") (by decide)
  have q3 := annotate_sought s l (t := c!"; move to first perimeter point") (by decide)
  have q4 := annotate_sought s l (t := c!"unretract") (by decide)
  generalize (annotateExtrusion s l).1 = s0 at *
  generalize (annotateExtrusion s l).2 = l0 at *
  rw [e1, e2, e3]
  clear e1 e2 e3 h
  unfold slic3rType slic3rSaid
  simp only [hasSub_iff, q1, q2, q3, nextPerimeter_eq, Bool.not_eq_eq_eq_not, Bool.not_true]
  by_cases h1 : c!"; perimeter external" <:+: l.raw
  · have h2 := external_perimeter h1
    have hto : ¬ ToPerimeter l := fun hc => hc.1 h2
    rw [if_pos h1, if_pos h2]
    simp only [h1, decide_true, Option.getD_some, true_and, hto, or_false]
    by_cases hc : cur = some true
    · subst hc
      rw [if_neg (by simpa [typeOf] using ht'), if_neg (by simp)]
      exact ⟨ht', hn', bare_step _ hb'⟩
    · have : s0.type ≠ .external := by
        rw [ht']
        match cur, hc with
        | none, _ => simp [typeOf]
        | some false, _ => simp [typeOf]
        | some true, hc => exact absurd rfl hc
      rw [if_pos this, if_pos hc]
      obtain ⟨p1, p2, p3⟩ := slic3rPerimeter_step s0 l0 true (perimeterKind ext cur) hb'
      refine ⟨p1, by rw [p2]; simp, ?_⟩
      rw [p3, hn']
      simp [perimeterKind]
  · rw [if_neg h1]
    by_cases h2 : c!"; perimeter" <:+: l.raw
    · rw [if_pos h2, if_pos h2]
      simp only [h1, decide_false, Option.some.injEq, Bool.false_eq_true, false_and, if_false, Option.getD_some]
      by_cases hc : cur = some false
      · subst hc
        rw [if_neg (by simpa [typeOf] using ht')]
        exact ⟨ht', hn', bare_step _ hb'⟩
      · have : s0.type ≠ .extra := by
          rw [ht']
          match cur, hc with
          | none, _ => simp [typeOf]
          | some true, _ => simp [typeOf]
          | some false, hc => exact absurd rfl hc
        rw [if_pos this]
        obtain ⟨p1, p2, p3⟩ := slic3rPerimeter_step s0 l0 false (perimeterKind ext cur) hb'
        refine ⟨p1, by rw [p2, hn']; simp, ?_⟩
        rw [p3]
        simp [perimeterKind]
    · rw [if_neg h2, if_neg h2]
      by_cases h3 : c!"; move to first perimeter point" <:+: l.raw
      · rw [if_pos h3, if_pos h3]
        have hto : ToPerimeter l := ⟨h2, h3⟩
        cases hf : firstPerimeter rest with
        | none =>
          simp only [Option.map_none, reduceCtorEq, false_and, if_false, Option.getD_none]
          exact ⟨ht', hn', bare_step _ hb'⟩
        | some b =>
          simp only [Option.map_some, Option.some.injEq, hto, or_true, and_true, Option.getD_some]
          obtain ⟨p1, p2, p3⟩ := slic3rPerimeter_step s0 l0 b (perimeterKind ext cur) hb'
          refine ⟨p1, by rw [p2, hn']; cases b <;> simp, ?_⟩
          rw [p3, hn']
          cases b <;> simp [perimeterKind]
      · rw [if_neg h3, if_neg h3]
        by_cases h4 : c!"unretract" <:+: l.raw
        · have h4' : hasSub c!"unretract" l0.raw = true := (hasSub_iff _ _).2 (q4.2 h4)
          rw [if_neg (by simp [h4']), if_pos h4]
          simp only [reduceCtorEq, false_and, if_false, Option.getD_none]
          exact ⟨ht', hn', bare_step _ hb'⟩
        · have h4' : hasSub c!"unretract" l0.raw = false := by
            rw [Bool.eq_false_iff, ne_eq, hasSub_iff]
            exact fun hc => h4 (q4.1 hc)
          rw [if_pos h4', if_neg h4]
          simp only [Option.some.injEq, reduceCtorEq, false_and, if_false, Option.getD_some]
          refine ⟨rfl, hn', ?_⟩
          by_cases hc : s0.type = .unknown
          · rw [if_neg (by simpa using hc), bare_step _ hb']
            rw [ht'] at hc
            match cur, hc with
            | none, _ => rfl
          · rw [if_pos hc, stop_step _ hb' (by decide)]
            rfl

theorem slic3rLines_kinds {repo : StretchRepo α} : ∀ (ls out : List (PyLine α)) (s s' : AnnSt α) (cur : Option Bool) (ext : ℕ),
    (∀ l ∈ ls, Bare l) → s.type = typeOf cur → s.nextOuter = decide (ext = 0) → slic3rLines repo s ls = .ok (s', out) →
    ∀ n, n < ls.length → (out.take (n + 1)).foldl loopStep (perimeterKind ext cur) = (slic3rKinds cur ext ls)[n]?.join := by
  intro ls
  induction ls with
  | nil => intro out s s' cur ext _ _ _ _ n hn; exact absurd hn (Nat.not_lt_zero _)
  | cons l rest ih =>
    intro out s s' cur ext hu ht hno h n hn
    rw [slic3rLines] at h
    cases e1 : slic3rLine repo s l rest with
    | error er => rw [e1] at h; cases h
    | ok p =>
      obtain ⟨s1, l1⟩ := p
      rw [e1] at h
      simp only at h
      cases e2 : slic3rLines repo s1 rest with
      | error er => rw [e2] at h; cases h
      | ok q =>
        obtain ⟨s2, out2⟩ := q
        rw [e2] at h
        simp only [Except.ok.injEq, Prod.mk.injEq] at h
        obtain ⟨rfl, rfl⟩ := h
        obtain ⟨k1, k2, k3⟩ := slic3rLine_kind e1 (hu l (by simp)) ht hno
        rw [List.take_succ_cons, List.foldl_cons, k3, slic3rKinds]
        cases n with
        | zero =>
          rw [List.take_zero, List.foldl_nil]
          simp only [List.getElem?_cons_zero, Option.join_some]
          generalize (slic3rSaid l rest).getD cur = now
          match now with
          | none => rfl
          | some true => rfl
          | some false => rfl
        | succ n =>
          rw [ih out2 s1 s2 _ _ (fun x hx => hu x (List.mem_cons_of_mem _ hx)) k1 k2 e2 n (by simpa using hn)]
          simp

theorem slic3rKinds_length (ls : List (PyLine α)) : ∀ (cur : Option Bool) (ext : ℕ), (slic3rKinds cur ext ls).length = ls.length := by
  induction ls with
  | nil => intro cur ext; rfl
  | cons l rest ih => intro cur ext; rw [slic3rKinds, List.length_cons, List.length_cons, ih]

/-! ### Skeinforge -/

theorem skeinforgeLine_kind {repo : StretchRepo α} {s s' : AnnSt α} {l l' : PyLine α} (h : skeinforgeLine repo s l = .ok (s', l')) (hb : Bare l)
    (st : Option LoopKind) : loopStep st l' = (skeinforgeSaid l).getD st := by
  have hl : l' = (if l.isCmd c!"M101" then addMark c!"; " extrusionOnMarker l
    else if l.isCmd c!"M103" then addMark c!"; " extrusionOffMarker l
    else if startsWith c!"(<loop>" l.raw then addMark c!"; " loopStartMarker l
    else if startsWith c!"(<edge>" l.raw && !startsWith c!"(<edge> outer" l.raw then
      addMark c!"; " innerEdgeMarker l
    else if startsWith c!"(<edge> outer" l.raw then addMark c!"; " outerEdgeMarker l
    else if startsWith c!"(</edge>)" l.raw || startsWith c!"(</loop>)" l.raw then
      addMark c!"; " loopStopMarker l
    else l) := by
    unfold skeinforgeLine at h
    simp only at h
    split at h
    · split at h
      · cases h
      · simp only [Except.ok.injEq, Prod.mk.injEq] at h; exact h.2.symm
    · simp only [Except.ok.injEq, Prod.mk.injEq] at h; exact h.2.symm
  rw [hl]
  clear hl h
  have hsw : ∀ (p t : Str), startsWith p t = true ↔ p <+: t := by
    intro p t
    unfold startsWith
    exact List.isPrefixOf_iff_prefix
  have hcmd : ∀ c : Str, l.isCmd c = true ↔ l.command = some c := by
    intro c
    unfold PyLine.isCmd
    simp
  unfold skeinforgeSaid
  simp only [hcmd, hsw, Bool.and_eq_true, Bool.or_eq_true, Bool.not_eq_true', Bool.eq_false_iff, ne_eq]
  have hsep : c!"; " ∈ [c!" ; ", c!"; "] := by decide
  by_cases h1 : l.command = some c!"M101"
  · rw [if_pos h1, if_pos (.inl h1), bare_step st (bare_add hb hsep (by simp))]; rfl
  rw [if_neg h1]
  by_cases h2 : l.command = some c!"M103"
  · rw [if_pos h2, if_pos (.inr h2), bare_step st (bare_add hb hsep (by simp))]; rfl
  have h12 : ¬ (l.command = some c!"M101" ∨ l.command = some c!"M103") := fun hc => hc.elim h1 h2
  rw [if_neg h2, if_neg h12]
  by_cases h3 : c!"(<loop>" <+: l.raw
  · rw [if_pos h3, if_pos h3, (start_step st hb hsep (by simp)).1]; rw [Option.getD_some]; decide
  rw [if_neg h3, if_neg h3]
  by_cases h4 : c!"(<edge> outer" <+: l.raw
  · rw [if_neg (fun hc => hc.2 h4), if_pos h4, if_pos h4, (start_step st hb hsep (by simp)).1]; rw [Option.getD_some]; decide
  rw [if_neg h4, if_neg h4]
  by_cases h5 : c!"(<edge>" <+: l.raw
  · rw [if_pos ⟨h5, h4⟩, if_pos h5, (start_step st hb hsep (by simp)).1]; rw [Option.getD_some]; decide
  rw [if_neg (fun hc => h5 hc.1), if_neg h5]
  by_cases h6 : c!"(</edge>)" <+: l.raw ∨ c!"(</loop>)" <+: l.raw
  · rw [if_pos h6, if_pos h6, stop_step st hb hsep]; rfl
  rw [if_neg h6, if_neg h6, bare_step st hb]
  rfl

theorem skeinforgeLines_kinds {repo : StretchRepo α} : ∀ (ls out : List (PyLine α)) (s s' : AnnSt α) (st : Option LoopKind),
    (∀ l ∈ ls, Bare l) → skeinforgeLines repo s ls = .ok (s', out) → out.length = ls.length ∧
    ∀ n, (out.take n).foldl loopStep st = ((ls.take n).filterMap skeinforgeSaid).getLast?.getD st := by
  intro ls
  induction ls with
  | nil =>
    intro out s s' st _ h
    simp only [skeinforgeLines, Except.ok.injEq, Prod.mk.injEq] at h
    rw [← h.2]
    exact ⟨rfl, fun n => by simp⟩
  | cons l rest ih =>
    intro out s s' st hu h
    rw [skeinforgeLines] at h
    cases e1 : skeinforgeLine repo s l with
    | error er => rw [e1] at h; cases h
    | ok p =>
      obtain ⟨s1, l1⟩ := p
      rw [e1] at h
      simp only at h
      cases e2 : skeinforgeLines repo s1 rest with
      | error er => rw [e2] at h; cases h
      | ok q =>
        obtain ⟨s2, out2⟩ := q
        rw [e2] at h
        simp only [Except.ok.injEq, Prod.mk.injEq] at h
        obtain ⟨rfl, rfl⟩ := h
        have hk := skeinforgeLine_kind e1 (hu l (by simp)) st
        obtain ⟨i1, i2⟩ := ih out2 s1 s2 (loopStep st l1) (fun x hx => hu x (List.mem_cons_of_mem _ hx)) e2
        refine ⟨by rw [List.length_cons, List.length_cons, i1], ?_⟩
        intro n
        cases n with
        | zero => simp
        | succ n => rw [List.take_succ_cons, List.foldl_cons, i2, List.take_succ_cons, getLast_said, hk]

/-! ### layers -/

theorem annotateLayers_at {slicer : Slicer} {repo : StretchRepo α} {profile : ProfileOracle α} : ∀ (Ls Ls' : List (Layer α)) (s s' : AnnSt α),
    annotateLayers slicer repo profile s Ls = .ok (s', Ls') → Ls'.length = Ls.length ∧
    ∀ (i : ℕ) (L L' : Layer α), Ls[i]? = some L → Ls'[i]? = some L' → ∃ t t', annotateLayer slicer repo profile t L.lines = .ok (t', L'.lines) := by
  intro Ls
  induction Ls with
  | nil =>
    intro Ls' s s' h
    simp only [annotateLayers, Except.ok.injEq, Prod.mk.injEq] at h
    rw [← h.2]
    exact ⟨rfl, fun i L L' hL => by simp at hL⟩
  | cons L0 Ls ih =>
    intro Ls' s s' h
    rw [annotateLayers] at h
    cases e1 : annotateLayer slicer repo profile s L0.lines with
    | error er => rw [e1] at h; cases h
    | ok p =>
      obtain ⟨s1, l1⟩ := p
      rw [e1] at h
      simp only at h
      cases e2 : annotateLayers slicer repo profile s1 Ls with
      | error er => rw [e2] at h; cases h
      | ok q =>
        obtain ⟨s2, out2⟩ := q
        rw [e2] at h
        simp only [Except.ok.injEq, Prod.mk.injEq] at h
        obtain ⟨rfl, rfl⟩ := h
        obtain ⟨i1, i2⟩ := ih out2 s1 s2 e2
        refine ⟨by rw [List.length_cons, List.length_cons, i1], ?_⟩
        intro i L L' hL hL'
        cases i with
        | zero =>
          simp only [List.getElem?_cons_zero, Option.some.injEq] at hL hL'
          subst hL hL'
          exact ⟨s, s1, e1⟩
        | succ i => exact i2 i L L' (by simpa using hL) (by simpa using hL')

theorem loopAt_append (a b : List (PyLine α)) : loopAt (a ++ b) = b.foldl loopStep (loopAt a) := by
  unfold loopAt
  rw [List.foldl_append]

theorem linesOf_take_succ {Ls : List (Layer α)} {i : ℕ} {L : Layer α} (h : Ls[i]? = some L) : linesOf (Ls.take (i + 1)) = linesOf (Ls.take i) ++ L.lines := by
  unfold linesOf
  rw [List.take_add_one, h, List.flatMap_append]
  simp

theorem mem_take_get {β : Type} {l : List β} {k i : ℕ} {x : β} (hi : i < k) (h : l[i]? = some x) : x ∈ l.take k :=
  List.mem_of_getElem? (i := i) (by rw [List.getElem?_take_of_lt hi, h])

/-- The annotated layers line by line. -/
theorem announced_loop {slicer : Slicer} {repo : StretchRepo α} {profile : ProfileOracle α} {d : Option (StretchDist α)} {Ls ann : List (Layer α)}
    (h : setupFilter slicer repo profile Ls = .ok (d, ann)) (hu : ∀ L ∈ Ls, Unmarked L.lines) {i : ℕ} (hf : Followable slicer Ls i) {L L' : Layer α}
    (hL : Ls[i]? = some L) (hL' : ann[i]? = some L') {n : ℕ} (hn : n < L.lines.length)
    (hx : slicer = .cura → n + 1 ≠ L.lines.length) : loopAt (linesOf (ann.take i) ++ L'.lines.take (n + 1)) = announced slicer Ls i n := by
  have hann : ∃ s, annotateLayers slicer repo profile {} Ls = .ok (s, ann) := by
    unfold setupFilter at h
    cases e : annotateLayers slicer repo profile {} Ls with
    | error er => rw [e] at h; cases h
    | ok p =>
      obtain ⟨s, A⟩ := p
      rw [e] at h
      simp only [Except.ok.injEq, Prod.mk.injEq] at h
      rw [h.2]
      exact ⟨s, rfl⟩
  obtain ⟨s, hann⟩ := hann
  obtain ⟨hlen, hat⟩ := annotateLayers_at Ls ann _ _ hann
  have hother : ∀ j, j < i → ∃ M M' : Layer α, Ls[j]? = some M ∧ ann[j]? = some M' := by
    intro j hj
    have hi := (List.getElem?_eq_some_iff.1 hL).1
    exact ⟨Ls[j], ann[j], List.getElem?_eq_getElem (by omega), List.getElem?_eq_getElem (by omega)⟩
  have hhere : nthLayer Ls i = L.lines := by unfold nthLayer; rw [hL]; rfl
  cases slicer with
  | cura =>
    have hlay : ∀ (j : ℕ) (M M' : Layer α), j ≤ i → Ls[j]? = some M → ann[j]? = some M' → ∀ n, n < M.lines.length →
        (M'.lines.take (n + 1)).foldl loopStep none = curaKnownKind M.lines n := by
      intro j M M' hj hM hM' n hn
      obtain ⟨t, t', ht⟩ := hat j M M' hM hM'
      exact curaLines_kind (hu M (List.mem_of_getElem? hM)) (hf M (mem_take_get (Nat.lt_succ_of_le hj) hM)).1 rfl rfl ht hn
    have hb : ∀ j, j ≤ i → loopAt (linesOf (ann.take j)) = none := by
      intro j
      induction j with
      | zero => intro _; rfl
      | succ j ih =>
        intro hj
        obtain ⟨M, M', hM, hM'⟩ := hother j (by omega)
        rw [linesOf_take_succ hM', loopAt_append, ih (by omega)]
        obtain ⟨t, t', ht⟩ := hat j M M' hM hM'
        have hl : M'.lines.length = M.lines.length := (curaLines_marked ht).length_eq.symm
        by_cases he : M.lines.length = 0
        · rw [List.length_eq_zero_iff.1 (hl.trans he)]; rfl
        · have := hlay j M M' (by omega) hM hM' (M.lines.length - 1) (by omega)
          rw [show M.lines.length - 1 + 1 = M.lines.length from by omega, ← hl, List.take_length] at this
          rw [this]
          unfold curaKnownKind
          rw [if_pos (.inl (by omega))]
    rw [loopAt_append, hb i le_rfl, hlay i L L' le_rfl hL hL' n hn, known_kind (hf L (mem_take_get (Nat.lt_succ_self i) hL)).2.2 (hx rfl)]
    unfold announced
    rw [hhere]
  | slic3r =>
    have hlay : ∀ (j : ℕ) (M M' : Layer α), Ls[j]? = some M → ann[j]? = some M' → M'.lines.length = M.lines.length ∧ ∀ n, n < M.lines.length →
        (M'.lines.take (n + 1)).foldl loopStep none = (slic3rKinds none 0 M.lines)[n]?.join := by
      intro j M M' hM hM'
      obtain ⟨t, t', ht⟩ := hat j M M' hM hM'
      refine ⟨(slic3rLines_marked ht).length_eq.symm, ?_⟩
      intro n hn
      exact slic3rLines_kinds M.lines M'.lines _ t' none 0 (hu M (List.mem_of_getElem? hM)) rfl rfl ht n hn
    have hb : ∀ j, j ≤ i → loopAt (linesOf (ann.take j)) = none := by
      intro j
      induction j with
      | zero => intro _; rfl
      | succ j ih =>
        intro hj
        obtain ⟨M, M', hM, hM'⟩ := hother j (by omega)
        rw [linesOf_take_succ hM', loopAt_append, ih (by omega)]
        obtain ⟨hl, hk⟩ := hlay j M M' hM hM'
        by_cases he : M.lines.length = 0
        · rw [List.length_eq_zero_iff.1 (hl.trans he)]; rfl
        · have := hk (M.lines.length - 1) (by omega)
          rw [show M.lines.length - 1 + 1 = M.lines.length from by omega, ← hl, List.take_length] at this
          rw [this, hl]
          have hfin := hf M (mem_take_get (by omega) hM)
          unfold Finished at hfin
          rw [List.getLast?_eq_getElem?, slic3rKinds_length] at hfin
          exact hfin
    rw [loopAt_append, hb i le_rfl, (hlay i L L' hL hL').2 n hn]
    unfold announced
    rw [hhere]
  | skeinforge =>
    have hlay : ∀ (j : ℕ) (M M' : Layer α) (st : Option LoopKind), Ls[j]? = some M → ann[j]? = some M' → M'.lines.length = M.lines.length ∧ ∀ n,
        (M'.lines.take n).foldl loopStep st = ((M.lines.take n).filterMap skeinforgeSaid).getLast?.getD st := by
      intro j M M' st hM hM'
      obtain ⟨t, t', ht⟩ := hat j M M' hM hM'
      exact skeinforgeLines_kinds M.lines M'.lines t t' st (hu M (List.mem_of_getElem? hM)) ht
    have hcat : ∀ (a b : List (PyLine α)), ((a ++ b).filterMap skeinforgeSaid).getLast?.getD none =
        (b.filterMap skeinforgeSaid).getLast?.getD ((a.filterMap skeinforgeSaid).getLast?.getD none) := by
      intro a b
      rw [List.filterMap_append, List.getLast?_append]
      cases (b.filterMap skeinforgeSaid).getLast? <;> simp
    have hb : ∀ j, j ≤ i → loopAt (linesOf (ann.take j)) = ((linesOf (Ls.take j)).filterMap skeinforgeSaid).getLast?.getD none := by
      intro j
      induction j with
      | zero => intro _; rfl
      | succ j ih =>
        intro hj
        obtain ⟨M, M', hM, hM'⟩ := hother j (by omega)
        rw [linesOf_take_succ hM', linesOf_take_succ hM, loopAt_append, ih (by omega), hcat]
        obtain ⟨hl, hk⟩ := hlay j M M' _ hM hM'
        have := hk M.lines.length
        rw [List.take_length, ← hl, List.take_length] at this
        exact this
    rw [loopAt_append, hb i le_rfl, (hlay i L L' _ hL hL').2 (n + 1), ← hcat]
    unfold announced
    rw [hhere]
    simp only
    generalize (List.filterMap skeinforgeSaid (linesOf (List.take i Ls) ++ List.take (n + 1) L.lines)).getLast? = q
    cases q <;> rfl

end GCodeUtils
