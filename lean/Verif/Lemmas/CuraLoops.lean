import Verif.Lemmas.Walk
import Verif.Lemmas.Stretch

/-
  Where the Cura pass puts its loop marks.
-/

set_option linter.unusedSectionVars false

namespace GCodeUtils

open Spec

variable {α : Type} [Field α] [LinearOrder α] [IsStrictOrderedRing α] [FloorRing α]

theorem infix_around {m a b : Str} {c : Char} (hc : c ∉ m) (h : m <:+: a ++ c :: b) : m <:+: a ∨ m <:+: b := by
  obtain ⟨p, q, h⟩ := h
  rcases List.append_eq_append_iff.1 h with ⟨u, e1, e2⟩ | ⟨u, e1, e2⟩
  · left
    exact ⟨p, u, e1.symm⟩
  · cases u with
    | nil => left; exact ⟨p, [], by simpa using e1⟩
    | cons x u =>
      simp only [List.cons_append, List.cons.injEq] at e2
      obtain ⟨rfl, e2⟩ := e2
      rcases List.append_eq_append_iff.1 e1 with ⟨v, f1, f2⟩ | ⟨v, f1, f2⟩
      · exfalso
        apply hc
        rw [f2]
        simp
      · right
        cases v with
        | nil =>
          exfalso
          apply hc
          rw [List.nil_append] at f2
          rw [← f2]
          simp
        | cons y v =>
          simp only [List.cons_append, List.cons.injEq] at f2
          exact ⟨v, q, by rw [e2, f2.2]⟩

/-- A text without blanks and semicolons is found in a marked line only if it was there or is part of the mark. -/
theorem infix_addMark {t m : Str} (l : PyLine α) (h1 : ' ' ∉ t) : t <:+: (addMark c!" ; " m l).raw ↔ t <:+: l.raw ∨ t <:+: m ∨ t = [] ∨ t = c!";" := by
  show t <:+: l.raw ++ c!" ; " ++ m ↔ _
  constructor
  · intro h
    rw [List.append_assoc] at h
    rcases infix_around h1 h with h | h
    · exact .inl h
    · have h' : t <:+: [';'] ++ ' ' :: m := h
      rcases infix_around h1 h' with h | h
      · right; right
        rcases List.infix_cons_iff.1 h with h | h
        · obtain ⟨r, hr⟩ := h
          cases t with
          | nil => exact .inl rfl
          | cons a as =>
            simp only [List.cons_append, List.cons.injEq, List.append_eq_nil_iff] at hr
            right
            rw [hr.1, hr.2.1]
        · exact .inl (List.infix_nil.1 h)
      · exact .inr (.inl h)
  · rintro (h | h | rfl | rfl)
    · exact h.trans ⟨[], c!" ; " ++ m, by simp⟩
    · exact h.trans ⟨l.raw ++ c!" ; ", [], by simp⟩
    · exact List.nil_infix
    · exact ⟨l.raw ++ [' '], ' ' :: m, by simp⟩

theorem start_addMark (m : Str) (l : PyLine α) : c!"stretch-loop-start" <:+: (addMark c!" ; " m l).raw ↔
    c!"stretch-loop-start" <:+: l.raw ∨ c!"stretch-loop-start" <:+: m := by
  rw [infix_addMark l (by decide)]
  simp

theorem stop_addMark (m : Str) (l : PyLine α) : c!"stretch-loop-stop" <:+: (addMark c!" ; " m l).raw ↔
    c!"stretch-loop-stop" <:+: l.raw ∨ c!"stretch-loop-stop" <:+: m := by
  rw [infix_addMark l (by decide)]
  simp

theorem type_addMark (t m : Str) (l : PyLine α) (ht : t ∈ [c!"TYPE:WALL-OUTER", c!"TYPE:WALL-INNER", c!"TYPE:SKIN", c!"TYPE:FILL"]) (hm : m ∈ markTexts) :
    t <:+: (addMark c!" ; " m l).raw ↔ t <:+: l.raw := by
  have hall : ∀ t ∈ [c!"TYPE:WALL-OUTER", c!"TYPE:WALL-INNER", c!"TYPE:SKIN", c!"TYPE:FILL"], ∀ m ∈ markTexts,
      ¬ t <:+: m ∧ ' ' ∉ t ∧ t ≠ [] ∧ t ≠ c!";" := by decide
  have hk := hall t ht m hm
  rw [infix_addMark l hk.2.1]
  simp [hk.1, hk.2.2.1, hk.2.2.2]

/-! ### one line -/

theorem annotateExtrusion_loop (s : AnnSt α) (l : PyLine α) :
    (annotateExtrusion s l).1.type = s.type ∧ (annotateExtrusion s l).1.next = s.next ∧
    (c!"stretch-loop-start" <:+: (annotateExtrusion s l).2.raw ↔ c!"stretch-loop-start" <:+: l.raw) ∧
    (c!"stretch-loop-stop" <:+: (annotateExtrusion s l).2.raw ↔ c!"stretch-loop-stop" <:+: l.raw) ∧
    ∀ t ∈ [c!"TYPE:WALL-OUTER", c!"TYPE:WALL-INNER", c!"TYPE:SKIN", c!"TYPE:FILL"], (t <:+: (annotateExtrusion s l).2.raw ↔ t <:+: l.raw) := by
  have h1 : ¬ c!"stretch-loop-start" <:+: extrusionOnMarker := by decide
  have h2 : ¬ c!"stretch-loop-start" <:+: extrusionOffMarker := by decide
  have h3 : ¬ c!"stretch-loop-stop" <:+: extrusionOnMarker := by decide
  have h4 : ¬ c!"stretch-loop-stop" <:+: extrusionOffMarker := by decide
  unfold annotateExtrusion
  split_ifs
  · refine ⟨rfl, rfl, ?_, ?_, fun t ht => type_addMark t _ l ht mem_on⟩
    · rw [start_addMark]; simp [h1]
    · rw [stop_addMark]; simp [h3]
  · refine ⟨rfl, rfl, ?_, ?_, fun t ht => type_addMark t _ l ht mem_off⟩
    · rw [start_addMark]; simp [h2]
    · rw [stop_addMark]; simp [h4]
  · exact ⟨rfl, rfl, Iff.rfl, Iff.rfl, fun t _ => Iff.rfl⟩

theorem curaStop_loop (s : AnnSt α) (l : PyLine α) :
    (curaStop s l).1.type = .unknown ∧ (curaStop s l).1.next = s.next ∧
    (c!"stretch-loop-start" <:+: (curaStop s l).2.raw ↔ c!"stretch-loop-start" <:+: l.raw) ∧
    (c!"stretch-loop-stop" <:+: (curaStop s l).2.raw ↔ c!"stretch-loop-stop" <:+: l.raw ∨ s.type ≠ .unknown) ∧
    (s.type = .unknown → (curaStop s l).2 = l) := by
  have h1 : ¬ c!"stretch-loop-start" <:+: loopStopMarker := by decide
  have h2 : c!"stretch-loop-stop" <:+: loopStopMarker := by decide
  unfold curaStop
  simp only
  refine ⟨trivial, trivial, ?_, ?_, ?_⟩
  · by_cases h : s.type ≠ .unknown
    · rw [if_pos h, start_addMark]; simp [h1]
    · rw [if_neg h]
  · by_cases h : s.type ≠ .unknown
    · rw [if_pos h, stop_addMark]; simp [h2, h]
    · rw [if_neg h]; simp [h]
  · intro h
    rw [if_neg (by simpa using h)]

theorem curaNext_loop (s : AnnSt α) (l : PyLine α) :
    (s.next = none → curaNext s l = (s, l)) ∧
    (s.next ≠ none → (curaNext s l).1.type ≠ .unknown ∧ (curaNext s l).1.next = none ∧ c!"stretch-loop-start" <:+: (curaNext s l).2.raw ∧
      (c!"stretch-loop-stop" <:+: (curaNext s l).2.raw ↔ c!"stretch-loop-stop" <:+: l.raw ∨ s.type ≠ .unknown) ∧
      ∀ t ∈ [c!"TYPE:WALL-OUTER", c!"TYPE:WALL-INNER", c!"TYPE:SKIN", c!"TYPE:FILL"], (t <:+: (curaNext s l).2.raw ↔ t <:+: l.raw)) := by
  unfold curaNext
  constructor
  · intro h; rw [h]
  · intro h
    cases hn : s.next with
    | none => exact absurd hn h
    | some p =>
      obtain ⟨ext, outer⟩ := p
      simp only
      have hmk : ∃ m, m ∈ markTexts ∧ c!"stretch-loop-start" <:+: m ∧ ¬ c!"stretch-loop-stop" <:+: m ∧
          (if ext then (if outer then addMark c!" ; " outerEdgeMarker l else addMark c!" ; " innerEdgeMarker l) else addMark c!" ; " loopStartMarker l) =
            addMark c!" ; " m l := by
        cases ext
        · exact ⟨loopStartMarker, by decide, by decide, by decide, rfl⟩
        · cases outer
          · exact ⟨innerEdgeMarker, by decide, by decide, by decide, rfl⟩
          · exact ⟨outerEdgeMarker, by decide, by decide, by decide, rfl⟩
      obtain ⟨m, hm, hs, hns, hme⟩ := hmk
      unfold curaPerimeter
      simp only
      rw [hme]
      have h1 : ¬ c!"stretch-loop-start" <:+: loopStopMarker := by decide
      have h2 : c!"stretch-loop-stop" <:+: loopStopMarker := by decide
      refine ⟨by cases ext <;> simp, trivial, ?_, ?_, ?_⟩
      · by_cases h : s.type ≠ .unknown
        · rw [if_pos h, start_addMark, start_addMark]; simp [hs]
        · rw [if_neg h, start_addMark]; simp [hs]
      · by_cases h : s.type ≠ .unknown
        · rw [if_pos h, stop_addMark]; simp [h2, h]
        · rw [if_neg h, stop_addMark]; simp [hns, h]
      · intro t ht
        by_cases h : s.type ≠ .unknown
        · rw [if_pos h, type_addMark t _ _ ht mem_stop, type_addMark t _ _ ht hm]
        · rw [if_neg h, type_addMark t _ _ ht hm]

theorem curaType_loop (s : AnnSt α) (l : PyLine α) :
    (AnyType l → (curaType s l).1.type = .unknown ∧ ((curaType s l).1.next ≠ none ↔ OpensType l ∨ s.next ≠ none) ∧
      (c!"stretch-loop-start" <:+: (curaType s l).2.raw ↔ c!"stretch-loop-start" <:+: l.raw) ∧
      (c!"stretch-loop-stop" <:+: (curaType s l).2.raw ↔ c!"stretch-loop-stop" <:+: l.raw ∨ s.type ≠ .unknown)) ∧
    (¬ AnyType l → curaType s l = (s, l)) := by
  obtain ⟨k1, k2, k3, k4, _⟩ := curaStop_loop s l
  unfold curaType AnyType OpensType
  simp only [hasSub_iff]
  by_cases h1 : c!"TYPE:WALL-OUTER" <:+: l.raw
  · rw [if_pos h1]
    refine ⟨fun _ => ⟨k1, ?_, k3, k4⟩, fun h => absurd (.inl (.inl h1)) h⟩
    simp [h1]
  · rw [if_neg h1]
    by_cases h2 : c!"TYPE:WALL-INNER" <:+: l.raw
    · rw [if_pos h2]
      refine ⟨fun _ => ⟨k1, ?_, k3, k4⟩, fun h => absurd (.inl (.inr (.inl h2))) h⟩
      simp [h2]
    · rw [if_neg h2]
      by_cases h3 : c!"TYPE:SKIN" <:+: l.raw
      · rw [if_pos h3]
        refine ⟨fun _ => ⟨k1, ?_, k3, k4⟩, fun h => absurd (.inl (.inr (.inr h3))) h⟩
        simp [h3]
      · rw [if_neg h3]
        by_cases h4 : c!"TYPE:FILL" <:+: l.raw
        · rw [if_pos h4]
          refine ⟨fun _ => ⟨k1, ?_, k3, k4⟩, fun h => absurd (.inr h4) h⟩
          rw [k2]
          simp [h1, h2, h3]
        · rw [if_neg h4]
          refine ⟨fun h => ?_, fun _ => rfl⟩
          simp [h1, h2, h3, h4] at h

/-- The marks of one line of the Cura pass, for a line that has none yet. -/
theorem curaMarks_loop (s : AnnSt α) (l : PyLine α) (last : Bool) (hinv : s.next ≠ none → s.type = .unknown)
    (h1 : ¬ c!"stretch-loop-start" <:+: l.raw) (h2 : ¬ c!"stretch-loop-stop" <:+: l.raw) :
    (c!"stretch-loop-start" <:+: (curaMarks s l last).2.raw ↔ s.next ≠ none) ∧
    (c!"stretch-loop-stop" <:+: (curaMarks s l last).2.raw ↔ (AnyType l ∨ last = true) ∧ (s.next ≠ none ∨ s.type ≠ .unknown)) ∧
    ((curaMarks s l last).1.type ≠ .unknown ↔ ¬ AnyType l ∧ last = false ∧ (s.next ≠ none ∨ s.type ≠ .unknown)) ∧
    ((curaMarks s l last).1.next ≠ none ↔ OpensType l) := by
  obtain ⟨a1, a2, a3, a4, a5⟩ := annotateExtrusion_loop s l
  obtain ⟨b1, b2⟩ := curaNext_loop (annotateExtrusion s l).1 (annotateExtrusion s l).2
  rw [a1, a2] at b2
  rw [a2] at b1
  -- after the pending mark
  have hN : ∃ s1 l1, curaNext (annotateExtrusion s l).1 (annotateExtrusion s l).2 = (s1, l1) ∧ s1.next = none ∧
      (s1.type ≠ .unknown ↔ s.next ≠ none ∨ s.type ≠ .unknown) ∧ (c!"stretch-loop-start" <:+: l1.raw ↔ s.next ≠ none) ∧
      ¬ c!"stretch-loop-stop" <:+: l1.raw ∧ ∀ t ∈ [c!"TYPE:WALL-OUTER", c!"TYPE:WALL-INNER", c!"TYPE:SKIN", c!"TYPE:FILL"], (t <:+: l1.raw ↔ t <:+: l.raw) := by
    by_cases hn : s.next = none
    · refine ⟨_, _, b1 hn, by rw [a2, hn], by rw [a1]; simp [hn], by rw [a3]; simp [h1, hn], by rw [a4]; exact h2, a5⟩
    · obtain ⟨c1, c2, c3, c4, c5⟩ := b2 hn
      refine ⟨_, _, rfl, c2, ⟨fun _ => .inl hn, fun _ => c1⟩, ⟨fun _ => hn, fun _ => c3⟩,
        fun h => (c4.1 h).elim (fun h' => h2 (a4.1 h')) (fun h' => h' (hinv hn)), fun t ht => (c5 t ht).trans (a5 t ht)⟩
  obtain ⟨s1, l1, he, n1, n2, n3, n4, n5⟩ := hN
  have hopen : OpensType l1 ↔ OpensType l := by
    unfold OpensType
    rw [n5 _ (by decide), n5 _ (by decide), n5 _ (by decide)]
  have hany : AnyType l1 ↔ AnyType l := by
    unfold AnyType
    rw [hopen, n5 _ (by decide)]
  obtain ⟨d1, d2⟩ := curaType_loop s1 l1
  -- after the type comment
  have hT : ∃ s2 l2, curaType s1 l1 = (s2, l2) ∧ (s2.type ≠ .unknown ↔ ¬ AnyType l ∧ (s.next ≠ none ∨ s.type ≠ .unknown)) ∧
      (s2.next ≠ none ↔ OpensType l) ∧ (c!"stretch-loop-start" <:+: l2.raw ↔ s.next ≠ none) ∧
      (c!"stretch-loop-stop" <:+: l2.raw ↔ AnyType l ∧ (s.next ≠ none ∨ s.type ≠ .unknown)) := by
    by_cases ha : AnyType l
    · obtain ⟨e1, e2, e3, e4⟩ := d1 (hany.2 ha)
      refine ⟨_, _, rfl, ⟨fun h => absurd e1 h, fun h => absurd ha h.1⟩, e2.trans ?_, e3.trans n3, e4.trans ?_⟩
      · rw [hopen]; simp [n1]
      · rw [n2]; simp [n4, ha]
    · rw [d2 (fun h => ha (hany.1 h))]
      refine ⟨s1, l1, rfl, by rw [n2]; simp [ha], ?_, n3, by simp [n4, ha]⟩
      have : ¬ OpensType l := fun h => ha (.inl h)
      simp [n1, this]
  obtain ⟨s2, l2, he2, t1, t2, t3, t4⟩ := hT
  unfold curaMarks
  simp only [he, he2]
  cases last with
  | false =>
    simp only [Bool.false_eq_true, if_false]
    refine ⟨t3, by rw [t4]; simp, by rw [t1]; simp, t2⟩
  | true =>
    simp only [if_true]
    obtain ⟨e1, e2, e3, e4, _⟩ := curaStop_loop s2 l2
    refine ⟨by rw [e3, t3], ?_, by simp [e1], by rw [e2, t2]⟩
    rw [e4, t4, t1]
    generalize AnyType l = A
    generalize (s.next ≠ none ∨ s.type ≠ .unknown) = B
    clear * -
    constructor
    · rintro (h | h)
      · exact ⟨.inr trivial, h.2⟩
      · exact ⟨.inr trivial, h.2⟩
    · rintro ⟨_, h⟩
      by_cases ha : A
      · exact .inl ⟨ha, h⟩
      · exact .inr ⟨ha, h⟩

/-! ### one layer -/

theorem curaLine_state' {repo : StretchRepo α} {profile : ProfileOracle α} {s s' : AnnSt α} {l l' : PyLine α} {b : Bool}
    (h : curaLine repo profile s l b = .ok (s', l')) : l' = (curaMarks s l b).2 ∧ s'.type = (curaMarks s l b).1.type ∧ s'.next = (curaMarks s l b).1.next := by
  refine ⟨(curaLine_marked h).2, ?_⟩
  rw [curaLine_eq] at h
  split at h
  · split at h
    · cases h
    · simp only [Except.ok.injEq, Prod.mk.injEq] at h; rw [← h.1]; exact ⟨rfl, rfl⟩
    · simp only [Except.ok.injEq, Prod.mk.injEq] at h; rw [← h.1]; exact ⟨rfl, rfl⟩
  · simp only [Except.ok.injEq] at h; rw [h]; exact ⟨rfl, rfl⟩

/-- Every loop opened in a layer has a stop mark in the layer. -/
theorem curaLines_closed {repo : StretchRepo α} {profile : ProfileOracle α} : ∀ (ls out : List (PyLine α)) (s s' : AnnSt α), Unmarked ls →
    (s.next ≠ none → s.type = .unknown) → curaLines repo profile s ls = .ok (s', out) →
    (s.type ≠ .unknown → ls ≠ [] → ∃ j, HasMark c!"stretch-loop-stop" out j) ∧
    ∀ i, HasMark c!"stretch-loop-start" out i → ∃ j, i ≤ j ∧ HasMark c!"stretch-loop-stop" out j := by
  intro ls
  induction ls with
  | nil =>
    intro out s s' _ _ h
    simp only [curaLines, Except.ok.injEq, Prod.mk.injEq] at h
    rw [← h.2]
    refine ⟨fun _ h => absurd rfl h, ?_⟩
    rintro i ⟨l, hl, _⟩
    simp at hl
  | cons l rest ih =>
    intro out s s' hu hinv h
    rw [curaLines] at h
    cases e1 : curaLine repo profile s l rest.isEmpty with
    | error er => rw [e1] at h; cases h
    | ok p =>
      obtain ⟨s1, l1⟩ := p
      rw [e1] at h
      simp only at h
      cases e2 : curaLines repo profile s1 rest with
      | error er => rw [e2] at h; cases h
      | ok q =>
        obtain ⟨s2, out2⟩ := q
        rw [e2] at h
        simp only [Except.ok.injEq, Prod.mk.injEq] at h
        obtain ⟨rfl, rfl⟩ := h
        obtain ⟨k1, k2, k3⟩ := curaLine_state' e1
        have hul := hu l (by simp)
        obtain ⟨m1, m2, m3, m4⟩ := curaMarks_loop s l rest.isEmpty hinv hul.1 hul.2
        rw [← k1] at m1 m2
        rw [← k2] at m3
        rw [← k3] at m4
        have hinv1 : s1.next ≠ none → s1.type = .unknown := by
          intro hn
          by_contra hc
          exact (m3.1 hc).1 (.inl (m4.1 hn))
        obtain ⟨r1, r2⟩ := ih out2 s1 _ (fun x hx => hu x (List.mem_cons_of_mem _ hx)) hinv1 e2
        have hcons : ∀ {t : Str} {j : ℕ}, HasMark t out2 j → HasMark t (l1 :: out2) (j + 1) := fun ⟨x, hx, hm⟩ => ⟨x, by simpa using hx, hm⟩
        have hopen : (s.next ≠ none ∨ s.type ≠ .unknown) → ∃ j, HasMark c!"stretch-loop-stop" (l1 :: out2) j := by
          intro ho
          by_cases ha : AnyType l ∨ rest.isEmpty = true
          · exact ⟨0, l1, rfl, m2.2 ⟨ha, ho⟩⟩
          · rw [not_or] at ha
            obtain ⟨j, hj⟩ := r1 (m3.2 ⟨ha.1, by simpa using ha.2, ho⟩) (by intro hc; subst hc; simp at ha)
            exact ⟨j + 1, hcons hj⟩
        refine ⟨fun ht _ => hopen (.inr ht), ?_⟩
        intro i hi
        cases i with
        | zero =>
          obtain ⟨x, hx, hm⟩ := hi
          simp only [List.getElem?_cons_zero, Option.some.injEq] at hx
          subst hx
          obtain ⟨j, hj⟩ := hopen (.inl (m1.1 hm))
          exact ⟨j, by omega, hj⟩
        | succ i =>
          obtain ⟨x, hx, hm⟩ := hi
          obtain ⟨j, hj, hj'⟩ := r2 i ⟨x, by simpa using hx, hm⟩
          exact ⟨j + 1, by omega, hcons hj'⟩

theorem loopStep_none_iff (st : Option LoopKind) (l : PyLine α) : loopStep st l = none ↔
    ¬ c!"stretch-loop-start" <:+: l.raw ∧ (c!"stretch-loop-stop" <:+: l.raw ∨ st = none) := by
  have hi : c!"stretch-loop-start stretch-inner-edge-start" <:+: l.raw → c!"stretch-loop-start" <:+: l.raw :=
    fun h => List.IsInfix.trans ⟨[], c!" stretch-inner-edge-start", rfl⟩ h
  have ho : c!"stretch-loop-start stretch-outer-edge-start" <:+: l.raw → c!"stretch-loop-start" <:+: l.raw :=
    fun h => List.IsInfix.trans ⟨[], c!" stretch-outer-edge-start", rfl⟩ h
  unfold loopStep
  by_cases h1 : c!"stretch-loop-start stretch-inner-edge-start" <:+: l.raw
  · rw [if_pos h1]; simp [hi h1]
  · rw [if_neg h1]
    by_cases h2 : c!"stretch-loop-start stretch-outer-edge-start" <:+: l.raw
    · rw [if_pos h2]; simp [ho h2]
    · rw [if_neg h2]
      by_cases h3 : c!"stretch-loop-start" <:+: l.raw
      · rw [if_pos h3]; simp [h3]
      · rw [if_neg h3]
        by_cases h4 : c!"stretch-loop-stop" <:+: l.raw
        · rw [if_pos h4]; simp [h3, h4]
        · rw [if_neg h4]; simp [h3, h4]

/-- In a spaced layer the loop state of the second pass is that of the first, and is over at the end. -/
theorem curaLines_state {repo : StretchRepo α} {profile : ProfileOracle α} : ∀ (ls out : List (PyLine α)) (s s' : AnnSt α) (st : Option LoopKind),
    Unmarked ls → Spaced ls → (s.next ≠ none → s.type = .unknown ∧ ∀ l, ls.head? = some l → ¬ AnyType l ∧ 1 < ls.length) →
    (st = none ↔ s.type = .unknown) → curaLines repo profile s ls = .ok (s', out) → (ls = [] → s.type = .unknown) →
    out.foldl loopStep st = none := by
  intro ls
  induction ls with
  | nil =>
    intro out s s' st _ _ _ hst h hn
    simp only [curaLines, Except.ok.injEq, Prod.mk.injEq] at h
    rw [← h.2]
    exact hst.2 (hn rfl)
  | cons l rest ih =>
    intro out s s' st hu hsp hnext hst h _
    rw [curaLines] at h
    cases e1 : curaLine repo profile s l rest.isEmpty with
    | error er => rw [e1] at h; cases h
    | ok p =>
      obtain ⟨s1, l1⟩ := p
      rw [e1] at h
      simp only at h
      cases e2 : curaLines repo profile s1 rest with
      | error er => rw [e2] at h; cases h
      | ok q =>
        obtain ⟨s2, out2⟩ := q
        rw [e2] at h
        simp only [Except.ok.injEq, Prod.mk.injEq] at h
        obtain ⟨rfl, rfl⟩ := h
        obtain ⟨k1, k2, k3⟩ := curaLine_state' e1
        have hul := hu l (by simp)
        obtain ⟨m1, m2, m3, m4⟩ := curaMarks_loop s l rest.isEmpty (fun h => (hnext h).1) hul.1 hul.2
        rw [← k1] at m1 m2
        rw [← k2] at m3
        rw [← k3] at m4
        rw [List.foldl_cons]
        refine ih out2 s1 _ (loopStep st l1) (fun x hx => hu x (List.mem_cons_of_mem _ hx)) ?_ ?_ ?_ e2 ?_
        · intro i a b ha hb ho
          have := hsp (i + 1) a b (by simpa using ha) (by simpa using hb) ho
          refine ⟨this.1, ?_⟩
          have h2 := this.2
          simp only [List.length_cons] at h2
          omega
        · intro hn
          refine ⟨?_, ?_⟩
          · by_contra hc
            exact (m3.1 hc).1 (.inl (m4.1 hn))
          · intro x hx
            have hx0 : rest[0]? = some x := by rw [← List.head?_eq_getElem?]; exact hx
            have := hsp 0 l x (by simp) (by simpa using hx0) (m4.1 hn)
            refine ⟨this.1, ?_⟩
            have h2 := this.2
            simp only [List.length_cons] at h2
            omega
        · rw [loopStep_none_iff, m1, m2, hst]
          by_cases hn : s.next = none
          · simp only [hn, ne_eq, not_true_eq_false, not_false_eq_true, true_and, false_or] at m3 ⊢
            constructor
            · intro h
              by_contra hc
              have := m3.1 hc
              rcases h with h | h
              · rcases h.1 with h | h
                · exact this.1 h
                · rw [this.2.1] at h; cases h
              · exact this.2.2 h
            · intro h
              by_cases ht : s.type = .unknown
              · exact .inr ht
              · left
                refine ⟨?_, ht⟩
                by_contra hc
                rw [not_or] at hc
                exact (m3.2 ⟨hc.1, by simpa using hc.2, ht⟩) h
          · obtain ⟨ht, hh⟩ := hnext hn
            obtain ⟨ha, hlen⟩ := hh l rfl
            have hne : rest.isEmpty = false := by
              cases rest with
              | nil => simp at hlen
              | cons => rfl
            have h1 : s1.type ≠ .unknown := m3.2 ⟨ha, hne, .inl hn⟩
            simp [hn, h1]
        · intro hr
          subst hr
          by_contra hc
          have := (m3.1 hc).2.1
          simp at this

end GCodeUtils
