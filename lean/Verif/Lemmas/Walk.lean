import Verif.Spec.Walk
import Verif.Lemmas.StretchRun

/-
  Lemmas about the line iterators.
-/

set_option linter.unusedSectionVars false

namespace GCodeUtils

open Spec

variable {α : Type} [Field α] [LinearOrder α] [IsStrictOrderedRing α] [FloorRing α]

theorem getNextLoop_succ (kind : ItKind) (lines : List (PyLine α)) (fuel : ℕ) (st : ItSt) :
    getNextLoop kind lines (fuel + 1) st =
    match lineAt lines st.idx with
    | none => .error .stopIteration
    | some line =>
      if st.first = some st.idx then .error .stopIteration
      else if marked extrusionOffMarker line && kind.stopOnOff then
        match resetIndex kind lines st.idx with
        | .error er => .error er
        | .ok k => getNextLoop kind lines fuel { idx := k, first := some (st.first.getD st.idx) }
      else if isXYMove line then .ok (line, { idx := st.idx + kind.increment, first := some (st.first.getD st.idx) })
      else getNextLoop kind lines fuel { idx := st.idx + kind.increment, first := some (st.first.getD st.idx) } := rfl

/-- More time does not change an answer. -/
theorem getNextLoop_mono {kind : ItKind} {lines : List (PyLine α)} : ∀ {n : ℕ} {st : ItSt} (m : ℕ),
    getNextLoop kind lines n st ≠ .error .outOfFuel → n ≤ m → getNextLoop kind lines m st = getNextLoop kind lines n st := by
  intro n
  induction n with
  | zero => intro st m h _; exact absurd rfl h
  | succ n ih =>
    intro st m h hm
    obtain ⟨m, rfl⟩ : ∃ k, m = k + 1 := ⟨m - 1, by omega⟩
    rw [getNextLoop_succ] at h ⊢
    rw [getNextLoop_succ]
    cases hl : lineAt lines st.idx with
    | none => rfl
    | some line =>
      rw [hl] at h
      simp only at h ⊢
      by_cases h1 : st.first = some st.idx
      · rw [if_pos h1, if_pos h1]
      · rw [if_neg h1] at h ⊢
        rw [if_neg h1]
        by_cases h2 : (marked extrusionOffMarker line && kind.stopOnOff) = true
        · rw [if_pos h2] at h ⊢
          rw [if_pos h2]
          cases hr : resetIndex kind lines st.idx with
          | error er => rfl
          | ok k =>
            rw [hr] at h
            exact ih m h (by omega)
        · rw [if_neg h2] at h ⊢
          rw [if_neg h2]
          by_cases h3 : isXYMove line = true
          · rw [if_pos h3, if_pos h3]
          · rw [if_neg h3] at h ⊢
            rw [if_neg h3]
            exact ih m h (by omega)

theorem answers_of_loop {kind : ItKind} {lines : List (PyLine α)} {st : ItSt}
    (hs : ∀ st', indexSetup kind lines st = .ok st' → getNextLoop kind lines (2 * lines.length + 3) st' ≠ .error .outOfFuel)
    (he : indexSetup kind lines st ≠ .error .outOfFuel) : Answers kind lines st := by
  unfold Answers getNext
  cases hi : indexSetup kind lines st with
  | error er => exact ⟨.error er, by rw [hi] at he; simpa using he, fun _ _ => rfl⟩
  | ok st' => exact ⟨_, hs st' hi, fun fuel hf => getNextLoop_mono fuel (hs st' hi) hf⟩

theorem resetIndex_fuel (kind : ItKind) (lines : List (PyLine α)) (i : ℤ) : resetIndex kind lines i ≠ .error .outOfFuel := by
  unfold resetIndex
  simp only
  split <;> simp

theorem indexSetup_fuel (kind : ItKind) (lines : List (PyLine α)) (st : ItSt) : indexSetup kind lines st ≠ .error .outOfFuel := by
  have h : (resetIndex kind lines st.idx).map (fun k => { st with idx := k }) ≠ .error .outOfFuel := by
    have := resetIndex_fuel kind lines st.idx
    cases hr : resetIndex kind lines st.idx with
    | error er => rw [hr] at this; simpa [Except.map] using this
    | ok k => simp [Except.map]
  unfold indexSetup
  cases kind <;> simp only
  · simp
  · split_ifs
    · exact h
    · simp
  · simp
  · split_ifs
    · exact h
    · split
      · simp
      · split_ifs
        · exact h
        · simp
  · split
    · simp
    · split_ifs
      · exact h
      · simp
  · split_ifs
    · exact h
    · split
      · simp
      · split_ifs
        · exact h
        · simp

theorem lineAt_some {lines : List (PyLine α)} {i : ℤ} {l : PyLine α} (h : lineAt lines i = some l) :
    0 ≤ i ∧ i < lines.length ∧ lines[i.toNat]? = some l := by
  unfold lineAt at h
  by_cases hi : 0 ≤ i
  · rw [if_pos hi] at h
    obtain ⟨h1, _⟩ := List.getElem?_eq_some_iff.1 h
    exact ⟨hi, by omega, h⟩
  · rw [if_neg hi] at h; cases h

/-! ### walks that do not look at extrusion -/

theorem up_ends {kind : ItKind} {lines : List (PyLine α)} (hk : kind.stopOnOff = false) (hinc : kind.increment = 1) : ∀ (n : ℕ) (st : ItSt),
    0 < n → (lines.length : ℤ) - st.idx < n → getNextLoop kind lines n st ≠ .error .outOfFuel := by
  intro n
  induction n with
  | zero => intro st h; omega
  | succ n ih =>
    intro st _ hlt
    rw [getNextLoop_succ]
    cases hl : lineAt lines st.idx with
    | none => simp
    | some line =>
      obtain ⟨h0, h1, _⟩ := lineAt_some hl
      simp only [hk, Bool.and_false, Bool.false_eq_true, if_false]
      split_ifs
      · simp
      · simp
      · exact ih _ (by omega) (by simp only [hinc]; omega)

theorem down_ends {kind : ItKind} {lines : List (PyLine α)} (hk : kind.stopOnOff = false) (hinc : kind.increment = -1) : ∀ (n : ℕ) (st : ItSt),
    0 < n → (st.idx < lines.length → st.idx + 1 < n) → getNextLoop kind lines n st ≠ .error .outOfFuel := by
  intro n
  induction n with
  | zero => intro st h; omega
  | succ n ih =>
    intro st _ hlt
    rw [getNextLoop_succ]
    cases hl : lineAt lines st.idx with
    | none => simp
    | some line =>
      obtain ⟨h0, h1, _⟩ := lineAt_some hl
      simp only [hk, Bool.and_false, Bool.false_eq_true, if_false]
      have := hlt h1
      split_ifs
      · simp
      · simp
      · exact ih _ (by omega) (fun _ => by simp only [hinc]; omega)

theorem cura_answers (kind : ItKind) (hk : kind.stopOnOff = false) (lines : List (PyLine α)) (st : ItSt) : Answers kind lines st := by
  refine answers_of_loop (fun st' hst => ?_) (indexSetup_fuel kind lines st)
  cases kind <;> simp only [ItKind.stopOnOff, Bool.true_eq_false] at hk
  · have hi : 0 ≤ st'.idx := by
      unfold indexSetup at hst
      simp only at hst
      split at hst
      · cases hst
      · rename_i l hl
        split_ifs at hst
        · unfold resetIndex at hst
          simp only at hst
          cases hr : searchDown (marked loopStartMarker) lines 0 st.idx.toNat with
          | none => rw [hr] at hst; simp [Except.map] at hst
          | some k =>
            rw [hr] at hst
            have h' : (⟨(k : ℤ), st.first⟩ : ItSt) = st' := Except.ok.inj hst
            rw [← h']
            simp
        · cases hst
          exact (lineAt_some hl).1
    exact up_ends rfl rfl _ _ (by omega) (by omega)
  · exact down_ends rfl rfl _ _ (by omega) (fun h => by push_cast; omega)

/-! ### searches -/

theorem searchDown_spec {p : PyLine α → Bool} {lines : List (PyLine α)} {lo : ℕ} : ∀ {k j : ℕ}, searchDown p lines lo k = some j →
    lo ≤ j ∧ j < k ∧ (∃ l, lines[j]? = some l ∧ p l = true) ∧ ∀ r, j < r → r < k → ∀ l, lines[r]? = some l → p l = false := by
  intro k
  induction k with
  | zero => intro j h; simp [searchDown] at h
  | succ k ih =>
    intro j h
    rw [searchDown] at h
    by_cases hlo : k < lo
    · rw [if_pos hlo] at h; cases h
    · rw [if_neg hlo] at h
      have hrec : searchDown p lines lo k = some j → (∀ l, lines[k]? = some l → p l = false) →
          lo ≤ j ∧ j < k + 1 ∧ (∃ l, lines[j]? = some l ∧ p l = true) ∧ ∀ r, j < r → r < k + 1 → ∀ l, lines[r]? = some l → p l = false := by
        intro h hk
        obtain ⟨a, b, c, d⟩ := ih h
        refine ⟨a, by omega, c, fun r h1 h2 l hl => ?_⟩
        by_cases hr : r = k
        · subst hr; exact hk l hl
        · exact d r h1 (by omega) l hl
      cases hl : lines[k]? with
      | none => rw [hl] at h; exact hrec h (fun l h' => by rw [hl] at h'; cases h')
      | some l =>
        rw [hl] at h
        simp only at h
        by_cases hp : p l = true
        · rw [if_pos hp] at h
          cases h
          exact ⟨by omega, by omega, ⟨l, hl, hp⟩, fun r h1 h2 => by omega⟩
        · rw [if_neg hp] at h
          refine hrec h (fun l' h' => ?_)
          rw [hl] at h'; cases h'
          simpa using hp

theorem searchUp_spec {p : PyLine α → Bool} {lines : List (PyLine α)} {k j : ℕ} (h : searchUp p lines k = some j) :
    k ≤ j ∧ (∃ l, lines[j]? = some l ∧ p l = true) ∧ ∀ r, k ≤ r → r < j → ∀ l, lines[r]? = some l → p l = false := by
  unfold searchUp at h
  cases hf : (lines.drop k).findIdx? p with
  | none => rw [hf] at h; cases h
  | some i =>
    rw [hf] at h
    simp only [Option.map_some, Option.some.injEq] at h
    subst h
    rw [List.findIdx?_eq_some_iff_getElem] at hf
    obtain ⟨hi, hp, hmin⟩ := hf
    refine ⟨by omega, ⟨(lines.drop k)[i], ?_, hp⟩, ?_⟩
    · rw [← List.getElem?_eq_getElem hi, List.getElem?_drop, Nat.add_comm]
    · intro r h1 h2 l hl
      have hlt : r - k < i := by omega
      have := hmin (r - k) hlt
      have hr : (lines.drop k)[r - k]? = some l := by rw [List.getElem?_drop, Nat.add_sub_cancel' h1, hl]
      obtain ⟨h3, h4⟩ := List.getElem?_eq_some_iff.1 hr
      rw [h4] at this
      simpa using this

theorem marked_off (l : PyLine α) : marked extrusionOffMarker l = true ↔ c!"stretch-extrusion-off" <:+: l.raw := marked_iff _ l

/-! ### walks that turn back where extrusion is switched off -/

/-- Where the forward iterators of Slic3r and Skeinforge turn back to. -/
theorem reset_forward {kind : ItKind} {start : Str} (hk : kind = .fwd ∧ start = c!"stretch-loop-start" ∨ kind = .fwdLegacy ∧ start = c!"stretch-extrusion-on")
    {lines : List (PyLine α)} {i k : ℤ} (h : resetIndex kind lines i = .ok k) :
    ∃ p : ℕ, k = p + 1 ∧ p < i.toNat ∧ HasMark start lines p ∧ ∀ r, p < r → r < i.toNat → ¬ HasMark start lines r := by
  have key : ∀ lo, ∀ p, searchDown (marked start) lines lo i.toNat = some p → ((p : ℤ) + 1 = k) →
      ∃ p : ℕ, k = p + 1 ∧ p < i.toNat ∧ HasMark start lines p ∧ ∀ r, p < r → r < i.toNat → ¬ HasMark start lines r := by
    intro lo p hp hk
    obtain ⟨_, b, ⟨l, c, c'⟩, d⟩ := searchDown_spec hp
    refine ⟨p, hk.symm, b, ⟨l, c, (marked_iff _ _).1 c'⟩, ?_⟩
    rintro r h1 h2 ⟨l', hl', hm⟩
    have := d r h1 h2 l' hl'
    rw [(marked_iff _ _).2 hm] at this
    cases this
  rcases hk with ⟨rfl, rfl⟩ | ⟨rfl, rfl⟩
  · unfold resetIndex at h
    simp only at h
    cases hr : searchDown (marked loopStartMarker) lines 0 i.toNat with
    | none => rw [hr] at h; cases h
    | some p =>
      rw [hr] at h
      exact key 0 p hr (Except.ok.inj h)
  · unfold resetIndex at h
    simp only at h
    cases hr : searchDown (marked extrusionOnMarker) lines 1 i.toNat with
    | none => rw [hr] at h; cases h
    | some p =>
      rw [hr] at h
      exact key 1 p hr (Except.ok.inj h)

/-- Once turned back, the walk finds a point. -/
theorem up_point {kind : ItKind} {lines : List (PyLine α)} (hinc : kind.increment = 1) : ∀ (n : ℕ) (st : ItSt),
    0 < n → (lines.length : ℤ) - st.idx < n → 0 ≤ st.idx →
    (∀ q, st.idx ≤ (q : ℕ) → HasMark c!"stretch-extrusion-off" lines q → ∃ m : ℕ, st.idx ≤ m ∧ m < q ∧ IsPoint lines m) →
    getNextLoop kind lines n st ≠ .error .outOfFuel := by
  intro n
  induction n with
  | zero => intro st h; omega
  | succ n ih =>
    intro st _ hlt hpos hq
    rw [getNextLoop_succ]
    cases hl : lineAt lines st.idx with
    | none => simp
    | some line =>
      obtain ⟨h0, h1, h2⟩ := lineAt_some hl
      have hoff : ¬ c!"stretch-extrusion-off" <:+: line.raw := by
        intro hc
        obtain ⟨m, hm1, hm2, _⟩ := hq st.idx.toNat (by omega) ⟨line, h2, hc⟩
        omega
      have hb : (marked extrusionOffMarker line && kind.stopOnOff) = false := by
        rw [Bool.and_eq_false_iff]; left
        rw [← Bool.not_eq_true, marked_off]; exact hoff
      simp only [hb, Bool.false_eq_true, if_false]
      by_cases h3 : st.first = some st.idx
      · rw [if_pos h3]; simp
      · rw [if_neg h3]
        by_cases h4 : isXYMove line = true
        · rw [if_pos h4]; simp
        · rw [if_neg h4]
          refine ih _ (by omega) (by simp only [hinc]; omega) (by simp only [hinc]; omega) ?_
          intro q hle hm
          simp only [hinc] at hle
          obtain ⟨m, m1, m2, m3⟩ := hq q (by omega) hm
          refine ⟨m, ?_, m2, m3⟩
          simp only [hinc]
          by_contra hc
          have : m = st.idx.toNat := by omega
          subst this
          obtain ⟨l, e1, e2, _⟩ := m3
          rw [h2] at e1
          cases e1
          exact h4 ((isXYMove_iff _).2 e2)

theorem up_answers {kind : ItKind} {start : Str} (hk : kind = .fwd ∧ start = c!"stretch-loop-start" ∨ kind = .fwdLegacy ∧ start = c!"stretch-extrusion-on")
    {lines : List (PyLine α)} (hp : PointsAfter start lines) : ∀ (n : ℕ) (st : ItSt),
    lines.length + 2 < n → (0 ≤ st.idx → (lines.length : ℤ) - st.idx + lines.length + 2 < n) → getNextLoop kind lines n st ≠ .error .outOfFuel := by
  have hinc : kind.increment = 1 := by rcases hk with ⟨rfl, _⟩ | ⟨rfl, _⟩ <;> rfl
  intro n
  induction n with
  | zero => intro st h; omega
  | succ n ih =>
    intro st _ hlt
    rw [getNextLoop_succ]
    cases hl : lineAt lines st.idx with
    | none => simp
    | some line =>
      obtain ⟨h0, h1, h2⟩ := lineAt_some hl
      have hlt := hlt h0
      simp only
      by_cases h3 : st.first = some st.idx
      · rw [if_pos h3]; simp
      · rw [if_neg h3]
        by_cases h4 : (marked extrusionOffMarker line && kind.stopOnOff) = true
        · rw [if_pos h4]
          cases hr : resetIndex kind lines st.idx with
          | error er =>
            have := resetIndex_fuel kind lines st.idx
            rw [hr] at this
            simpa using this
          | ok k =>
            simp only
            obtain ⟨p, rfl, hpi, hpm, hpn⟩ := reset_forward hk hr
            have hoff : HasMark c!"stretch-extrusion-off" lines st.idx.toNat := ⟨line, h2, (marked_off _).1 (Bool.and_eq_true_iff.1 h4).1⟩
            refine up_point hinc n _ (by omega) (by simp only; omega) (by simp only; omega) ?_
            intro q hle hq
            simp only at hle
            by_cases hqi : q ≤ st.idx.toNat
            · obtain ⟨m, m1, m2, m3⟩ := hp p q (by omega) hpm hq (fun r r1 r2 => hpn r r1 (by omega))
              exact ⟨m, by simp only; omega, m2, m3⟩
            · obtain ⟨m, m1, m2, m3⟩ := hp p st.idx.toNat hpi hpm hoff hpn
              exact ⟨m, by simp only; omega, by omega, m3⟩
        · rw [if_neg h4]
          by_cases h5 : isXYMove line = true
          · rw [if_pos h5]; simp
          · rw [if_neg h5]
            exact ih _ (by omega) (fun _ => by simp only [hinc]; omega)

/-- Where the backward iterators of Slic3r and Skeinforge turn back to. -/
theorem reset_backward {kind : ItKind} (hk : kind = .bwd ∨ kind = .bwdLegacy) {lines : List (PyLine α)} {i k : ℤ} (h : resetIndex kind lines i = .ok k) :
    ∃ q : ℕ, k = q - 2 ∧ (i + 1).toNat ≤ q ∧ q < lines.length ∧ HasMark c!"stretch-extrusion-off" lines q ∧
      ∀ r, (i + 1).toNat ≤ r → r < q → ¬ HasMark c!"stretch-extrusion-off" lines r := by
  have hr : ∃ q, searchUp (marked extrusionOffMarker) lines (i + 1).toNat = some q ∧ (q : ℤ) - 2 = k := by
    unfold resetIndex at h
    rcases hk with rfl | rfl <;> simp only at h
    all_goals
      cases hr : searchUp (marked extrusionOffMarker) lines (i + 1).toNat with
      | none => rw [hr] at h; cases h
      | some q =>
        rw [hr] at h
        exact ⟨q, rfl, Except.ok.inj h⟩
  obtain ⟨q, hq, rfl⟩ := hr
  obtain ⟨a, ⟨l, c, c'⟩, d⟩ := searchUp_spec hq
  refine ⟨q, rfl, a, (List.getElem?_eq_some_iff.1 c).1, ⟨l, c, (marked_off _).1 c'⟩, ?_⟩
  rintro r h1 h2 ⟨l', hl', hm⟩
  have := d r h1 h2 l' hl'
  rw [(marked_off _).2 hm] at this
  cases this

theorem down_point {kind : ItKind} {lines : List (PyLine α)} (hinc : kind.increment = -1) : ∀ (n : ℕ) (st : ItSt),
    0 < n → (st.idx < lines.length → st.idx + 1 < n) →
    (∀ q : ℕ, q ≤ st.idx → HasMark c!"stretch-extrusion-off" lines q → ∃ m : ℕ, q < m ∧ m ≤ st.idx ∧ IsPoint lines m) →
    getNextLoop kind lines n st ≠ .error .outOfFuel := by
  intro n
  induction n with
  | zero => intro st h; omega
  | succ n ih =>
    intro st _ hlt hq
    rw [getNextLoop_succ]
    cases hl : lineAt lines st.idx with
    | none => simp
    | some line =>
      obtain ⟨h0, h1, h2⟩ := lineAt_some hl
      have hoff : ¬ c!"stretch-extrusion-off" <:+: line.raw := by
        intro hc
        obtain ⟨m, hm1, hm2, _⟩ := hq st.idx.toNat (by omega) ⟨line, h2, hc⟩
        omega
      have hb : (marked extrusionOffMarker line && kind.stopOnOff) = false := by
        rw [Bool.and_eq_false_iff]; left
        rw [← Bool.not_eq_true, marked_off]; exact hoff
      simp only [hb, Bool.false_eq_true, if_false]
      have := hlt h1
      by_cases h3 : st.first = some st.idx
      · rw [if_pos h3]; simp
      · rw [if_neg h3]
        by_cases h4 : isXYMove line = true
        · rw [if_pos h4]; simp
        · rw [if_neg h4]
          refine ih _ (by omega) (fun _ => by simp only [hinc]; omega) ?_
          intro q hle hm
          simp only [hinc] at hle
          obtain ⟨m, m1, m2, m3⟩ := hq q (by omega) hm
          refine ⟨m, m1, ?_, m3⟩
          simp only [hinc]
          by_contra hc
          have : m = st.idx.toNat := by omega
          subst this
          obtain ⟨l, e1, e2, _⟩ := m3
          rw [h2] at e1
          cases e1
          exact h4 ((isXYMove_iff _).2 e2)

theorem down_answers {kind : ItKind} (hk : kind = .bwd ∨ kind = .bwdLegacy) {lines : List (PyLine α)} (hp : PointsBetween lines) :
    ∀ (n : ℕ) (st : ItSt), 0 < n → (st.idx < lines.length → st.idx + 1 + lines.length + 1 < n) →
    getNextLoop kind lines n st ≠ .error .outOfFuel := by
  have hinc : kind.increment = -1 := by rcases hk with rfl | rfl <;> rfl
  intro n
  induction n with
  | zero => intro st h; omega
  | succ n ih =>
    intro st _ hlt
    rw [getNextLoop_succ]
    cases hl : lineAt lines st.idx with
    | none => simp
    | some line =>
      obtain ⟨h0, h1, h2⟩ := lineAt_some hl
      have hlt := hlt h1
      simp only
      by_cases h3 : st.first = some st.idx
      · rw [if_pos h3]; simp
      · rw [if_neg h3]
        by_cases h4 : (marked extrusionOffMarker line && kind.stopOnOff) = true
        · rw [if_pos h4]
          cases hr : resetIndex kind lines st.idx with
          | error er =>
            have := resetIndex_fuel kind lines st.idx
            rw [hr] at this
            simpa using this
          | ok k =>
            simp only
            obtain ⟨q, rfl, hqi, hql, hqm, hqn⟩ := reset_backward hk hr
            have hoff : HasMark c!"stretch-extrusion-off" lines st.idx.toNat := ⟨line, h2, (marked_off _).1 (Bool.and_eq_true_iff.1 h4).1⟩
            by_cases hq1 : q = st.idx.toNat + 1
            · refine ih _ ?_ (fun _ => ?_)
              · omega
              · simp only; omega
            · refine down_point hinc n _ (by omega) (fun _ => by simp only; omega) ?_
              intro q' hle hq'
              simp only at hle
              obtain ⟨m, m1, m2, m3⟩ := hp st.idx.toNat q (by omega) hoff hqm (fun r r1 r2 => hqn r (by omega) r2)
              by_cases hqi' : q' ≤ st.idx.toNat
              · exact ⟨m, by omega, by simp only; omega, m3⟩
              · exact absurd hq' (hqn q' (by omega) (by omega))
        · rw [if_neg h4]
          by_cases h5 : isXYMove line = true
          · rw [if_pos h5]; simp
          · rw [if_neg h5]
            exact ih _ (by omega) (fun _ => by simp only [hinc]; omega)

theorem forward_answers {kind : ItKind} {start : Str}
    (hk : kind = .fwd ∧ start = c!"stretch-loop-start" ∨ kind = .fwdLegacy ∧ start = c!"stretch-extrusion-on")
    {lines : List (PyLine α)} (hp : PointsAfter start lines) (st : ItSt) : Answers kind lines st := by
  refine answers_of_loop (fun st' _ => ?_) (indexSetup_fuel kind lines st)
  exact up_answers hk hp _ _ (by omega) (fun _ => by push_cast; omega)

theorem backward_answers {kind : ItKind} (hk : kind = .bwd ∨ kind = .bwdLegacy) {lines : List (PyLine α)} (hp : PointsBetween lines) (st : ItSt) :
    Answers kind lines st := by
  refine answers_of_loop (fun st' _ => ?_) (indexSetup_fuel kind lines st)
  exact down_answers hk hp _ _ (by omega) (fun _ => by push_cast; omega)

end GCodeUtils
