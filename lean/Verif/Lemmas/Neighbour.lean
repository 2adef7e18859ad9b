import Verif.Spec.Neighbour
import Verif.Lemmas.Walk

/-
  The lines that the iterators visit along a loop.
-/

set_option linter.unusedSectionVars false

namespace GCodeUtils

open Spec

variable {α : Type} [Field α] [LinearOrder α] [IsStrictOrderedRing α] [FloorRing α]

/-! ### answers, time not counted -/

/-- The answer of `get_next`, given time enough. -/
def Gets (kind : ItKind) (ls : List (PyLine α)) (st : ItSt) (r : Except Err (PyLine α × ItSt)) : Prop :=
  ∃ F, ∀ fuel, F ≤ fuel → getNext fuel kind ls st = r

/-- The answer of its loop. -/
def LoopGets (kind : ItKind) (ls : List (PyLine α)) (st : ItSt) (r : Except Err (PyLine α × ItSt)) : Prop :=
  ∃ F, ∀ fuel, F ≤ fuel → getNextLoop kind ls fuel st = r

/-- The lines that an iterator visits. -/
inductive Yields (kind : ItKind) (ls : List (PyLine α)) : ItSt → List (PyLine α) → Prop
  | stop {st} : Gets kind ls st (.error .stopIteration) → Yields kind ls st []
  | more {st l st' out} : Gets kind ls st (.ok (l, st')) → Yields kind ls st' out → Yields kind ls st (l :: out)

theorem getNext_mono {kind : ItKind} {ls : List (PyLine α)} {n m : ℕ} {st : ItSt} (h : getNext n kind ls st ≠ .error .outOfFuel) (hm : n ≤ m) :
    getNext m kind ls st = getNext n kind ls st := by
  unfold getNext at h ⊢
  cases hi : indexSetup kind ls st with
  | error er => rfl
  | ok st' => rw [hi] at h; exact getNextLoop_mono m h hm

theorem gets_at {kind : ItKind} {ls : List (PyLine α)} {st : ItSt} {r : Except Err (PyLine α × ItSt)} (h : Gets kind ls st r) {fuel : ℕ}
    (hf : getNext fuel kind ls st ≠ .error .outOfFuel) : getNext fuel kind ls st = r := by
  obtain ⟨F, hF⟩ := h
  rw [← getNext_mono hf (le_max_left fuel F), hF _ (le_max_right fuel F)]

theorem gets_setup {kind : ItKind} {ls : List (PyLine α)} {st st' : ItSt} {r : Except Err (PyLine α × ItSt)} (hs : indexSetup kind ls st = .ok st')
    (h : LoopGets kind ls st' r) : Gets kind ls st r := by
  obtain ⟨F, hF⟩ := h
  exact ⟨F, fun fuel hf => by unfold getNext; rw [hs]; exact hF fuel hf⟩

theorem loopGets_of {kind : ItKind} {ls : List (PyLine α)} {st st' : ItSt} {r : Except Err (PyLine α × ItSt)} (hs : indexSetup kind ls st = .ok st')
    (h : Gets kind ls st r) : LoopGets kind ls st' r := by
  obtain ⟨F, hF⟩ := h
  exact ⟨F, fun fuel hf => by have := hF fuel hf; unfold getNext at this; rw [hs] at this; exact this⟩

/-- Two states that lead to the same place. -/
theorem yields_same {kind : ItKind} {ls : List (PyLine α)} {st st1 st2 : ItSt} {out : List (PyLine α)} (h1 : indexSetup kind ls st1 = .ok st)
    (h2 : indexSetup kind ls st2 = .ok st) (h : Yields kind ls st2 out) : Yields kind ls st1 out := by
  cases h with
  | stop h => exact .stop (gets_setup h1 (loopGets_of h2 h))
  | more h h' => exact .more (gets_setup h1 (loopGets_of h2 h)) h'

theorem loop_stop {kind : ItKind} {ls : List (PyLine α)} {i : ℤ} {l : PyLine α} (hl : lineAt ls i = some l) :
    LoopGets kind ls { idx := i, first := some i } (.error .stopIteration) := by
  refine ⟨1, fun fuel hf => ?_⟩
  obtain ⟨n, rfl⟩ : ∃ n, fuel = n + 1 := ⟨fuel - 1, by omega⟩
  rw [getNextLoop_succ]
  simp only [hl, if_pos]

/-- One line of the loop of `get_next`. -/
theorem loop_one {kind : ItKind} {ls : List (PyLine α)} {i : ℤ} {fi : Option ℤ} {l : PyLine α} (hl : lineAt ls i = some l) (hf : fi ≠ some i)
    (ho : ¬ c!"stretch-extrusion-off" <:+: l.raw ∨ kind.stopOnOff = false) {r : Except Err (PyLine α × ItSt)} :
    (XYMove l → r = .ok (l, { idx := i + kind.increment, first := some (fi.getD i) }) → LoopGets kind ls { idx := i, first := fi } r) ∧
    (¬ XYMove l → LoopGets kind ls { idx := i + kind.increment, first := some (fi.getD i) } r → LoopGets kind ls { idx := i, first := fi } r) := by
  have hoff : (marked extrusionOffMarker l && kind.stopOnOff) = false := by
    rcases ho with ho | ho
    · have : marked extrusionOffMarker l = false := by
        cases hm : marked extrusionOffMarker l with
        | false => rfl
        | true => exact absurd ((marked_off l).1 hm) ho
      rw [this]; rfl
    · rw [ho]; simp
  constructor
  · intro hx hr
    refine ⟨1, fun fuel hfu => ?_⟩
    obtain ⟨n, rfl⟩ : ∃ n, fuel = n + 1 := ⟨fuel - 1, by omega⟩
    rw [getNextLoop_succ]
    simp only [hl]
    rw [if_neg hf, if_neg (by rw [hoff]; decide), if_pos ((isXYMove_iff l).2 hx), hr]
  · rintro hx ⟨F, hF⟩
    refine ⟨F + 1, fun fuel hfu => ?_⟩
    obtain ⟨n, rfl⟩ : ∃ n, fuel = n + 1 := ⟨fuel - 1, by omega⟩
    rw [getNextLoop_succ]
    simp only [hl]
    rw [if_neg hf, if_neg (by rw [hoff]; decide), if_neg (fun h => hx ((isXYMove_iff l).1 h))]
    exact hF n (by omega)

theorem lineAt_nat (ls : List (PyLine α)) (i : ℕ) : lineAt ls (i : ℤ) = ls[i]? := by
  unfold lineAt; simp

/-! ### the moves between two lines -/

theorem movesIn_nil (ls : List (PyLine α)) {i j : ℕ} (h : j ≤ i) : movesIn ls i j = [] := by
  unfold movesIn
  rw [List.drop_of_length_le (by simp; omega)]
  rfl

theorem movesIn_cons (ls : List (PyLine α)) {i j : ℕ} {l : PyLine α} (h : i < j) (hl : ls[i]? = some l) :
    movesIn ls i j = if XYMove l then l :: movesIn ls (i + 1) j else movesIn ls (i + 1) j := by
  unfold movesIn
  obtain ⟨h1, h2⟩ := List.getElem?_eq_some_iff.1 hl
  have : (ls.take j).drop i = l :: (ls.take j).drop (i + 1) := by
    rw [List.drop_eq_getElem_cons (by simp; omega)]
    simp [h2]
  rw [this, List.filter_cons]
  by_cases hx : XYMove l <;> simp [hx]

theorem movesIn_snoc (ls : List (PyLine α)) {i j : ℕ} {l : PyLine α} (h : i ≤ j) (hl : ls[j]? = some l) :
    movesIn ls i (j + 1) = if XYMove l then movesIn ls i j ++ [l] else movesIn ls i j := by
  unfold movesIn
  obtain ⟨h1, h2⟩ := List.getElem?_eq_some_iff.1 hl
  have : (ls.take (j + 1)).drop i = (ls.take j).drop i ++ [l] := by
    rw [List.take_add_one, hl, List.drop_append_of_le_length (by simp; omega)]
    simp
  rw [this, List.filter_append]
  by_cases hx : XYMove l <;> simp [hx]

/-! ### runs up and down -/

/-- Going up from `i` to `j`, the last line before `j` being a move. -/
theorem run_up {kind : ItKind} (hinc : kind.increment = 1) {ls : List (PyLine α)} {j : ℕ} {f : ℤ} {rest : List (PyLine α)}
    (hrest : Yields kind ls { idx := (j : ℤ), first := some f } rest) (hlast : ∃ l, ls[j - 1]? = some l ∧ XYMove l) : ∀ (d i : ℕ) (fi : Option ℤ), j - i = d → i < j →
    (∀ m l, i ≤ m → m < j → ls[m]? = some l → ¬ c!"stretch-extrusion-off" <:+: l.raw ∨ kind.stopOnOff = false) →
    (∀ m (g : Option ℤ), i ≤ m → m < j → indexSetup kind ls { idx := (m : ℤ), first := g } = .ok { idx := (m : ℤ), first := g }) →
    fi.getD i = f → (∀ m : ℕ, i ≤ m → m < j → fi ≠ some (m : ℤ)) → (∀ m : ℕ, i < m → m < j → f ≠ (m : ℤ)) →
    Yields kind ls { idx := (i : ℤ), first := fi } (movesIn ls i j ++ rest) := by
  have key : ∀ (d i : ℕ) (fi : Option ℤ), j - i = d → i < j →
      (∀ m l, i ≤ m → m < j → ls[m]? = some l → ¬ c!"stretch-extrusion-off" <:+: l.raw ∨ kind.stopOnOff = false) →
      fi.getD i = f → (∀ m : ℕ, i ≤ m → m < j → fi ≠ some (m : ℤ)) → (∀ m : ℕ, i < m → m < j → f ≠ (m : ℤ)) →
      ∃ m l, i ≤ m ∧ m < j ∧ ls[m]? = some l ∧ movesIn ls i j = l :: movesIn ls (m + 1) j ∧
        LoopGets kind ls { idx := (i : ℤ), first := fi } (.ok (l, { idx := ((m + 1 : ℕ) : ℤ), first := some f })) := by
    intro d
    induction d with
    | zero => intro i fi hd hij; omega
    | succ d ih =>
      intro i fi hd hij hoff hgf hfi hf
      obtain ⟨ll, hll, hllx⟩ := hlast
      have hlen := (List.getElem?_eq_some_iff.1 hll).1
      obtain ⟨l, hl⟩ : ∃ l, ls[i]? = some l := ⟨ls[i], List.getElem?_eq_getElem (by omega)⟩
      have h1 := loop_one (kind := kind) (ls := ls) (i := (i : ℤ)) (fi := fi) (l := l) (by rw [lineAt_nat, hl]) (hfi i le_rfl hij) (hoff i l le_rfl hij hl)
        (r := .ok (l, { idx := ((i + 1 : ℕ) : ℤ), first := some f }))
      rw [hinc, hgf] at h1
      by_cases hx : XYMove l
      · refine ⟨i, l, le_rfl, hij, hl, ?_, h1.1 hx (by push_cast; rfl)⟩
        rw [movesIn_cons ls hij hl, if_pos hx]
      · have hne : i + 1 < j := by
          by_contra hc
          have : j - 1 = i := by omega
          rw [this, hl] at hll
          cases hll
          exact hx hllx
        obtain ⟨m, l', a1, a2, a3, a4, a5⟩ := ih (i + 1) (some f) (by omega) hne (fun m l hm => hoff m l (by omega)) rfl
          (fun m hm hm' => by simpa using hf m (by omega) hm') (fun m hm => hf m (by omega))
        refine ⟨m, l', by omega, a2, a3, by rw [movesIn_cons ls hij hl, if_neg hx, a4], ?_⟩
        have h2 := (loop_one (kind := kind) (ls := ls) (i := (i : ℤ)) (fi := fi) (l := l) (by rw [lineAt_nat, hl]) (hfi i le_rfl hij) (hoff i l le_rfl hij hl)
          (r := .ok (l', { idx := ((m + 1 : ℕ) : ℤ), first := some f }))).2 hx
        rw [hinc, hgf] at h2
        apply h2
        have : ((i : ℤ) + 1) = ((i + 1 : ℕ) : ℤ) := by push_cast; rfl
        rw [this]
        exact a5
  intro d
  induction d using Nat.strong_induction_on with
  | _ d ih =>
    intro i fi hd hij hoff hset hgf hfi hf
    obtain ⟨m, l, a1, a2, a3, a4, a5⟩ := key d i fi hd hij hoff hgf hfi hf
    rw [a4, List.cons_append]
    refine .more (gets_setup (hset i fi le_rfl hij) a5) ?_
    by_cases hm : m + 1 = j
    · rw [hm, movesIn_nil ls le_rfl]
      exact hrest
    · exact ih (j - (m + 1)) (by omega) (m + 1) (some f) rfl (by omega) (fun m' l' h => hoff m' l' (by omega)) (fun m' g h => hset m' g (by omega)) rfl
        (fun m' h h' => by simpa using hf m' (by omega) h') (fun m' h => hf m' (by omega))

/-- Going down from `j - 1` to `i`, the line `i` being a move. -/
theorem run_down {kind : ItKind} (hinc : kind.increment = -1) {ls : List (PyLine α)} {i : ℕ} {f : ℤ} {rest : List (PyLine α)}
    (hrest : Yields kind ls { idx := (i : ℤ) - 1, first := some f } rest) (hfirst : ∃ l, ls[i]? = some l ∧ XYMove l) : ∀ (d j : ℕ) (fi : Option ℤ), j - i = d → i < j → j ≤ ls.length →
    (∀ m l, i ≤ m → m < j → ls[m]? = some l → ¬ c!"stretch-extrusion-off" <:+: l.raw ∨ kind.stopOnOff = false) →
    (∀ (m : ℕ) (g : Option ℤ), i ≤ m → m < j → indexSetup kind ls { idx := (m : ℤ), first := g } = .ok { idx := (m : ℤ), first := g }) →
    fi.getD ((j : ℤ) - 1) = f → (∀ m : ℕ, i ≤ m → m < j → fi ≠ some (m : ℤ)) → (∀ m : ℕ, i ≤ m → m + 1 < j → f ≠ (m : ℤ)) →
    Yields kind ls { idx := (j : ℤ) - 1, first := fi } ((movesIn ls i j).reverse ++ rest) := by
  have key : ∀ (d j : ℕ) (fi : Option ℤ), j - i = d → i < j → j ≤ ls.length →
      (∀ m l, i ≤ m → m < j → ls[m]? = some l → ¬ c!"stretch-extrusion-off" <:+: l.raw ∨ kind.stopOnOff = false) →
      fi.getD ((j : ℤ) - 1) = f → (∀ m : ℕ, i ≤ m → m < j → fi ≠ some (m : ℤ)) → (∀ m : ℕ, i ≤ m → m + 1 < j → f ≠ (m : ℤ)) →
      ∃ m l, i ≤ m ∧ m < j ∧ ls[m]? = some l ∧ movesIn ls i j = movesIn ls i m ++ [l] ∧
        LoopGets kind ls { idx := (j : ℤ) - 1, first := fi } (.ok (l, { idx := (m : ℤ) - 1, first := some f })) := by
    intro d
    induction d with
    | zero => intro j fi hd hij; omega
    | succ d ih =>
      intro j fi hd hij hlen hoff hgf hfi hf
      obtain ⟨ll, hll, hllx⟩ := hfirst
      obtain ⟨j, rfl⟩ : ∃ k, j = k + 1 := ⟨j - 1, by omega⟩
      obtain ⟨l, hl⟩ : ∃ l, ls[j]? = some l := ⟨ls[j], List.getElem?_eq_getElem (by omega)⟩
      have ej : (((j + 1 : ℕ) : ℤ) - 1) = (j : ℤ) := by push_cast; ring
      rw [ej] at hgf ⊢
      have h0 : ∀ r, _ := fun r => loop_one (kind := kind) (ls := ls) (i := (j : ℤ)) (fi := fi) (l := l) (by rw [lineAt_nat, hl]) (hfi j (by omega) (by omega)) (hoff j l (by omega) (by omega) hl) (r := r)
      by_cases hx : XYMove l
      · refine ⟨j, l, by omega, by omega, hl, by rw [movesIn_snoc ls (by omega) hl, if_pos hx], ?_⟩
        exact (h0 _).1 hx (by rw [hinc, hgf]; rfl)
      · have hne : i < j := by
          by_contra hc
          have : i = j := by omega
          rw [this, hl] at hll
          cases hll
          exact hx hllx
        obtain ⟨m, l', a1, a2, a3, a4, a5⟩ := ih j (some f) (by omega) hne (by omega) (fun m l hm hm' => hoff m l hm (by omega)) rfl
          (fun m hm hm' => by simpa using hf m hm (by omega)) (fun m hm hm' => hf m hm (by omega))
        refine ⟨m, l', a1, by omega, a3, by rw [movesIn_snoc ls (by omega) hl, if_neg hx, a4], ?_⟩
        apply (h0 _).2 hx
        rw [hinc, hgf]
        exact a5
  intro d
  induction d using Nat.strong_induction_on with
  | _ d ih =>
    intro j fi hd hij hlen hoff hset hgf hfi hf
    obtain ⟨m, l, a1, a2, a3, a4, a5⟩ := key d j fi hd hij hlen hoff hgf hfi hf
    rw [a4, List.reverse_append, List.reverse_singleton, List.singleton_append, List.cons_append]
    have hs := hset (j - 1) fi (by omega) (by omega)
    rw [show (((j - 1 : ℕ)) : ℤ) = (j : ℤ) - 1 by omega] at hs
    refine .more (gets_setup hs a5) ?_
    by_cases hm : m = i
    · rw [hm, movesIn_nil ls le_rfl]
      exact hrest
    · exact ih (m - i) (by omega) m (some f) rfl (by omega) (by omega) (fun m' l' h h' => hoff m' l' h (by omega)) (fun m' g h h' => hset m' g h (by omega)) rfl
        (fun m' h h' => by simpa using hf m' h (by omega)) (fun m' h h' => hf m' h (by omega))

/-! ### searches that find something -/

theorem searchDown_of {p : PyLine α → Bool} {lines : List (PyLine α)} {j : ℕ} {lj : PyLine α} (hj : lines[j]? = some lj) (hp : p lj = true) : ∀ {k : ℕ}, j < k →
    (∀ r l, j < r → r < k → lines[r]? = some l → p l = false) → searchDown p lines 0 k = some j := by
  intro k
  induction k with
  | zero => intro h; omega
  | succ k ih =>
    intro hjk hno
    rw [searchDown, if_neg (by omega)]
    by_cases hk : k = j
    · subst hk
      rw [hj]
      simp only
      rw [if_pos hp]
    · have hi := ih (by omega) (fun r l h1 h2 => hno r l h1 (by omega))
      cases hl : lines[k]? with
      | none => exact hi
      | some l =>
        simp only
        rw [if_neg (by rw [hno k l (by omega) (by omega) hl]; decide)]
        exact hi

theorem searchUp_of {p : PyLine α → Bool} {lines : List (PyLine α)} {k j : ℕ} {lj : PyLine α} (hj : lines[j]? = some lj) (hp : p lj = true) (hkj : k ≤ j)
    (hno : ∀ r l, k ≤ r → r < j → lines[r]? = some l → p l = false) : searchUp p lines k = some j := by
  unfold searchUp
  have hlen := (List.getElem?_eq_some_iff.1 hj).1
  have : (lines.drop k).findIdx? p = some (j - k) := by
    rw [List.findIdx?_eq_some_iff_getElem]
    refine ⟨by simp; omega, ?_, ?_⟩
    · rw [List.getElem_drop]
      have e : lines[k + (j - k)]? = some lj := by rw [Nat.add_sub_cancel' hkj, hj]
      obtain ⟨_, h⟩ := List.getElem?_eq_some_iff.1 e
      rw [h]; exact hp
    · intro r hr
      rw [List.getElem_drop]
      have := hno (k + r) (lines[k + r]'(by omega)) (by omega) (by omega) (List.getElem?_eq_getElem _)
      rw [this]; decide
  rw [this]
  simp only [Option.map_some, Option.some.injEq]
  omega

theorem marked_false {m : Str} {l : PyLine α} (h : ¬ m <:+: l.raw) : marked m l = false := by
  cases hm : marked m l with
  | false => rfl
  | true => exact absurd ((marked_iff m l).1 hm) h

/-! ### Cura -/

theorem cura_fwd_setup {ls : List (PyLine α)} {s k : ℕ} (h : CuraLoop ls s k) (m : ℕ) (g : Option ℤ) (h1 : s ≤ m) (h2 : m < k) :
    indexSetup .curaFwd ls { idx := (m : ℤ), first := g } = .ok { idx := (m : ℤ), first := g } := by
  obtain ⟨lk, hk, _⟩ := h.stop
  have hlen := (List.getElem?_eq_some_iff.1 hk).1
  obtain ⟨l, hl⟩ : ∃ l, ls[m]? = some l := ⟨ls[m], List.getElem?_eq_getElem (by omega)⟩
  unfold indexSetup
  simp only [lineAt_nat, hl]
  rw [if_neg (by rw [show marked loopStopMarker l = false from marked_false (h.noStop m l h1 h2 hl)]; decide)]

theorem cura_fwd_wrap {ls : List (PyLine α)} {s k : ℕ} (h : CuraLoop ls s k) (g : Option ℤ) :
    indexSetup .curaFwd ls { idx := (k : ℤ), first := g } = .ok { idx := (s : ℤ), first := g } := by
  obtain ⟨lk, hk, hks⟩ := h.stop
  obtain ⟨l0, h0, _, h0s⟩ := h.first
  unfold indexSetup
  simp only [lineAt_nat, hk]
  rw [if_pos ((marked_iff loopStopMarker lk).2 hks)]
  unfold resetIndex
  simp only [Int.toNat_natCast]
  rw [searchDown_of h0 ((marked_iff loopStartMarker l0).2 h0s) h.lt (fun r l a b c => marked_false (h.noStart r l a b.le c))]
  rfl

/-- The moves that the Cura filter sees ahead of a point. -/
theorem cura_ahead {ls : List (PyLine α)} {s k n : ℕ} (h : CuraLoop ls s k) (h1 : s ≤ n) (h2 : n < k) {ln : PyLine α} (hn : ls[n]? = some ln) (hx : XYMove ln) :
    Yields .curaFwd ls { idx := (n : ℤ) + 1 } (curaAhead ls s k n) := by
  unfold curaAhead
  obtain ⟨lk, hk, hks⟩ := h.stop
  have hlen := (List.getElem?_eq_some_iff.1 hk).1
  have hoff : ∀ (a b m : ℕ) (l : PyLine α), a ≤ m → m < b → ls[m]? = some l → ¬ c!"stretch-extrusion-off" <:+: l.raw ∨ ItKind.curaFwd.stopOnOff = false :=
    fun _ _ _ _ _ _ _ => .inr rfl
  have en : ((n : ℤ) + 1) = ((n + 1 : ℕ) : ℤ) := by push_cast; rfl
  rw [en]
  by_cases hlast : n + 1 = k
  · rw [movesIn_nil ls (le_of_eq hlast.symm), List.nil_append, hlast]
    refine yields_same (cura_fwd_wrap h none) (cura_fwd_setup h s none le_rfl h.lt) ?_
    have hrest : Yields .curaFwd ls { idx := (k : ℤ), first := some (s : ℤ) } [] := by
      obtain ⟨l0, h0, _⟩ := h.first
      exact .stop (gets_setup (cura_fwd_wrap h _) (loop_stop (by rw [lineAt_nat, h0])))
    have := run_up (kind := .curaFwd) rfl (f := (s : ℤ)) hrest h.last (k - s) s none rfl h.lt (hoff s k) (fun m g a b => cura_fwd_setup h m g a b) rfl
      (by simp) (fun m a b hc => by have := Int.ofNat.inj hc; omega)
    rwa [List.append_nil] at this
  · have hp2 : Yields .curaFwd ls { idx := (s : ℤ), first := some ((n + 1 : ℕ) : ℤ) } (movesIn ls s (n + 1)) := by
      have hrest : Yields .curaFwd ls { idx := ((n + 1 : ℕ) : ℤ), first := some ((n + 1 : ℕ) : ℤ) } [] := by
        obtain ⟨l, hl⟩ : ∃ l, ls[n + 1]? = some l := ⟨ls[n + 1], List.getElem?_eq_getElem (by omega)⟩
        exact .stop (gets_setup (cura_fwd_setup h (n + 1) _ (by omega) (by omega)) (loop_stop (by rw [lineAt_nat, hl])))
      have := run_up (kind := .curaFwd) rfl (f := ((n + 1 : ℕ) : ℤ)) hrest ⟨ln, hn, hx⟩ (n + 1 - s) s (some ((n + 1 : ℕ) : ℤ)) rfl (by omega) (hoff s (n + 1))
        (fun m g a b => cura_fwd_setup h m g a (by omega)) rfl (fun m a b hc => by simp only [Option.some.injEq] at hc; have := Int.ofNat.inj hc; omega)
        (fun m a b hc => by have := Int.ofNat.inj hc; omega)
      rwa [List.append_nil] at this
    exact run_up (kind := .curaFwd) rfl (f := ((n + 1 : ℕ) : ℤ)) (yields_same (cura_fwd_wrap h _) (cura_fwd_setup h s _ le_rfl h.lt) hp2) h.last (k - (n + 1)) (n + 1) none rfl (by omega)
      (hoff (n + 1) k) (fun m g a b => cura_fwd_setup h m g (by omega) b) rfl (by simp) (fun m a b hc => by have := Int.ofNat.inj hc; omega)

theorem cura_bwd_setup {ls : List (PyLine α)} {s k : ℕ} (h : CuraLoop ls s k) (m : ℕ) (g : Option ℤ) (h1 : s ≤ m) (h2 : m < k) :
    indexSetup .curaBwd ls { idx := (m : ℤ), first := g } = .ok { idx := (m : ℤ), first := g } := by
  obtain ⟨lk, hk', _⟩ := h.stop
  have hlen := (List.getElem?_eq_some_iff.1 hk').1
  obtain ⟨l, hl⟩ : ∃ l, ls[m + 1]? = some l := ⟨ls[m + 1], List.getElem?_eq_getElem (by omega)⟩
  have hno : ¬ c!"stretch-loop-start" <:+: l.raw := h.noStart (m + 1) l (by omega) (by omega) hl
  have e : ((m : ℤ) + 1) = ((m + 1 : ℕ) : ℤ) := by push_cast; rfl
  unfold indexSetup
  simp only [e, lineAt_nat, hl]
  rw [if_neg (by omega), if_neg (by rw [show marked loopStartMarker l = false from marked_false hno]; decide)]

theorem cura_bwd_wrap {ls : List (PyLine α)} {s k : ℕ} (h : CuraLoop ls s k) (g : Option ℤ) :
    indexSetup .curaBwd ls { idx := (s : ℤ) - 1, first := g } = .ok { idx := (k : ℤ) - 1, first := g } := by
  obtain ⟨lk, hk, hks⟩ := h.stop
  obtain ⟨l0, h0, _, h0s⟩ := h.first
  have hr : resetIndex .curaBwd ls ((s : ℤ) - 1) = .ok ((k : ℤ) - 1) := by
    unfold resetIndex
    simp only [sub_add_cancel, Int.toNat_natCast]
    rw [searchUp_of hk ((marked_iff loopStopMarker lk).2 hks) h.lt.le (fun r l a b c => marked_false (h.noStop r l a b c))]
    rfl
  unfold indexSetup
  simp only [sub_add_cancel, lineAt_nat, h0, hr]
  rw [show marked loopStartMarker l0 = true from (marked_iff loopStartMarker l0).2 h0s]
  simp [Except.map]

/-- The moves that the Cura filter sees behind a point. -/
theorem cura_behind {ls : List (PyLine α)} {s k n : ℕ} (h : CuraLoop ls s k) (h1 : s ≤ n) (h2 : n < k) {ln : PyLine α} (hn : ls[n]? = some ln) (hx : XYMove ln) :
    Yields .curaBwd ls { idx := (n : ℤ) - 1 } (curaBehind ls s k n) := by
  unfold curaBehind
  obtain ⟨lk, hk', hks⟩ := h.stop
  have hlen := (List.getElem?_eq_some_iff.1 hk').1
  have hoff : ∀ (a b m : ℕ) (l : PyLine α), a ≤ m → m < b → ls[m]? = some l → ¬ c!"stretch-extrusion-off" <:+: l.raw ∨ ItKind.curaBwd.stopOnOff = false :=
    fun _ _ _ _ _ _ _ => .inr rfl
  obtain ⟨l0, h0, hx0, _⟩ := h.first
  have ek : ((k : ℤ) - 1) = ((k - 1 : ℕ) : ℤ) := by have := h.lt; omega
  have hwrap : ∀ g, indexSetup .curaBwd ls { idx := (k : ℤ) - 1, first := g } = .ok { idx := (k : ℤ) - 1, first := g } := by
    intro g
    rw [ek]
    exact cura_bwd_setup h (k - 1) g (by have := h.lt; omega) (by have := h.lt; omega)
  by_cases hs : n = s
  · subst hs
    rw [movesIn_nil ls le_rfl, List.reverse_nil, List.nil_append]
    refine yields_same (cura_bwd_wrap h none) (hwrap none) ?_
    have hrest : Yields .curaBwd ls { idx := (n : ℤ) - 1, first := some ((k : ℤ) - 1) } [] := by
      obtain ⟨l, hl, _⟩ := h.last
      exact .stop (gets_setup (cura_bwd_wrap h _) (loop_stop (by rw [ek, lineAt_nat, hl])))
    have := run_down (kind := .curaBwd) rfl (f := (k : ℤ) - 1) hrest ⟨l0, h0, hx0⟩ (k - n) k none rfl h.lt (by omega) (hoff n k)
      (fun m g a b => cura_bwd_setup h m g a b) rfl (by simp) (fun m a b hc => by omega)
    rwa [List.append_nil] at this
  · have en : ((n : ℤ) - 1) = ((n - 1 : ℕ) : ℤ) := by omega
    have hp2 : Yields .curaBwd ls { idx := (k : ℤ) - 1, first := some ((n : ℤ) - 1) } (movesIn ls n k).reverse := by
      have hrest : Yields .curaBwd ls { idx := (n : ℤ) - 1, first := some ((n : ℤ) - 1) } [] := by
        obtain ⟨l, hl⟩ : ∃ l, ls[n - 1]? = some l := ⟨ls[n - 1], List.getElem?_eq_getElem (by omega)⟩
        have hs' := cura_bwd_setup h (n - 1) (some ((n : ℤ) - 1)) (by omega) (by omega)
        rw [← en] at hs'
        exact .stop (gets_setup hs' (loop_stop (by rw [en, lineAt_nat, hl])))
      have := run_down (kind := .curaBwd) rfl (f := (n : ℤ) - 1) hrest ⟨ln, hn, hx⟩ (k - n) k (some ((n : ℤ) - 1)) rfl h2 (by omega) (hoff n k)
        (fun m g a b => cura_bwd_setup h m g (by omega) b) rfl (fun m a b hc => by simp only [Option.some.injEq] at hc; omega) (fun m a b hc => by omega)
      rwa [List.append_nil] at this
    exact run_down (kind := .curaBwd) rfl (f := (n : ℤ) - 1) (yields_same (cura_bwd_wrap h _) (hwrap _) hp2) ⟨l0, h0, hx0⟩ (n - s) n none rfl (by omega) (by omega)
      (hoff s n) (fun m g a b => cura_bwd_setup h m g a (by omega)) rfl (by simp) (fun m a b hc => by omega)

/-! ### Slic3r -/

/-- A line that switches extrusion off. -/
theorem loop_off {kind : ItKind} (hk : kind.stopOnOff = true) {ls : List (PyLine α)} {i i' : ℤ} {fi : Option ℤ} {l : PyLine α} (hl : lineAt ls i = some l) (hf : fi ≠ some i)
    (ho : c!"stretch-extrusion-off" <:+: l.raw) (hr : resetIndex kind ls i = .ok i') {r : Except Err (PyLine α × ItSt)}
    (h : LoopGets kind ls { idx := i', first := some (fi.getD i) } r) : LoopGets kind ls { idx := i, first := fi } r := by
  obtain ⟨F, hF⟩ := h
  refine ⟨F + 1, fun fuel hfu => ?_⟩
  obtain ⟨n, rfl⟩ : ∃ n, fuel = n + 1 := ⟨fuel - 1, by omega⟩
  have hoff : (marked extrusionOffMarker l && kind.stopOnOff) = true := by
    rw [(marked_off l).2 ho, hk]; rfl
  rw [getNextLoop_succ]
  simp only [hl]
  rw [if_neg hf, if_pos hoff, hr]
  exact hF n (by omega)

theorem fwd_setup (ls : List (PyLine α)) (st : ItSt) : indexSetup .fwd ls st = .ok st := rfl

theorem fwd_wrap {ls : List (PyLine α)} {s o : ℕ} (h : Slic3rLoop ls s o) {fi : Option ℤ} (hf : fi ≠ some (o : ℤ)) {out : List (PyLine α)}
    (hy : Yields .fwd ls { idx := ((s + 1 : ℕ) : ℤ), first := some (fi.getD (o : ℤ)) } out) : Yields .fwd ls { idx := (o : ℤ), first := fi } out := by
  obtain ⟨lo, hlo, hos⟩ := h.off
  obtain ⟨l0, h0, _, h0s⟩ := h.first
  have hr : resetIndex .fwd ls (o : ℤ) = .ok ((s + 1 : ℕ) : ℤ) := by
    unfold resetIndex
    simp only [Int.toNat_natCast]
    rw [searchDown_of h0 ((marked_iff loopStartMarker l0).2 h0s) (by have := h.lt; omega) (fun r l a b c => marked_false (h.noStart r l a b c))]
    simp
  have hl : lineAt ls (o : ℤ) = some lo := by rw [lineAt_nat, hlo]
  cases hy with
  | stop hg => exact .stop (gets_setup (fwd_setup ls _) (loop_off rfl hl hf hos hr (loopGets_of (fwd_setup ls _) hg)))
  | more hg hy' => exact .more (gets_setup (fwd_setup ls _) (loop_off rfl hl hf hos hr (loopGets_of (fwd_setup ls _) hg))) hy'

/-- The moves that the Slic3r filter sees ahead of a point. -/
theorem slic3r_ahead {ls : List (PyLine α)} {s o n : ℕ} (h : Slic3rLoop ls s o) (h1 : s ≤ n) (h2 : n < o) {ln : PyLine α} (hn : ls[n]? = some ln) (hx : XYMove ln) :
    Yields .fwd ls { idx := (n : ℤ) + 1 } (slic3rAhead ls s o n) := by
  unfold slic3rAhead
  obtain ⟨lo, hlo, hos⟩ := h.off
  have hlt := h.lt
  have hlen := (List.getElem?_eq_some_iff.1 hlo).1
  have hoff : ∀ (a b : ℕ), s ≤ a → b ≤ o → ∀ (m : ℕ) (l : PyLine α), a ≤ m → m < b → ls[m]? = some l → ¬ c!"stretch-extrusion-off" <:+: l.raw ∨ ItKind.fwd.stopOnOff = false :=
    fun a b ha hb m l h1 h2 hl => .inl (h.noOff m l (by omega) (by omega) hl)
  have en : ((n : ℤ) + 1) = ((n + 1 : ℕ) : ℤ) := by push_cast; rfl
  rw [en]
  have hstop : ∀ m : ℕ, m ≤ o → Yields .fwd ls { idx := (m : ℤ), first := some (m : ℤ) } [] := by
    intro m hm
    obtain ⟨l, hl⟩ : ∃ l, ls[m]? = some l := ⟨ls[m], List.getElem?_eq_getElem (by omega)⟩
    exact .stop (gets_setup (fwd_setup ls _) (loop_stop (by rw [lineAt_nat, hl])))
  by_cases hs : n = s
  · subst hs
    rw [movesIn_nil ls (i := n + 1) le_rfl]
    refine run_up (kind := .fwd) rfl (f := ((n + 1 : ℕ) : ℤ)) (fwd_wrap h (fun hc => ?_) (hstop (n + 1) (by omega))) h.last (o - (n + 1)) (n + 1) none rfl (by omega)
      (hoff _ _ (by omega) le_rfl) (fun m g _ _ => fwd_setup ls _) rfl (by simp) (fun m a b hc => by have := Int.ofNat.inj hc; omega)
    simp only [Option.some.injEq] at hc
    have := Int.ofNat.inj hc
    omega
  by_cases hlast : n + 1 = o
  · rw [hlast, movesIn_nil ls (i := o) le_rfl, List.nil_append]
    refine fwd_wrap h (by simp) ?_
    have := run_up (kind := .fwd) rfl (f := (o : ℤ)) (hstop o le_rfl) h.last (o - (s + 1)) (s + 1) (some (o : ℤ)) rfl hlt
      (hoff _ _ (by omega) le_rfl) (fun m g _ _ => fwd_setup ls _) rfl (fun m a b hc => by simp only [Option.some.injEq] at hc; have := Int.ofNat.inj hc; omega)
      (fun m a b hc => by have := Int.ofNat.inj hc; omega)
    rwa [List.append_nil] at this
  · have hp2 : Yields .fwd ls { idx := ((s + 1 : ℕ) : ℤ), first := some ((n + 1 : ℕ) : ℤ) } (movesIn ls (s + 1) (n + 1)) := by
      have := run_up (kind := .fwd) rfl (f := ((n + 1 : ℕ) : ℤ)) (hstop (n + 1) (by omega)) ⟨ln, hn, hx⟩ (n + 1 - (s + 1)) (s + 1) (some ((n + 1 : ℕ) : ℤ)) rfl (by omega)
        (hoff _ _ (by omega) (by omega)) (fun m g _ _ => fwd_setup ls _) rfl (fun m a b hc => by simp only [Option.some.injEq] at hc; have := Int.ofNat.inj hc; omega)
        (fun m a b hc => by have := Int.ofNat.inj hc; omega)
      rwa [List.append_nil] at this
    refine run_up (kind := .fwd) rfl (f := ((n + 1 : ℕ) : ℤ)) (fwd_wrap h (fun hc => ?_) hp2) h.last (o - (n + 1)) (n + 1) none rfl (by omega)
      (hoff _ _ (by omega) le_rfl) (fun m g _ _ => fwd_setup ls _) rfl (by simp) (fun m a b hc => by have := Int.ofNat.inj hc; omega)
    simp only [Option.some.injEq] at hc
    have := Int.ofNat.inj hc
    omega

theorem bwd_setup {ls : List (PyLine α)} {s o : ℕ} (h : Slic3rLoop ls s o) (m : ℕ) (g : Option ℤ) (h1 : s ≤ m) (h2 : m + 1 < o) :
    indexSetup .bwd ls { idx := (m : ℤ), first := g } = .ok { idx := (m : ℤ), first := g } := by
  obtain ⟨lo, hlo, _⟩ := h.off
  have hlen := (List.getElem?_eq_some_iff.1 hlo).1
  obtain ⟨l, hl⟩ : ∃ l, ls[m + 1]? = some l := ⟨ls[m + 1], List.getElem?_eq_getElem (by omega)⟩
  have hno : ¬ c!"stretch-loop-start" <:+: l.raw := h.noStart (m + 1) l (by omega) (by omega) hl
  have e : ((m : ℤ) + 1) = ((m + 1 : ℕ) : ℤ) := by push_cast; rfl
  unfold indexSetup
  simp only [e, lineAt_nat, hl]
  rw [if_neg (by omega), if_neg (by rw [show marked loopStartMarker l = false from marked_false hno]; decide)]

theorem bwd_wrap {ls : List (PyLine α)} {s o : ℕ} (h : Slic3rLoop ls s o) (g : Option ℤ) :
    indexSetup .bwd ls { idx := (s : ℤ) - 1, first := g } = .ok { idx := (o : ℤ) - 2, first := g } := by
  obtain ⟨lo, hlo, hos⟩ := h.off
  obtain ⟨l0, h0, _, h0s⟩ := h.first
  have hr : resetIndex .bwd ls ((s : ℤ) - 1) = .ok ((o : ℤ) - 2) := by
    unfold resetIndex
    simp only [sub_add_cancel, Int.toNat_natCast]
    rw [searchUp_of hlo ((marked_off lo).2 hos) (by have := h.lt; omega) (fun r l a b c => marked_false (h.noOff r l a b c))]
    rfl
  unfold indexSetup
  simp only [sub_add_cancel, lineAt_nat, h0, hr]
  rw [show marked loopStartMarker l0 = true from (marked_iff loopStartMarker l0).2 h0s]
  simp [Except.map]

/-- The moves that the Slic3r filter sees behind a point. -/
theorem slic3r_behind {ls : List (PyLine α)} {s o n : ℕ} (h : Slic3rLoop ls s o) (h1 : s ≤ n) (h2 : n < o) {ln : PyLine α} (hn : ls[n]? = some ln) (hx : XYMove ln) :
    Yields .bwd ls { idx := (n : ℤ) - 1 } (slic3rBehind ls s o n) := by
  unfold slic3rBehind
  obtain ⟨lo, hlo, hos⟩ := h.off
  have hlt := h.lt
  have hlen := (List.getElem?_eq_some_iff.1 hlo).1
  have hoff : ∀ (a b : ℕ), s ≤ a → b ≤ o → ∀ (m : ℕ) (l : PyLine α), a ≤ m → m < b → ls[m]? = some l → ¬ c!"stretch-extrusion-off" <:+: l.raw ∨ ItKind.bwd.stopOnOff = false :=
    fun a b ha hb m l h1 h2 hl => .inl (h.noOff m l (by omega) (by omega) hl)
  obtain ⟨l0, h0, hx0, _⟩ := h.first
  have ek : ((o : ℤ) - 2) = ((o - 2 : ℕ) : ℤ) := by omega
  have ek' : ((o - 1 : ℕ) : ℤ) - 1 = (o : ℤ) - 2 := by omega
  have hwrap : ∀ g, indexSetup .bwd ls { idx := (o : ℤ) - 2, first := g } = .ok { idx := (o : ℤ) - 2, first := g } := by
    intro g
    rw [ek]
    exact bwd_setup h (o - 2) g (by omega) (by omega)
  have hstopAt : ∀ m : ℕ, m < o → LoopGets .bwd ls { idx := (m : ℤ), first := some (m : ℤ) } (.error .stopIteration) := by
    intro m hm
    obtain ⟨l, hl⟩ : ∃ l, ls[m]? = some l := ⟨ls[m], List.getElem?_eq_getElem (by omega)⟩
    exact loop_stop (by rw [lineAt_nat, hl])
  by_cases hs : n = s
  · subst hs
    rw [movesIn_nil ls (i := n) (j := n) le_rfl, List.reverse_nil, List.nil_append]
    refine yields_same (bwd_wrap h none) (hwrap none) ?_
    have hrest : Yields .bwd ls { idx := (n : ℤ) - 1, first := some ((o : ℤ) - 2) } [] := by
      refine .stop (gets_setup (bwd_wrap h _) ?_)
      rw [ek]
      exact hstopAt _ (by omega)
    have := run_down (kind := .bwd) rfl (f := (o : ℤ) - 2) hrest ⟨l0, h0, hx0⟩ (o - 1 - n) (o - 1) none rfl (by omega) (by omega) (hoff _ _ le_rfl (by omega))
      (fun m g a b => bwd_setup h m g a (by omega)) ek' (by simp) (fun m a b hc => by omega)
    rw [ek', List.append_nil] at this
    exact this
  · have en : ((n : ℤ) - 1) = ((n - 1 : ℕ) : ℤ) := by omega
    have hp2 : Yields .bwd ls { idx := (o : ℤ) - 2, first := some ((n : ℤ) - 1) } (movesIn ls n (o - 1)).reverse := by
      by_cases hl : n + 1 = o
      · rw [movesIn_nil ls (by omega), List.reverse_nil]
        refine .stop (gets_setup (hwrap _) ?_)
        have : (o : ℤ) - 2 = (n : ℤ) - 1 := by omega
        rw [this, en]
        exact hstopAt _ (by omega)
      · have hrest : Yields .bwd ls { idx := (n : ℤ) - 1, first := some ((n : ℤ) - 1) } [] := by
          have hs' := bwd_setup h (n - 1) (some ((n : ℤ) - 1)) (by omega) (by omega)
          rw [← en] at hs'
          refine .stop (gets_setup hs' ?_)
          rw [en]
          exact hstopAt _ (by omega)
        have := run_down (kind := .bwd) rfl (f := (n : ℤ) - 1) hrest ⟨ln, hn, hx⟩ (o - 1 - n) (o - 1) (some ((n : ℤ) - 1)) rfl (by omega) (by omega) (hoff _ _ (by omega) (by omega))
          (fun m g a b => bwd_setup h m g (by omega) (by omega)) rfl (fun m a b hc => by simp only [Option.some.injEq] at hc; omega) (fun m a b hc => by omega)
        rw [ek', List.append_nil] at this
        exact this
    exact run_down (kind := .bwd) rfl (f := (n : ℤ) - 1) (yields_same (bwd_wrap h _) (hwrap _) hp2) ⟨l0, h0, hx0⟩ (n - s) n none rfl (by omega) (by omega)
      (hoff _ _ le_rfl (by omega)) (fun m g a b => bwd_setup h m g a (by omega)) rfl (by simp) (fun m a b hc => by omega)

end GCodeUtils
