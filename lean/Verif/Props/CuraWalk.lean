import Verif.Lemmas.Neighbour
import Verif.Props.CuraHang

/-
  C64: walks along walls and skins that begin and end with X/Y moves do end.
-/

set_option linter.unusedSectionVars false

namespace GCodeUtils

namespace Spec

variable {α : Type}

/-- Lines `a` to `s - 1` are a loop: it is opened by `a`, closed by `s`, by nothing before, and both its first and its last line are X/Y moves. -/
structure WholeLoop (ls : List (PyLine α)) (a s : ℕ) : Prop where
  lt : a < s
  opens : HasMark c!"stretch-loop-start" ls a
  closes : HasMark c!"stretch-loop-stop" ls s
  once : ∀ i, a < i → i < s → ¬ HasMark c!"stretch-loop-start" ls i
  inside : ∀ i, a ≤ i → i < s → ¬ HasMark c!"stretch-loop-stop" ls i
  first : ∃ l, ls[a]? = some l ∧ XYMove l
  last : ∃ l, ls[s - 1]? = some l ∧ XYMove l

end Spec

open Spec

variable {α : Type} [Field α] [LinearOrder α] [IsStrictOrderedRing α] [FloorRing α]

/-- A walk ends if something gets smaller with each step. -/
theorem relLoop_ends {sqrt : α → α} {fuel : ℕ} {d : StretchDist α} {old : Option (Vec3 α)} {kind : ItKind} {ls : List (PyLine α)} {loc : Cx α}
    (Good : ItSt → Prop) (μ : ItSt → ℕ) (h : ∀ st l st', Good st → getNext fuel kind ls st = .ok (l, st') → Good st' ∧ μ st' < μ st)
    (hf : ∀ st, getNext fuel kind ls st ≠ .error .outOfFuel) : ∀ (n : ℕ) (st : ItSt) (last point : Cx α) (ot total : α), Good st → μ st < n →
    relStretchLoop sqrt fuel d old kind ls loc n st last ot point total ≠ .error .outOfFuel := by
  have hdiv : ∀ (c : Cx α) (x : α), c.div x ≠ .error .outOfFuel := by
    intro c x
    unfold Cx.div
    split_ifs <;> simp
  intro n
  induction n with
  | zero => intro st _ _ _ _ _ hn; omega
  | succ n ih =>
    intro st last point ot total hg hn
    rw [relStretchLoop]
    cases hx : getNext fuel kind ls st with
    | error er =>
      cases er <;> simp only <;> first
        | exact absurd hx (hf st)
        | (split_ifs
           · exact hdiv _ _
           · simp)
        | simp
    | ok p =>
      obtain ⟨l, st'⟩ := p
      obtain ⟨h1, h2⟩ := h st l st' hg hx
      simp only
      split_ifs
      · simp
      · exact hdiv _ _
      · exact ih _ _ _ _ _ h1 (by omega)

theorem cura_fuel {kind : ItKind} (hk : kind = .curaFwd ∨ kind = .curaBwd) {ls : List (PyLine α)} {fuel : ℕ} (hf : 2 * ls.length + 3 ≤ fuel) (st : ItSt) :
    getNext fuel kind ls st ≠ .error .outOfFuel := by
  obtain ⟨r, h1, h2⟩ := C64_cura_partial kind hk ls st
  rw [h2 fuel hf]
  exact h1

theorem lineAt_eq_nat {ls : List (PyLine α)} {i : ℤ} {n : ℕ} (h : i = n) : lineAt ls i = ls[n]? := by
  subst h
  unfold lineAt
  simp

/-- Going up, a step does not go past an X/Y move. -/
theorem whole_fwd_run {ls : List (PyLine α)} {e : ℕ} (he : ∃ l, ls[e]? = some l ∧ XYMove l) : ∀ (fuel : ℕ) (i : ℤ) (first : Option ℤ) (l : PyLine α) (st' : ItSt),
    i ≤ e → getNextLoop .curaFwd ls fuel { idx := i, first := first } = .ok (l, st') →
    ∃ j, i ≤ j ∧ j ≤ e ∧ st' = { idx := j + 1, first := some (first.getD i) } ∧ ∀ f, first = some f → ¬ (i ≤ f ∧ f ≤ j) := by
  intro fuel
  induction fuel with
  | zero => intro i first l st' _ h; cases h
  | succ fuel ih =>
    intro i first l st' hi h
    rw [getNextLoop_succ] at h
    cases hl : lineAt ls i with
    | none => rw [hl] at h; cases h
    | some l0 =>
      rw [hl] at h
      simp only [ItKind.stopOnOff, Bool.and_false, ItKind.increment] at h
      by_cases h1 : first = some i
      · rw [if_pos h1] at h; cases h
      · rw [if_neg h1, if_neg (by decide)] at h
        by_cases h2 : isXYMove l0 = true
        · rw [if_pos h2] at h
          cases h
          refine ⟨i, le_rfl, hi, rfl, fun f hf hc => h1 ?_⟩
          rw [hf, le_antisymm hc.1 hc.2]
        · rw [if_neg h2] at h
          have hne : i ≠ e := by
            intro hie
            obtain ⟨l', hl', hx⟩ := he
            rw [lineAt_eq_nat hie, hl'] at hl
            cases hl
            exact h2 ((isXYMove_iff _).2 hx)
          obtain ⟨j, a, b, c, d⟩ := ih (i + 1) _ l st' (by omega) h
          refine ⟨j, by omega, b, by simpa using c, fun f hf hc => ?_⟩
          rw [hf] at d h1
          have : f ≠ i := fun k => h1 (by rw [k])
          exact d f rfl ⟨by omega, hc.2⟩

/-- Going down, a step does not go past an X/Y move. -/
theorem whole_bwd_run {ls : List (PyLine α)} {e : ℕ} (he : ∃ l, ls[e]? = some l ∧ XYMove l) : ∀ (fuel : ℕ) (i : ℤ) (first : Option ℤ) (l : PyLine α) (st' : ItSt),
    (e : ℤ) ≤ i → getNextLoop .curaBwd ls fuel { idx := i, first := first } = .ok (l, st') →
    ∃ j, j ≤ i ∧ (e : ℤ) ≤ j ∧ st' = { idx := j - 1, first := some (first.getD i) } ∧ ∀ f, first = some f → ¬ (j ≤ f ∧ f ≤ i) := by
  intro fuel
  induction fuel with
  | zero => intro i first l st' _ h; cases h
  | succ fuel ih =>
    intro i first l st' hi h
    rw [getNextLoop_succ] at h
    cases hl : lineAt ls i with
    | none => rw [hl] at h; cases h
    | some l0 =>
      rw [hl] at h
      simp only [ItKind.stopOnOff, Bool.and_false, ItKind.increment] at h
      by_cases h1 : first = some i
      · rw [if_pos h1] at h; cases h
      · rw [if_neg h1, if_neg (by decide)] at h
        by_cases h2 : isXYMove l0 = true
        · rw [if_pos h2] at h
          cases h
          refine ⟨i, le_rfl, hi, rfl, fun f hf hc => h1 ?_⟩
          rw [hf, le_antisymm hc.2 hc.1]
        · rw [if_neg h2] at h
          have hne : i ≠ e := by
            intro hie
            obtain ⟨l', hl', hx⟩ := he
            rw [lineAt_eq_nat hie, hl'] at hl
            cases hl
            exact h2 ((isXYMove_iff _).2 hx)
          obtain ⟨j, a, b, c, d⟩ := ih (i + -1) _ l st' (by omega) h
          refine ⟨j, by omega, b, by simpa using c, fun f hf hc => ?_⟩
          rw [hf] at d h1
          have : f ≠ i := fun k => h1 (by rw [k])
          exact d f rfl ⟨hc.1, by omega⟩

theorem unmarked_of {m : Str} {ls : List (PyLine α)} {i : ℕ} {l : PyLine α} (h : ¬ HasMark m ls i) (hl : ls[i]? = some l) : marked m l = false := by
  rw [Bool.eq_false_iff]
  exact fun k => h ⟨l, hl, (marked_iff m l).1 k⟩

theorem whole_fwd_setup {ls : List (PyLine α)} {a s : ℕ} (hw : WholeLoop ls a s) {i : ℤ} (h1 : (a : ℤ) < i) (h2 : i ≤ s) (first : Option ℤ) :
    indexSetup .curaFwd ls { idx := i, first := first } = .ok { idx := if i = s then (a : ℤ) else i, first := first } := by
  obtain ⟨ls', hs, hm⟩ := hw.closes
  have hlen := (List.getElem?_eq_some_iff.1 hs).1
  obtain ⟨k, rfl⟩ := Int.eq_ofNat_of_zero_le (by omega : 0 ≤ i)
  unfold indexSetup
  simp only
  rw [lineAt_eq_nat rfl]
  by_cases hk : k = s
  · subst hk
    rw [hs, if_pos rfl]
    simp only
    rw [if_pos (show marked loopStopMarker _ = true from (marked_iff _ _).2 hm)]
    obtain ⟨la, ha, hma⟩ := hw.opens
    unfold resetIndex
    simp only [Int.toNat_natCast]
    rw [searchDown_of (p := marked loopStartMarker) ha ((marked_iff _ _).2 hma) hw.lt (fun r l q1 q2 hl => unmarked_of (hw.once r q1 q2) hl)]
    rfl
  · rw [List.getElem?_eq_getElem (by omega : k < ls.length), if_neg (by omega)]
    simp only
    rw [if_neg]
    rw [show marked loopStopMarker ls[k] = false from unmarked_of (hw.inside k (by omega) (by omega)) (List.getElem?_eq_getElem _)]
    decide

theorem whole_bwd_setup {ls : List (PyLine α)} {a s : ℕ} (hw : WholeLoop ls a s) {i : ℤ} (h1 : (a : ℤ) - 1 ≤ i) (h2 : i + 1 < s) (first : Option ℤ) :
    indexSetup .curaBwd ls { idx := i, first := first } = .ok { idx := if i = (a : ℤ) - 1 then (s : ℤ) - 1 else i, first := first } := by
  obtain ⟨ls', hs, hm⟩ := hw.closes
  obtain ⟨la, ha, hma⟩ := hw.opens
  have hlen := (List.getElem?_eq_some_iff.1 hs).1
  obtain ⟨k, hk⟩ := Int.eq_ofNat_of_zero_le (by omega : 0 ≤ i + 1)
  have hr : i = (a : ℤ) - 1 → resetIndex .curaBwd ls i = .ok ((s : ℤ) - 1) := by
    intro hi
    unfold resetIndex
    simp only
    have e : (i + 1).toNat = a := by omega
    rw [e, searchUp_of (p := marked loopStopMarker) hs ((marked_iff _ _).2 hm) hw.lt.le (fun r l q1 q2 hl => unmarked_of (hw.inside r q1 q2) hl)]
    rfl
  unfold indexSetup
  simp only
  rw [lineAt_eq_nat hk]
  by_cases hi : i = (a : ℤ) - 1
  · have hka : k = a := by omega
    rw [hka, ha, if_pos hi, hr hi]
    simp only
    rw [if_pos (show marked loopStartMarker _ = true from (marked_iff _ _).2 hma)]
    split_ifs <;> rfl
  · rw [if_neg (by omega), List.getElem?_eq_getElem (by omega : k < ls.length), if_neg hi]
    simp only
    rw [if_neg]
    rw [show marked loopStartMarker ls[k] = false from unmarked_of (hw.once k (by omega) (by omega)) (List.getElem?_eq_getElem _)]
    decide

/-- C64 for the Cura filter, walking on from a line of a loop that begins and ends with X/Y moves: the walk ends, whatever the points are. -/
theorem C64_cura_forward_partial {sqrt : α → α} {d : StretchDist α} {old : Option (Vec3 α)} {ls : List (PyLine α)} {a s n : ℕ} (hw : WholeLoop ls a s)
    (h1 : a ≤ n) (h2 : n < s) (loc : Cx α) {fuel : ℕ} (hf : 2 * ls.length + 3 ≤ fuel) :
    relStretch sqrt fuel d old .curaFwd ls ((n : ℤ) + 1) loc ≠ .error .outOfFuel := by
  obtain ⟨_, hs, _⟩ := hw.closes
  have hlen := (List.getElem?_eq_some_iff.1 hs).1
  have hlt := hw.lt
  unfold relStretch
  refine relLoop_ends (fun st => (a : ℤ) < st.idx ∧ st.idx ≤ s ∧ ∀ f, st.first = some f → (a : ℤ) ≤ f ∧ f < s)
    (fun st => match st.first with
      | none => 2 * s + 1
      | some f => if f < st.idx then ((s : ℤ) - st.idx).toNat + s + 1 else (f - st.idx).toNat)
    ?_ (cura_fuel (.inl rfl) hf) _ _ _ _ _ _ ⟨by simp only; omega, by simp only; omega, fun f h => by cases h⟩ (by simp only; omega)
  rintro ⟨i, first⟩ l st' ⟨g1, g2, g3⟩ hx
  simp only at g1 g2 g3
  unfold getNext at hx
  rw [whole_fwd_setup hw g1 g2] at hx
  simp only at hx
  obtain ⟨j, q1, q2, rfl, q4⟩ := whole_fwd_run hw.last _ _ _ _ _ (by split_ifs <;> omega) hx
  cases first with
  | none =>
    simp only [Option.getD_none, Option.some.injEq, forall_eq']
    split_ifs at q1 ⊢ <;> omega
  | some f =>
    have k3 := g3 f rfl
    have k4 := q4 f rfl
    simp only [Option.getD_some, Option.some.injEq, forall_eq']
    split_ifs at q1 k4 ⊢ <;> omega

/-- C64 for the Cura filter, walking back from a line of a loop that begins and ends with X/Y moves. -/
theorem C64_cura_backward_partial {sqrt : α → α} {d : StretchDist α} {old : Option (Vec3 α)} {ls : List (PyLine α)} {a s n : ℕ} (hw : WholeLoop ls a s)
    (h1 : a ≤ n) (h2 : n < s) (loc : Cx α) {fuel : ℕ} (hf : 2 * ls.length + 3 ≤ fuel) :
    relStretch sqrt fuel d old .curaBwd ls ((n : ℤ) - 1) loc ≠ .error .outOfFuel := by
  obtain ⟨_, hs, _⟩ := hw.closes
  have hlen := (List.getElem?_eq_some_iff.1 hs).1
  have hlt := hw.lt
  unfold relStretch
  refine relLoop_ends (fun st => (a : ℤ) - 1 ≤ st.idx ∧ st.idx + 1 < s ∧ ∀ f, st.first = some f → (a : ℤ) ≤ f ∧ f < s)
    (fun st => match st.first with
      | none => 2 * s + 2
      | some f => if st.idx < f then (st.idx + 1).toNat + s + 1 else (st.idx - f).toNat)
    ?_ (cura_fuel (.inr rfl) hf) _ _ _ _ _ _ ⟨by simp only; omega, by simp only; omega, fun f h => by cases h⟩ (by simp only; omega)
  rintro ⟨i, first⟩ l st' ⟨g1, g2, g3⟩ hx
  simp only at g1 g2 g3
  unfold getNext at hx
  rw [whole_bwd_setup hw g1 g2] at hx
  simp only at hx
  obtain ⟨j, q1, q2, rfl, q4⟩ := whole_bwd_run hw.first _ _ _ _ _ (by split_ifs <;> omega) hx
  cases first with
  | none =>
    simp only [Option.getD_none, Option.some.injEq, forall_eq']
    split_ifs at q1 ⊢ <;> omega
  | some f =>
    have k3 := g3 f rfl
    have k4 := q4 f rfl
    simp only [Option.getD_some, Option.some.injEq, forall_eq']
    split_ifs at q1 k4 ⊢ <;> omega

/-! ### the whole filter -/

/-- A marked layer of whole loops: none is open at its end, each X/Y move in a loop is in one that begins and ends with X/Y moves, and X/Y moves read again
from their text are X/Y moves. -/
structure WholeLayer (ls : List (PyLine α)) : Prop where
  closed : loopAt ls = none
  whole : ∀ n l, ls[n]? = some l → XYMove l → loopAt (ls.take (n + 1)) ≠ none → ∃ a s, WholeLoop ls a s ∧ a ≤ n ∧ n < s
  again : ∀ l ∈ ls, XYMove l → ∀ l', reparse l = .ok l' → XYMove l'

/-- The lines of a layer, some of them read again. -/
def ReadAgain (ls cur : List (PyLine α)) : Prop := List.Forall₂ (fun l l' => l'.raw = l.raw ∧ (XYMove l → XYMove l')) ls cur

theorem readAgain_at {ls cur : List (PyLine α)} (h : ReadAgain ls cur) {i : ℕ} {l : PyLine α} (hl : ls[i]? = some l) :
    ∃ l', cur[i]? = some l' ∧ l'.raw = l.raw ∧ (XYMove l → XYMove l') := by
  obtain ⟨hi, rfl⟩ := List.getElem?_eq_some_iff.1 hl
  have hlen := List.Forall₂.length_eq h
  exact ⟨cur[i]'(by omega), List.getElem?_eq_getElem _, (List.forall₂_iff_get.1 h).2 i hi (by omega)⟩

theorem readAgain_mark {ls cur : List (PyLine α)} (h : ReadAgain ls cur) (m : Str) (i : ℕ) : HasMark m cur i ↔ HasMark m ls i := by
  constructor
  · rintro ⟨l', hl', hm⟩
    have hi := (List.getElem?_eq_some_iff.1 hl').1
    have hlen := List.Forall₂.length_eq h
    obtain ⟨l2, h1, h2, _⟩ := readAgain_at h (List.getElem?_eq_getElem (by omega : i < ls.length))
    rw [hl'] at h1
    cases h1
    exact ⟨_, List.getElem?_eq_getElem (by omega), by rw [← h2]; exact hm⟩
  · rintro ⟨l, hl, hm⟩
    obtain ⟨l', h1, h2, _⟩ := readAgain_at h hl
    exact ⟨l', h1, by rw [h2]; exact hm⟩

theorem readAgain_loop {ls cur : List (PyLine α)} (h : ReadAgain ls cur) {a s : ℕ} (hw : WholeLoop ls a s) : WholeLoop cur a s where
  lt := hw.lt
  opens := (readAgain_mark h _ _).2 hw.opens
  closes := (readAgain_mark h _ _).2 hw.closes
  once i h1 h2 k := hw.once i h1 h2 ((readAgain_mark h _ _).1 k)
  inside i h1 h2 k := hw.inside i h1 h2 ((readAgain_mark h _ _).1 k)
  first := by
    obtain ⟨l, hl, hx⟩ := hw.first
    obtain ⟨l', h1, _, h3⟩ := readAgain_at h hl
    exact ⟨l', h1, h3 hx⟩
  last := by
    obtain ⟨l, hl, hx⟩ := hw.last
    obtain ⟨l', h1, _, h3⟩ := readAgain_at h hl
    exact ⟨l', h1, h3 hx⟩

theorem div_fuel (c : Cx α) (x : α) : c.div x ≠ .error .outOfFuel := by
  unfold Cx.div
  split_ifs <;> simp

theorem cross_fuel {sqrt : α → α} {fuel : ℕ} {d : StretchDist α} {old : Option (Vec3 α)} {kind : ItKind} (hk : kind = .curaFwd ∨ kind = .curaBwd)
    {ls : List (PyLine α)} (hf : 2 * ls.length + 3 ≤ fuel) (start : ℤ) (loc s : Cx α) :
    crossLimited sqrt fuel d old kind ls start loc s ≠ .error .outOfFuel := by
  have h1 := cura_fuel hk hf { idx := start }
  unfold crossLimited
  cases hg : getNext fuel kind ls { idx := start } with
  | error er =>
    rw [hg] at h1
    cases er <;> simp only
    case stopIteration => simp
    all_goals first | exact absurd rfl h1 | simp
  | ok p =>
    obtain ⟨l, st'⟩ := p
    simp only
    split_ifs
    · simp
    all_goals
      have hd := div_fuel (loc.sub (pointOf old l)) ((loc.sub (pointOf old l)).abs sqrt)
      cases hdv : (loc.sub (pointOf old l)).div ((loc.sub (pointOf old l)).abs sqrt) with
      | error er => rw [hdv] at hd; simpa using hd
      | ok v => simp

theorem displacement_fuel {sqrt : α → α} {fuel : ℕ} {d : StretchDist α} {old : Option (Vec3 α)} {ls : List (PyLine α)} {a s n : ℕ} (hw : WholeLoop ls a s)
    (q1 : a ≤ n) (q2 : n < s) (hf : 2 * ls.length + 3 ≤ fuel) (tmax : α) (loc : Cx α) :
    displacement sqrt fuel d old .curaFwd .curaBwd ls n tmax loc ≠ .error .outOfFuel := by
  unfold displacement
  have h1 := C64_cura_forward_partial (sqrt := sqrt) (d := d) (old := old) hw q1 q2 loc hf
  have h2 := C64_cura_backward_partial (sqrt := sqrt) (d := d) (old := old) hw q1 q2 loc hf
  cases e1 : relStretch sqrt fuel d old .curaFwd ls ((n : ℤ) + 1) loc with
  | error er => rw [e1] at h1; simpa [bind, Except.bind] using h1
  | ok a =>
    cases e2 : relStretch sqrt fuel d old .curaBwd ls ((n : ℤ) - 1) loc with
    | error er => rw [e2] at h2; simpa [bind, Except.bind] using h2
    | ok b =>
      simp only [bind, Except.bind]
      have h3 := cross_fuel (sqrt := sqrt) (d := d) (old := old) (.inl rfl) hf ((n : ℤ) + 1) loc (Cx.smul (8 / 10) (a.add b))
      cases e3 : crossLimited sqrt fuel d old .curaFwd ls ((n : ℤ) + 1) loc (Cx.smul (8 / 10) (a.add b)) with
      | error er => rw [e3] at h3; simpa using h3
      | ok s =>
        simp only
        have h4 := cross_fuel (sqrt := sqrt) (d := d) (old := old) (.inr rfl) hf ((n : ℤ) - 1) loc s
        cases e4 : crossLimited sqrt fuel d old .curaBwd ls ((n : ℤ) - 1) loc s with
        | error er => rw [e4] at h4; simpa using h4
        | ok s =>
          simp only
          split_ifs
          · have := div_fuel s (s.abs sqrt)
            cases e5 : s.div (s.abs sqrt) with
            | error er => rw [e5] at this; simpa using this
            | ok v => simp
          · simp

theorem parseToks_fuel (u : α) : ∀ (toks : List Tok) (l : PyLine α), toks.foldlM (parseTok u) l ≠ .error .outOfFuel := by
  intro toks
  induction toks with
  | nil => intro l; simp [List.foldlM, pure, Except.pure]
  | cons t ts ih =>
    intro l
    rw [List.foldlM_cons]
    have : parseTok u l t ≠ .error .outOfFuel := by
      unfold parseTok
      cases t with
      | none => simp
      | some p =>
        obtain ⟨c, v⟩ := p
        simp only
        split_ifs
        · split <;> simp
        · simp
    cases e : parseTok u l t with
    | error er => rw [e] at this; simpa [bind, Except.bind] using this
    | ok l' => exact ih l'

theorem reparse_fuel (l : PyLine α) : reparse l ≠ .error .outOfFuel := by
  unfold reparse
  generalize split l = p
  obtain ⟨l, toks⟩ := p
  simp only
  unfold parseCoordinates
  cases l.command with
  | none => simp
  | some c =>
    simp only
    by_cases hc : c.head? ≠ some 'G'
    · rw [if_pos hc]; simp
    · rw [if_neg hc]; exact parseToks_fuel _ toks l

theorem loopSwitch_whole (st : StretchSt α) (l : PyLine α) {k : Option LoopKind} (hk : st.isLoop = k.isSome) :
    loopSwitch st l ≠ .error .outOfFuel ∧ ∀ st', loopSwitch st l = .ok st' → st'.isLoop = (loopStep k l).isSome := by
  rw [loopStep_eq]
  simp only [← marked_iff]
  unfold loopSwitch
  simp only
  split_ifs
  · cases st.dist with
    | none => exact ⟨by simp, fun st' h => by cases h⟩
    | some d => exact ⟨by simp, fun st' h => by cases h; rfl⟩
  · cases st.dist with
    | none => exact ⟨by simp, fun st' h => by cases h⟩
    | some d => exact ⟨by simp, fun st' h => by cases h; rfl⟩
  · cases st.dist with
    | none => exact ⟨by simp, fun st' h => by cases h⟩
    | some d => exact ⟨by simp, fun st' h => by cases h; rfl⟩
  · exact ⟨by simp, fun st' h => by cases h; rfl⟩
  · exact ⟨by simp, fun st' h => by cases h; exact hk⟩

theorem parseLine_whole {sqrt : α → α} {fuel : ℕ} {ls : List (PyLine α)} {n : ℕ} {l : PyLine α} {st : StretchSt α} {k : Option LoopKind} (hk : st.isLoop = k.isSome)
    (hf : 2 * ls.length + 3 ≤ fuel) (hw : XYMove l → loopStep k l ≠ none → ∃ a s, WholeLoop ls a s ∧ a ≤ n ∧ n < s) :
    stretchParseLine sqrt fuel .curaFwd .curaBwd ls n st l ≠ .error .outOfFuel ∧
    ∀ st' r same, stretchParseLine sqrt fuel .curaFwd .curaBwd ls n st l = .ok (st', r, same) → st'.isLoop = (loopStep k l).isSome ∧ (same = true → r = l) := by
  unfold stretchParseLine
  obtain ⟨h1, h1'⟩ := loopSwitch_whole st l hk
  cases e1 : loopSwitch st l with
  | error er => rw [e1] at h1; exact ⟨by simpa using h1, fun _ _ _ h => by cases h⟩
  | ok st1 =>
    have hs := h1' st1 e1
    simp only
    by_cases hx : (isXYMove l && st1.isLoop) = true
    · rw [if_pos hx]
      obtain ⟨hx1, hx2⟩ := Bool.and_eq_true_iff.1 hx
      obtain ⟨a, s, w, q1, q2⟩ := hw ((isXYMove_iff l).1 hx1) (by rw [hs] at hx2; intro hc; rw [hc] at hx2; cases hx2)
      unfold stretchLine
      simp only
      split_ifs
      all_goals first
        | exact ⟨by simp, fun _ _ _ h => by cases h; exact ⟨hs, fun _ => rfl⟩⟩
        | skip
      all_goals
        cases hd : st1.dist with
        | none => exact ⟨by simp, fun _ _ _ h => by cases h⟩
        | some d =>
          simp only
          unfold stretchedLine
          simp only [bind, Except.bind]
          have h2 := displacement_fuel (sqrt := sqrt) (d := d) (old := some (locationFromLine st1.old l)) w q1 q2 hf st1.tmax
            ⟨(locationFromLine st1.old l).x, (locationFromLine st1.old l).y⟩
          cases e2 : displacement sqrt fuel d (some (locationFromLine st1.old l)) .curaFwd .curaBwd ls n st1.tmax
            ⟨(locationFromLine st1.old l).x, (locationFromLine st1.old l).y⟩ with
          | error er => rw [e2] at h2; exact ⟨by simpa using h2, fun _ _ _ h => by cases h⟩
          | ok a => exact ⟨by simp, fun _ _ _ h => by cases h; exact ⟨hs, fun h => by cases h⟩⟩
    · rw [if_neg hx]
      exact ⟨by simp, fun _ _ _ h => by cases h; exact ⟨hs, fun _ => rfl⟩⟩

theorem layer_whole {sqrt : α → α} {fuel : ℕ} {ls : List (PyLine α)} (hl : WholeLayer ls) (hf : 2 * ls.length + 3 ≤ fuel) :
    ∀ (todo : List (PyLine α)) (st : StretchSt α) (cur : List (PyLine α)) (n : ℕ), ls.drop n = todo → ReadAgain ls cur →
    st.isLoop = (loopAt (ls.take n)).isSome →
    stretchLayer sqrt fuel .curaFwd .curaBwd st cur n todo ≠ .error .outOfFuel ∧
    ∀ st' out, stretchLayer sqrt fuel .curaFwd .curaBwd st cur n todo = .ok (st', out) → st'.isLoop = false := by
  intro todo
  induction todo with
  | nil =>
    intro st cur n hd hr hk
    refine ⟨by simp [stretchLayer], fun st' out h => ?_⟩
    rw [stretchLayer] at h
    cases h
    rw [hk, List.take_of_length_le (List.drop_eq_nil_iff.1 hd), hl.closed]
    rfl
  | cons l rest ih =>
    intro st cur n hd hr hk
    have hn : ls[n]? = some l := by
      have : (ls.drop n)[0]? = some l := by rw [hd]; rfl
      rwa [List.getElem?_drop, Nat.add_zero] at this
    have hlt : n < ls.length := (List.getElem?_eq_some_iff.1 hn).1
    have hlen := List.Forall₂.length_eq hr
    have hstep : loopAt (ls.take (n + 1)) = loopStep (loopAt (ls.take n)) l := by
      rw [List.take_add_one, hn]
      exact loopAt_snoc _ _
    obtain ⟨h1, h1'⟩ := parseLine_whole (sqrt := sqrt) (fuel := fuel) (ls := cur) (n := n) (l := l) hk (by omega) (fun hx ho => by
      obtain ⟨a, s, w, q⟩ := hl.whole n l hn hx (by rw [hstep]; exact ho)
      exact ⟨a, s, readAgain_loop hr w, q⟩)
    rw [stretchLayer]
    cases e1 : stretchParseLine sqrt fuel .curaFwd .curaBwd cur n st l with
    | error er => rw [e1] at h1; exact ⟨by simpa using h1, fun _ _ h => by cases h⟩
    | ok p =>
      obtain ⟨st1, r, same⟩ := p
      obtain ⟨hs, hsame⟩ := h1' st1 r same e1
      simp only
      have h2 := reparse_fuel r
      cases e2 : reparse r with
      | error er => rw [e2] at h2; exact ⟨by simpa using h2, fun _ _ h => by cases h⟩
      | ok r' =>
        simp only
        have hr' : ReadAgain ls (if same = true then cur.set n r' else cur) := by
          split_ifs with hsm
          · have he := hsame hsm
            subst he
            refine List.forall₂_iff_get.2 ⟨by simpa using hlen, fun i hi hi' => ?_⟩
            simp only [List.get_eq_getElem, List.getElem_set]
            split_ifs with hin
            · subst hin
              have e : ls[n] = r := (List.getElem?_eq_some_iff.1 hn).2
              rw [e]
              exact ⟨reparse_raw e2, fun hx => hl.again r (List.mem_of_getElem? hn) hx r' e2⟩
            · exact (List.forall₂_iff_get.1 hr).2 i hi (by omega)
          · exact hr
        obtain ⟨h3, h3'⟩ := ih st1 (if same = true then cur.set n r' else cur) (n + 1) (by rw [← List.drop_drop, hd]; rfl) hr' (by rw [hs, hstep])
        cases e3 : stretchLayer sqrt fuel .curaFwd .curaBwd st1 (if same = true then cur.set n r' else cur) (n + 1) rest with
        | error er => rw [e3] at h3; exact ⟨by simpa using h3, fun _ _ h => by cases h⟩
        | ok q =>
          obtain ⟨st2, out⟩ := q
          exact ⟨by simp, fun _ _ h => by cases h; exact h3' _ _ e3⟩

theorem layers_whole {sqrt : α → α} {fuel : ℕ} : ∀ (Ls : List (Layer α)) (st : StretchSt α), st.isLoop = false →
    (∀ L ∈ Ls, WholeLayer L.lines ∧ 2 * L.lines.length + 3 ≤ fuel) → stretchLayers sqrt fuel .curaFwd .curaBwd st Ls ≠ .error .outOfFuel := by
  intro Ls
  induction Ls with
  | nil => intro st _ _; simp [stretchLayers]
  | cons L rest ih =>
    intro st hst h
    rw [stretchLayers]
    obtain ⟨h1, h1'⟩ := layer_whole (sqrt := sqrt) (h L (by simp)).1 (h L (by simp)).2 L.lines st L.lines 0 rfl
      (List.forall₂_same.2 (fun _ _ => ⟨rfl, id⟩)) (by rw [hst]; rfl)
    cases e1 : stretchLayer sqrt fuel .curaFwd .curaBwd st L.lines 0 L.lines with
    | error er => rw [e1] at h1; simpa using h1
    | ok p =>
      obtain ⟨st', ls⟩ := p
      simp only
      have h2 := ih st' (h1' _ _ e1) (fun L' hL' => h L' (List.mem_cons_of_mem _ hL'))
      cases e2 : stretchLayers sqrt fuel .curaFwd .curaBwd st' rest with
      | error er => rw [e2] at h2; simpa using h2
      | ok q => simp

/-- C64 for the Cura filter: it ends on every program whose layers, once marked, consist of whole loops and of other lines. Missing: loops that begin or end with
another line, for which it is false (`C64_cura_refuted`). -/
theorem C64_cura_whole_partial {sqrt : α → α} {repo : StretchRepo α} {profile : ProfileOracle α} {g : GCode α} {d : Option (StretchDist α)} {Ls : List (Layer α)}
    (hs : setupFilter .cura repo profile g.allLayers = .ok (d, Ls)) (hw : ∀ L ∈ Ls, WholeLayer L.lines) {fuel : ℕ}
    (hf : ∀ L ∈ Ls, 2 * L.lines.length + 3 ≤ fuel) : g.stretch sqrt fuel .cura repo profile ≠ .error .outOfFuel := by
  unfold GCode.stretch
  rw [hs]
  simp only [Slicer.forward, Slicer.backward]
  have h3 := layers_whole (sqrt := sqrt) (fuel := fuel) Ls { StretchSt.init with dist := d } rfl (fun L hL => ⟨hw L hL, hf L hL⟩)
  cases e3 : stretchLayers sqrt fuel .curaFwd .curaBwd { StretchSt.init with dist := d } Ls with
  | error er => rw [e3] at h3; simpa using h3
  | ok q => simp

/-! ### the hypotheses are met -/

/-- The marks and moves of a list of lines say that lines `a` to `s - 1` are a whole loop. -/
def wholeQ (ls : List (PyLine ℚ)) (a s : ℕ) : Bool :=
  decide (a < s) && decide (a ∈ marksAt c!"stretch-loop-start" ls) && decide (s ∈ marksAt c!"stretch-loop-stop" ls) &&
  (marksAt c!"stretch-loop-start" ls).all (fun i => !(decide (a < i) && decide (i < s))) &&
  (marksAt c!"stretch-loop-stop" ls).all (fun i => !(decide (a ≤ i) && decide (i < s))) &&
  (ls[a]?.any isXYMove) && (ls[s - 1]?.any isXYMove)

theorem whole_of {ls : List (PyLine ℚ)} {a s : ℕ} (h : wholeQ ls a s = true) : WholeLoop ls a s := by
  unfold wholeQ at h
  simp only [Bool.and_eq_true, decide_eq_true_eq, List.all_eq_true, Bool.not_eq_true', Option.any_eq_true, Bool.and_eq_false_iff, decide_eq_false_iff_not] at h
  obtain ⟨⟨⟨⟨⟨⟨h1, h2⟩, h3⟩, h4⟩, h5⟩, l, h6, h6'⟩, l', h7, h7'⟩ := h
  refine ⟨h1, (mem_marksAt _ _ _).1 h2, (mem_marksAt _ _ _).1 h3, fun i p q k => ?_, fun i p q k => ?_, ⟨l, h6, (isXYMove_iff l).1 h6'⟩, ⟨l', h7, (isXYMove_iff l').1 h7'⟩⟩
  · rcases h4 i ((mem_marksAt _ _ _).2 k) with c | c <;> exact c (by assumption)
  · rcases h5 i ((mem_marksAt _ _ _).2 k) with c | c <;> exact c (by assumption)

example : setupFilter .cura (StretchRepo.default 1) noProfile (loadQ squareC).allLayers = .ok (some curaHangDist, marksQ .cura 1 squareC) ∧
    (∀ L ∈ marksQ .cura 1 squareC, 2 * L.lines.length + 3 ≤ 23) ∧ WholeLoop (markedLayer .cura squareC 1) 3 7 :=
  ⟨by decide +kernel, by decide +kernel, whole_of (by decide +kernel)⟩

example : ∀ L ∈ marksQ .cura 1 squareC, WholeLayer L.lines := by
  have h1 : ∀ L ∈ marksQ .cura 1 squareC, loopAt L.lines = none := by decide +kernel
  have h2 : ∀ L ∈ marksQ .cura 1 squareC, ∀ n ∈ List.range L.lines.length, ∀ l ∈ L.lines[n]?, XYMove l → loopAt (L.lines.take (n + 1)) ≠ none →
      wholeQ L.lines 3 7 = true ∧ 3 ≤ n ∧ n < 7 := by decide +kernel
  have h3 : ∀ L ∈ marksQ .cura 1 squareC, ∀ l ∈ L.lines, XYMove l → ∀ l' ∈ (reparse l).toOption, XYMove l' := by decide +kernel
  intro L hL
  refine ⟨h1 L hL, fun n l hn hx ho => ?_, fun l hl hx l' hr => h3 L hL l hl hx l' (by rw [hr]; rfl)⟩
  obtain ⟨a, b⟩ := h2 L hL n (List.mem_range.2 (List.getElem?_eq_some_iff.1 hn).1) l hn hx ho
  exact ⟨3, 7, whole_of a, b⟩

end GCodeUtils
