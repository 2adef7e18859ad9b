import Verif.Lemmas.StretchRun
import Verif.Props.LaterLayers
import Verif.Props.StretchWalk

/-
  C147: the exceptions stretching can raise.
-/

set_option linter.unusedSectionVars false

namespace GCodeUtils

open Spec

variable {α : Type} [Field α] [LinearOrder α] [IsStrictOrderedRing α] [FloorRing α]

/-- What can go wrong in a walk along a loop: it does not end, or (Cura) it asks for a line after the last one. -/
def WalkFails (cura : Prop) (e : Err) : Prop := e = .outOfFuel ∨ (cura ∧ e = .indexError)

/-- Where a walk may stand: before the last line, if it is a walk of Slic3r backward. -/
def BeforeLast (kind : ItKind) (lines : List (PyLine α)) (i : ℤ) : Prop := kind = .bwd → i + 1 < lines.length

def ItKind.IsCura (k : ItKind) : Prop := k = .curaFwd ∨ k = .curaBwd

/-! ### walks -/

theorem searchUp_lt {p : PyLine α → Bool} {lines : List (PyLine α)} {k m : ℕ} (h : searchUp p lines k = some m) : m < lines.length := by
  unfold searchUp at h
  cases hf : (lines.drop k).findIdx? p with
  | none => rw [hf] at h; simp at h
  | some j =>
    rw [hf] at h
    simp only [Option.map_some, Option.some.injEq] at h
    have hj := (List.findIdx?_eq_some_iff_findIdx_eq.1 hf).1
    rw [List.length_drop] at hj
    omega

theorem resetIndex_err {kind : ItKind} {lines : List (PyLine α)} {i : ℤ} {e : Err} (h : resetIndex kind lines i = .error e) : e = .stopIteration := by
  unfold resetIndex at h
  simp only at h
  split at h
  · cases h
  · exact (Except.error.inj h).symm

theorem resetIndex_inside {kind : ItKind} {lines : List (PyLine α)} {i k : ℤ} (h : resetIndex kind lines i = .ok k) : BeforeLast kind lines k := by
  rintro rfl
  unfold resetIndex at h
  simp only at h
  cases hs : searchUp (marked extrusionOffMarker) lines (i + 1).toNat with
  | none => rw [hs] at h; simp at h
  | some m =>
    rw [hs] at h
    have hk : (m : ℤ) - 2 = k := Except.ok.inj h
    have := searchUp_lt hs
    omega

theorem indexSetup_err {kind : ItKind} {lines : List (PyLine α)} {st : ItSt} {e : Err} (hi : BeforeLast kind lines st.idx)
    (h : indexSetup kind lines st = .error e) : e = .stopIteration ∨ (kind.IsCura ∧ e = .indexError) := by
  have hr : ∀ {e : Err}, (resetIndex kind lines st.idx).map (fun k => ({ st with idx := k } : ItSt)) = .error e → e = .stopIteration := by
    intro e h
    cases hx : resetIndex kind lines st.idx with
    | error er => rw [hx] at h; exact (Except.error.inj h) ▸ resetIndex_err hx
    | ok k => rw [hx] at h; cases h
  unfold indexSetup at h
  cases kind with
  | fwdLegacy => cases h
  | fwd => cases h
  | bwdLegacy =>
    simp only at h
    split_ifs at h
    exact .inl (hr h)
  | bwd =>
    simp only at h
    split_ifs at h with h0
    · exact .inl (hr h)
    · have hl := hi rfl
      have : ∃ l, lineAt lines (st.idx + 1) = some l := by
        unfold lineAt
        rw [if_pos (by omega)]
        exact ⟨_, List.getElem?_eq_getElem (by omega)⟩
      obtain ⟨l, hl⟩ := this
      rw [hl] at h
      simp only at h
      split_ifs at h
      exact .inl (hr h)
  | curaBwd =>
    simp only at h
    split_ifs at h with h0
    · exact .inl (hr h)
    · cases hl : lineAt lines (st.idx + 1) with
      | none => rw [hl] at h; exact .inr ⟨.inr rfl, (Except.error.inj h).symm⟩
      | some l =>
        rw [hl] at h
        simp only at h
        split_ifs at h
        exact .inl (hr h)
  | curaFwd =>
    simp only at h
    cases hl : lineAt lines st.idx with
    | none => rw [hl] at h; exact .inr ⟨.inl rfl, (Except.error.inj h).symm⟩
    | some l =>
      rw [hl] at h
      simp only at h
      split_ifs at h
      exact .inl (hr h)

theorem indexSetup_inside {kind : ItKind} {lines : List (PyLine α)} {st st' : ItSt} (hi : BeforeLast kind lines st.idx)
    (h : indexSetup kind lines st = .ok st') : BeforeLast kind lines st'.idx := by
  rintro rfl
  unfold indexSetup at h
  simp only at h
  have hr : (resetIndex .bwd lines st.idx).map (fun k => ({ st with idx := k } : ItSt)) = .ok st' → st'.idx + 1 < lines.length := by
    intro h
    cases hx : resetIndex .bwd lines st.idx with
    | error er => rw [hx] at h; cases h
    | ok k =>
      rw [hx] at h
      obtain rfl := Except.ok.inj h
      exact resetIndex_inside hx rfl
  split_ifs at h
  · exact hr h
  · split at h
    · cases h
    · split_ifs at h
      · exact hr h
      · obtain rfl := Except.ok.inj h
        exact hi rfl

theorem getNextLoop_err {kind : ItKind} {lines : List (PyLine α)} (fuel : ℕ) : ∀ {st : ItSt} {e : Err},
    getNextLoop kind lines fuel st = .error e → e = .stopIteration ∨ e = .outOfFuel := by
  induction fuel with
  | zero => intro st e h; exact .inr (Except.error.inj h).symm
  | succ fuel ih =>
    intro st e h
    rw [getNextLoop] at h
    split at h
    · exact .inl (Except.error.inj h).symm
    · split_ifs at h
      · exact .inl (Except.error.inj h).symm
      · split at h
        · rename_i hx
          exact .inl (Except.error.inj h ▸ resetIndex_err hx)
        · exact ih h
      · exact ih h

theorem getNextLoop_inside {kind : ItKind} {lines : List (PyLine α)} (fuel : ℕ) : ∀ {st : ItSt} {l : PyLine α} {st' : ItSt}, BeforeLast kind lines st.idx →
    getNextLoop kind lines fuel st = .ok (l, st') → BeforeLast kind lines st'.idx := by
  induction fuel with
  | zero => intro st l st' _ h; cases h
  | succ fuel ih =>
    intro st l st' hi h
    have hinc : BeforeLast kind lines (st.idx + kind.increment) := by
      rintro rfl
      have := hi rfl
      simp only [ItKind.increment]
      omega
    rw [getNextLoop] at h
    split at h
    · cases h
    · split_ifs at h
      · split at h
        · cases h
        · rename_i hx
          exact ih (st := { idx := _, first := some _ }) (resetIndex_inside hx) h
      · simp only [Except.ok.injEq, Prod.mk.injEq] at h
        rw [← h.2]
        exact hinc
      · exact ih (st := { idx := _, first := some _ }) hinc h

theorem getNext_err {fuel : ℕ} {kind : ItKind} {lines : List (PyLine α)} {st : ItSt} {e : Err} (hi : BeforeLast kind lines st.idx)
    (h : getNext fuel kind lines st = .error e) : e = .stopIteration ∨ WalkFails kind.IsCura e := by
  unfold getNext at h
  cases hs : indexSetup kind lines st with
  | error er =>
    rw [hs] at h
    obtain rfl := Except.error.inj h
    exact (indexSetup_err hi hs).imp id .inr
  | ok st' =>
    rw [hs] at h
    exact (getNextLoop_err fuel h).imp id .inl

theorem getNext_inside {fuel : ℕ} {kind : ItKind} {lines : List (PyLine α)} {st st' : ItSt} {l : PyLine α} (hi : BeforeLast kind lines st.idx)
    (h : getNext fuel kind lines st = .ok (l, st')) : BeforeLast kind lines st'.idx := by
  unfold getNext at h
  cases hs : indexSetup kind lines st with
  | error er => rw [hs] at h; cases h
  | ok st1 =>
    rw [hs] at h
    exact getNextLoop_inside fuel (indexSetup_inside hi hs) h

/-! ### divisions -/

/-- Distances to divide by. -/
structure Dividable (d : StretchDist α) : Prop where
  far : 0 < d.fromDist
  fraction : 0 < d.crossFraction
  remainder : 0 < d.crossRemainder

theorem cx_div_err {a : Cx α} {k : α} (hk : k ≠ 0) {e : Err} (h : a.div k = .error e) : False := by
  unfold Cx.div at h
  rw [if_neg hk] at h
  cases h

variable {sqrt : α → α}

theorem crossLimited_err {fuel : ℕ} {d : StretchDist α} (hd : Dividable d) {old : Option (Vec3 α)} {kind : ItKind} {lines : List (PyLine α)}
    {start : ℤ} (hi : BeforeLast kind lines start) {loc s : Cx α} {e : Err} (h : crossLimited sqrt fuel d old kind lines start loc s = .error e) :
    WalkFails kind.IsCura e := by
  unfold crossLimited at h
  split at h
  · cases h
  · rename_i er hne hx
    obtain rfl := Except.error.inj h
    exact (getNext_err hi hx).resolve_left (fun k => hne (k ▸ rfl))
  · simp only at h
    rename_i line st1 _
    by_cases h1 : (loc.sub (pointOf old line)).abs sqrt ≤ d.crossFraction
    · rw [if_pos h1] at h
      cases h
    · rw [if_neg h1] at h
      cases hx : (loc.sub (pointOf old line)).div ((loc.sub (pointOf old line)).abs sqrt) with
      | error er => exact (cx_div_err (lt_trans hd.fraction (not_le.1 h1)).ne' hx).elim
      | ok par =>
        rw [hx] at h
        simp only at h
        rw [if_neg hd.remainder.ne'] at h
        split_ifs at h

theorem relStretchLoop_err {fuel : ℕ} {d : StretchDist α} (hd : Dividable d) {old : Option (Vec3 α)} {kind : ItKind} {lines : List (PyLine α)}
    {loc : Cx α} (n : ℕ) : ∀ {st : ItSt} {last : Cx α} {ot : α} {point : Cx α} {total : α} {e : Err}, BeforeLast kind lines st.idx → total < d.fromDist →
    relStretchLoop sqrt fuel d old kind lines loc n st last ot point total = .error e → WalkFails kind.IsCura e := by
  induction n with
  | zero => intro st last ot point total e _ _ h; exact .inl (Except.error.inj h).symm
  | succ n ih =>
    intro st last ot point total e hi ht h
    rw [relStretchLoop] at h
    split at h
    · simp only at h
      split_ifs at h with h0
      exact (cx_div_err h0.ne' h).elim
    · rename_i er hne hx
      obtain rfl := Except.error.inj h
      exact (getNext_err hi hx).resolve_left (fun k => hne (k ▸ rfl))
    · rename_i line st1 hx
      simp only at h
      split_ifs at h with h1 h2
      · rw [h2] at h1
        linarith
      · exact (cx_div_err hd.far.ne' h).elim
      · exact ih (getNext_inside hi hx) (not_le.1 h1) h

theorem displacement_err {fuel : ℕ} {d : StretchDist α} (hd : Dividable d) {old : Option (Vec3 α)} {kf kb : ItKind} {lines : List (PyLine α)}
    {n : ℕ} (hf : kf ≠ .bwd) (hn : n < lines.length) {tmax : α} {loc : Cx α} {e : Err}
    (h : displacement sqrt fuel d old kf kb lines n tmax loc = .error e) : WalkFails (kf.IsCura ∨ kb.IsCura) e := by
  have i1 : BeforeLast kf lines ((n : ℤ) + 1) := fun k => absurd k hf
  have i2 : BeforeLast kb lines ((n : ℤ) - 1) := fun _ => by omega
  have w1 : ∀ {e}, WalkFails kf.IsCura e → WalkFails (kf.IsCura ∨ kb.IsCura) e := fun k => k.imp id (fun q => ⟨.inl q.1, q.2⟩)
  have w2 : ∀ {e}, WalkFails kb.IsCura e → WalkFails (kf.IsCura ∨ kb.IsCura) e := fun k => k.imp id (fun q => ⟨.inr q.1, q.2⟩)
  unfold displacement at h
  cases h1 : relStretch sqrt fuel d old kf lines ((n : ℤ) + 1) loc with
  | error er => rw [h1] at h; obtain rfl := Except.error.inj h; exact w1 (relStretchLoop_err hd fuel (st := { idx := _ }) i1 hd.far h1)
  | ok a =>
  cases h2 : relStretch sqrt fuel d old kb lines ((n : ℤ) - 1) loc with
  | error er => rw [h1, h2] at h; obtain rfl := Except.error.inj h; exact w2 (relStretchLoop_err hd fuel (st := { idx := _ }) i2 hd.far h2)
  | ok b =>
  rw [h1, h2] at h
  simp only [bind, Except.bind] at h
  split at h
  · rename_i hx
    obtain rfl := Except.error.inj h
    exact w1 (crossLimited_err hd i1 hx)
  · split at h
    · rename_i hx
      obtain rfl := Except.error.inj h
      exact w2 (crossLimited_err hd i2 hx)
    · split at h
      · rename_i h0
        split at h
        · rename_i hx
          exact (cx_div_err (lt_trans one_pos h0).ne' hx).elim
        · cases h
      · cases h

/-! ### the second pass -/

theorem stretchLine_err {fuel : ℕ} {kf kb : ItKind} {lines : List (PyLine α)} {n : ℕ} {st : StretchSt α} {l : PyLine α} {e : Err}
    (hf : kf ≠ .bwd) (hn : n < lines.length) (hd : 0 < st.tmax → ∀ d, st.dist = some d → Dividable d)
    (h : stretchLine sqrt fuel kf kb lines n st l = .error e) : WalkFails (kf.IsCura ∨ kb.IsCura) e ∨ (st.dist = none ∧ e = .attributeError) := by
  unfold stretchLine at h
  simp only at h
  by_cases ht : 0 < st.tmax
  · rw [if_pos ht] at h
    cases hD : st.dist with
    | none => rw [hD] at h; exact .inr ⟨rfl, (Except.error.inj h).symm⟩
    | some d =>
      rw [hD] at h
      simp only at h
      split at h
      · rename_i er hx
        obtain rfl := Except.error.inj h
        unfold stretchedLine at hx
        cases hy : displacement sqrt fuel d (some (locationFromLine st.old l)) kf kb lines n st.tmax ⟨(locationFromLine st.old l).x, (locationFromLine st.old l).y⟩ with
        | error er => rw [hy] at hx; obtain rfl := Except.error.inj hx; exact .inl (displacement_err (hd ht d hD) hf hn hy)
        | ok a => rw [hy] at hx; cases hx
      · cases h
  · rw [if_neg ht] at h
    cases h

/-- The state in which a line is treated: the widths of the program, and a displacement only if there are distances to divide by. -/
structure Prepared (D : Option (StretchDist α)) (st : StretchSt α) : Prop where
  dist : st.dist = D
  divide : 0 < st.tmax → ∀ d, D = some d → Dividable d

/-- Widths for which displacements are positive only with distances to divide by. -/
def SafeWidths (D : Option (StretchDist α)) : Prop := ∀ d, D = some d → 0 < d.loopMax ∨ 0 < d.insideMax ∨ 0 < d.outsideMax → Dividable d

theorem loopSwitch_prepared {D : Option (StretchDist α)} (hD : SafeWidths D) {st st' : StretchSt α} {l : PyLine α} (hp : Prepared D st)
    (h : loopSwitch st l = .ok st') : Prepared D st' := by
  unfold loopSwitch at h
  simp only at h
  have hd := hp.dist
  cases hx : st.dist with
  | none =>
    rw [hx] at h
    simp only at h
    split_ifs at h
    · obtain rfl := Except.ok.inj h
      exact ⟨hx.symm.trans hd, fun k => absurd k (lt_irrefl _)⟩
    · obtain rfl := Except.ok.inj h
      exact hp
  | some d =>
    have key : ∀ d', D = some d' → d' = d := fun d' k => Option.some.inj (k.symm.trans (hd.symm.trans hx))
    rw [hx] at h
    simp only at h
    split_ifs at h
    · obtain rfl := Except.ok.inj h
      exact ⟨hx.symm.trans hd, fun k d' e => hD d' e (.inr (.inl (by rw [key d' e]; exact k)))⟩
    · obtain rfl := Except.ok.inj h
      exact ⟨hx.symm.trans hd, fun k d' e => hD d' e (.inr (.inr (by rw [key d' e]; exact k)))⟩
    · obtain rfl := Except.ok.inj h
      exact ⟨hx.symm.trans hd, fun k d' e => hD d' e (.inl (by rw [key d' e]; exact k))⟩
    · obtain rfl := Except.ok.inj h
      exact ⟨hx.symm.trans hd, fun k => absurd k (lt_irrefl _)⟩
    · obtain rfl := Except.ok.inj h
      exact hp

theorem loopSwitch_err {st : StretchSt α} {l : PyLine α} {e : Err} (h : loopSwitch st l = .error e) : st.dist = none ∧ e = .attributeError := by
  unfold loopSwitch at h
  simp only at h
  cases hx : st.dist with
  | none =>
    rw [hx] at h
    simp only at h
    refine ⟨rfl, ?_⟩
    split_ifs at h <;> exact (Except.error.inj h).symm
  | some d =>
    rw [hx] at h
    simp only at h
    split_ifs at h

theorem stretchParseLine_prepared {D : Option (StretchDist α)} (hD : SafeWidths D) {fuel : ℕ} {kf kb : ItKind} {lines : List (PyLine α)} {n : ℕ}
    {st st' : StretchSt α} {l r : PyLine α} {b : Bool} (hp : Prepared D st) (h : stretchParseLine sqrt fuel kf kb lines n st l = .ok (st', r, b)) :
    Prepared D st' := by
  unfold stretchParseLine at h
  split at h
  · cases h
  · rename_i st1 hx
    have h1 := loopSwitch_prepared hD hp hx
    split_ifs at h
    · unfold stretchLine at h
      simp only at h
      split_ifs at h
      · split at h
        · cases h
        · split at h
          · cases h
          · simp only [Except.ok.injEq, Prod.mk.injEq] at h
            rw [← h.1]
            exact ⟨h1.dist, h1.divide⟩
      · simp only [Except.ok.injEq, Prod.mk.injEq] at h
        rw [← h.1]
        exact ⟨h1.dist, h1.divide⟩
    · simp only [Except.ok.injEq, Prod.mk.injEq] at h
      rw [← h.1]
      exact h1

theorem stretchParseLine_err {D : Option (StretchDist α)} (hD : SafeWidths D) {fuel : ℕ} {kf kb : ItKind} {lines : List (PyLine α)} {n : ℕ}
    {st : StretchSt α} {l : PyLine α} {e : Err} (hp : Prepared D st) (hf : kf ≠ .bwd) (hn : n < lines.length)
    (h : stretchParseLine sqrt fuel kf kb lines n st l = .error e) : WalkFails (kf.IsCura ∨ kb.IsCura) e ∨ (D = none ∧ e = .attributeError) := by
  unfold stretchParseLine at h
  split at h
  · rename_i er hx
    obtain rfl := Except.error.inj h
    have := loopSwitch_err hx
    exact .inr ⟨hp.dist.symm.trans this.1, this.2⟩
  · rename_i st1 hx
    have h1 := loopSwitch_prepared hD hp hx
    split_ifs at h
    exact (stretchLine_err hf hn (fun k d e => h1.divide k d (h1.dist.symm.trans e)) h).imp id (fun k => ⟨h1.dist.symm.trans k.1, k.2⟩)

theorem parseToks_err {u : α} (ts : List Tok) : ∀ {l : PyLine α} {e : Err}, ts.foldlM (parseTok u) l = .error e → e = .valueError := by
  induction ts with
  | nil => intro l e h; cases h
  | cons t ts ih =>
    intro l e h
    rw [List.foldlM_cons] at h
    cases h1 : parseTok u l t with
    | error er =>
      rw [h1] at h
      obtain rfl := Except.error.inj h
      unfold parseTok at h1
      split at h1
      · cases h1
      · split_ifs at h1
        split at h1
        · cases h1
        · exact (Except.error.inj h1).symm
    | ok l1 => rw [h1] at h; exact ih h

theorem reparse_err {l : PyLine α} {e : Err} (h : reparse l = .error e) : e = .valueError := by
  unfold reparse parseCoordinates at h
  simp only at h
  split at h
  · cases h
  · rename_i c _
    by_cases hc : c.head? ≠ some 'G'
    · rw [if_pos hc] at h
      cases h
    · rw [if_neg hc] at h
      exact parseToks_err _ h

/-- The exceptions of the second pass. -/
def PassFails (cura widthless : Prop) (e : Err) : Prop := WalkFails cura e ∨ (widthless ∧ e = .attributeError) ∨ e = .valueError

theorem stretchLayer_err {D : Option (StretchDist α)} (hD : SafeWidths D) {fuel : ℕ} {kf kb : ItKind} (hf : kf ≠ .bwd) (todo : List (PyLine α)) :
    ∀ {st : StretchSt α} {cur : List (PyLine α)} {n : ℕ}, Prepared D st → n + todo.length ≤ cur.length →
    (∀ e, stretchLayer sqrt fuel kf kb st cur n todo = .error e → PassFails (kf.IsCura ∨ kb.IsCura) (D = none) e) ∧
    ∀ st' out, stretchLayer sqrt fuel kf kb st cur n todo = .ok (st', out) → Prepared D st' := by
  induction todo with
  | nil =>
    intro st cur n hp _
    refine ⟨(fun e h => by cases h), fun st' out h => ?_⟩
    simp only [stretchLayer, Except.ok.injEq, Prod.mk.injEq] at h
    rw [← h.1]
    exact hp
  | cons l rest ih =>
    intro st cur n hp hn
    rw [List.length_cons] at hn
    rw [stretchLayer]
    cases h1 : stretchParseLine sqrt fuel kf kb cur n st l with
    | error er =>
      refine ⟨fun e h => ?_, fun st' out h => by cases h⟩
      obtain rfl := Except.error.inj h
      exact (stretchParseLine_err hD hp hf (by omega) h1).imp id .inl
    | ok p =>
      obtain ⟨st1, r, b⟩ := p
      simp only
      cases h2 : reparse r with
      | error er =>
        refine ⟨fun e h => ?_, fun st' out h => by cases h⟩
        obtain rfl := Except.error.inj h
        exact .inr (.inr (reparse_err h2))
      | ok r1 =>
        simp only
        obtain ⟨k1, k2⟩ := ih (cur := if b = true then cur.set n r1 else cur) (n := n + 1) (stretchParseLine_prepared hD hp h1) (by
          have : (if b = true then cur.set n r1 else cur).length = cur.length := by split_ifs <;> simp
          omega)
        cases h3 : stretchLayer sqrt fuel kf kb st1 (if b = true then cur.set n r1 else cur) (n + 1) rest with
        | error er =>
          refine ⟨fun e h => ?_, fun st' out h => by cases h⟩
          obtain rfl := Except.error.inj h
          exact k1 _ h3
        | ok q =>
          refine ⟨(fun e h => by cases h), fun st' out h => ?_⟩
          simp only [Except.ok.injEq, Prod.mk.injEq] at h
          rw [← h.1]
          exact k2 q.1 q.2 h3

theorem stretchLayers_err {D : Option (StretchDist α)} (hD : SafeWidths D) {fuel : ℕ} {kf kb : ItKind} (hf : kf ≠ .bwd) (Ls : List (Layer α)) :
    ∀ {st : StretchSt α} {e : Err}, Prepared D st → stretchLayers sqrt fuel kf kb st Ls = .error e → PassFails (kf.IsCura ∨ kb.IsCura) (D = none) e := by
  induction Ls with
  | nil => intro st e _ h; cases h
  | cons L Ls ih =>
    intro st e hp h
    rw [stretchLayers] at h
    obtain ⟨k1, k2⟩ := stretchLayer_err (sqrt := sqrt) (fuel := fuel) (kb := kb) hD hf L.lines (cur := L.lines) (n := 0) hp (by omega)
    cases h1 : stretchLayer sqrt fuel kf kb st L.lines 0 L.lines with
    | error er => rw [h1] at h; obtain rfl := Except.error.inj h; exact k1 _ h1
    | ok p =>
      rw [h1] at h
      simp only at h
      split at h
      · rename_i er hx
        obtain rfl := Except.error.inj h
        exact ih (k2 p.1 p.2 h1) hx
      · cases h

/-! ### the first pass -/

/-- The exceptions of the first pass: a width that is no number, or a profile that cannot be decoded. -/
def FirstFails (slicer : Slicer) (profile : ProfileOracle α) (e : Err) : Prop := e = .valueError ∨ (slicer = .cura ∧ ∃ t, profile t = .error e)

theorem edgeFromText_err {repo : StretchRepo α} {t : Str} {e : Err} (h : edgeFromText repo t = .error e) : e = .valueError := by
  unfold edgeFromText at h
  split at h
  · cases h
  · exact (Except.error.inj h).symm

theorem slic3rLines_err {repo : StretchRepo α} (ls : List (PyLine α)) : ∀ {s : AnnSt α} {e : Err}, slic3rLines repo s ls = .error e → e = .valueError := by
  induction ls with
  | nil => intro s e h; cases h
  | cons l ls ih =>
    intro s e h
    rw [slic3rLines] at h
    cases h1 : slic3rLine repo s l ls with
    | error er =>
      rw [h1] at h
      obtain rfl := Except.error.inj h
      unfold slic3rLine at h1
      simp only at h1
      split at h1
      · split at h1
        · rename_i hx
          exact Except.error.inj h1 ▸ edgeFromText_err hx
        · cases h1
      · cases h1
    | ok p =>
      rw [h1] at h
      simp only at h
      split at h
      · rename_i hx
        exact Except.error.inj h ▸ ih hx
      · cases h

theorem curaLines_err {repo : StretchRepo α} {profile : ProfileOracle α} (ls : List (PyLine α)) : ∀ {s : AnnSt α} {e : Err},
    curaLines repo profile s ls = .error e → ∃ t, profile t = .error e := by
  induction ls with
  | nil => intro s e h; cases h
  | cons l ls ih =>
    intro s e h
    rw [curaLines] at h
    cases h1 : curaLine repo profile s l ls.isEmpty with
    | error er =>
      rw [h1] at h
      obtain rfl := Except.error.inj h
      rw [curaLine_eq] at h1
      split at h1
      · rename_i t _
        split at h1
        · rename_i hx
          exact ⟨t, Except.error.inj h1 ▸ hx⟩
        · cases h1
        · cases h1
      · cases h1
    | ok p =>
      rw [h1] at h
      simp only at h
      split at h
      · rename_i hx
        exact Except.error.inj h ▸ ih hx
      · cases h

theorem skeinforgeLines_err {repo : StretchRepo α} (ls : List (PyLine α)) : ∀ {s : AnnSt α} {e : Err}, skeinforgeLines repo s ls = .error e → e = .valueError := by
  induction ls with
  | nil => intro s e h; cases h
  | cons l ls ih =>
    intro s e h
    rw [skeinforgeLines] at h
    cases h1 : skeinforgeLine repo s l with
    | error er =>
      rw [h1] at h
      obtain rfl := Except.error.inj h
      unfold skeinforgeLine at h1
      simp only at h1
      split at h1
      · split at h1
        · rename_i hx
          exact Except.error.inj h1 ▸ edgeFromText_err hx
        · cases h1
      · cases h1
    | ok p =>
      rw [h1] at h
      simp only at h
      split at h
      · rename_i hx
        exact Except.error.inj h ▸ ih hx
      · cases h

theorem annotateLayers_err {slicer : Slicer} {repo : StretchRepo α} {profile : ProfileOracle α} (Ls : List (Layer α)) : ∀ {s : AnnSt α} {e : Err},
    annotateLayers slicer repo profile s Ls = .error e → FirstFails slicer profile e := by
  induction Ls with
  | nil => intro s e h; cases h
  | cons L Ls ih =>
    intro s e h
    rw [annotateLayers] at h
    cases h1 : annotateLayer slicer repo profile s L.lines with
    | error er =>
      rw [h1] at h
      obtain rfl := Except.error.inj h
      cases slicer with
      | slic3r => exact .inl (slic3rLines_err _ h1)
      | cura => exact .inr ⟨rfl, curaLines_err _ h1⟩
      | skeinforge => exact .inl (skeinforgeLines_err _ h1)
    | ok p =>
      rw [h1] at h
      simp only at h
      split at h
      · rename_i hx
        exact Except.error.inj h ▸ ih hx
      · cases h

/-! ### the widths -/

theorem setEdgeWidth_safe {repo : StretchRepo α} (hc : 0 < repo.cross) (hf : 0 < repo.fromDist) (h1 : 0 ≤ repo.loop) (h2 : 0 ≤ repo.inside) (h3 : 0 ≤ repo.outside)
    (w : α) : SafeWidths (some (setEdgeWidth repo w)) := by
  rintro d hd h
  obtain rfl := Option.some.inj hd
  have hw : 0 < w := by
    by_contra k
    rw [not_lt] at k
    have := mul_nonpos_of_nonpos_of_nonneg k h1
    have := mul_nonpos_of_nonpos_of_nonneg k h2
    have := mul_nonpos_of_nonpos_of_nonneg k h3
    simp only [setEdgeWidth] at h
    rcases h with h | h | h <;> linarith
  have := mul_pos hw hc
  exact ⟨mul_pos hf hw, by simp only [setEdgeWidth]; linarith, by simp only [setEdgeWidth]; linarith⟩

/-! ### the theorem -/

/-- C147. With distances that are positive and stretches that are not negative (as with the default settings and a strength that is not negative), stretching a
program never divides by zero, whatever width is told and wherever the points lie. If it fails, then with a `ValueError` (a width or a command
that cannot be read), with what the decoding of a Cura profile fails with, with an `IndexError` (Cura only), or with an
`AttributeError` (Skeinforge programs that tell no width only); or it does not end. -/
theorem C147_errors {fuel : ℕ} {slicer : Slicer} {repo : StretchRepo α} {profile : ProfileOracle α} {g : GCode α} {e : Err}
    (hc : 0 < repo.cross) (hf : 0 < repo.fromDist) (h1 : 0 ≤ repo.loop) (h2 : 0 ≤ repo.inside) (h3 : 0 ≤ repo.outside)
    (h : g.stretch sqrt fuel slicer repo profile = .error e) :
    e = .valueError ∨ (slicer = .cura ∧ ∃ t, profile t = .error e) ∨ (slicer = .cura ∧ e = .indexError) ∨
    (slicer = .skeinforge ∧ NoneSays (skeinforgeSays (α := α)) (linesOf g.allLayers) ∧ e = .attributeError) ∨ e = .outOfFuel := by
  unfold GCode.stretch at h
  cases hs : setupFilter slicer repo profile g.allLayers with
  | error er =>
    rw [hs] at h
    obtain rfl := Except.error.inj h
    unfold setupFilter at hs
    cases hx : annotateLayers slicer repo profile {} g.allLayers with
    | error er' =>
      rw [hx] at hs
      obtain rfl := Except.error.inj hs
      exact (annotateLayers_err _ hx).imp id .inl
    | ok p => rw [hx] at hs; cases hs
  | ok p =>
    obtain ⟨d, ann⟩ := p
    rw [hs] at h
    simp only at h
    have hk : slicer.forward ≠ .bwd := by cases slicer <;> simp [Slicer.forward]
    have hcu : slicer.forward.IsCura ∨ slicer.backward.IsCura → slicer = .cura := by
      cases slicer <;> simp [Slicer.forward, Slicer.backward, ItKind.IsCura]
    have hw := setupFilter_width hs
    have hD : SafeWidths d := by
      rcases hw with ⟨w, rfl, _⟩ | ⟨_, rfl, _⟩
      · exact setEdgeWidth_safe hc hf h1 h2 h3 w
      · intro d k; cases k
    split at h
    · rename_i er hx
      obtain rfl := Except.error.inj h
      have hp : Prepared d ({ StretchSt.init with dist := d } : StretchSt α) := ⟨rfl, fun k => absurd k (lt_irrefl _)⟩
      rcases stretchLayers_err hD hk ann hp hx with (k | ⟨k1, k2⟩) | ⟨k1, k2⟩ | k
      · exact .inr (.inr (.inr (.inr k)))
      · exact .inr (.inr (.inl ⟨hcu k1, k2⟩))
      · rcases hw with ⟨w, k, _⟩ | ⟨q1, _, q2⟩
        · rw [k1] at k; cases k
        · exact .inr (.inr (.inr (.inl ⟨q1, q2, k2⟩)))
      · exact .inl k
    · cases h

/-- C147 with the default settings: no division by zero. -/
theorem C147_default {fuel : ℕ} {slicer : Slicer} {strength : α} (hp : 0 ≤ strength) {profile : ProfileOracle α} (hz : ∀ t, profile t ≠ .error .zeroDivision)
    (g : GCode α) : g.stretch sqrt fuel slicer (StretchRepo.default strength) profile ≠ .error .zeroDivision := by
  intro h
  have p1 : (0 : α) < (StretchRepo.default strength).cross := by simp only [StretchRepo.default, StretchRepo.make]; norm_num
  have p2 : (0 : α) < (StretchRepo.default strength).fromDist := by simp only [StretchRepo.default, StretchRepo.make]; norm_num
  have p3 : (0 : α) ≤ (StretchRepo.default strength).loop := mul_nonneg (by norm_num) hp
  have p4 : (0 : α) ≤ (StretchRepo.default strength).inside := mul_nonneg (by norm_num) hp
  have p5 : (0 : α) ≤ (StretchRepo.default strength).outside := mul_nonneg (by norm_num) hp
  rcases C147_errors p1 p2 p3 p4 p5 h with k | ⟨_, t, k⟩ | ⟨_, k⟩ | ⟨_, _, k⟩ | k
  · cases k
  · exact hz t k
  · cases k
  · cases k
  · cases k

/-! ### the hypotheses are met, and the exceptions occur -/

example : (0 : ℚ) < (StretchRepo.default 1 : StretchRepo ℚ).cross ∧ (0 : ℚ) < (StretchRepo.default 1 : StretchRepo ℚ).fromDist ∧
    (0 : ℚ) ≤ (StretchRepo.default 1 : StretchRepo ℚ).loop ∧ (0 : ℚ) ≤ (StretchRepo.default 1 : StretchRepo ℚ).inside ∧
    (0 : ℚ) ≤ (StretchRepo.default 1 : StretchRepo ℚ).outside ∧ ∀ t, noProfile t ≠ .error .zeroDivision :=
  ⟨by decide +kernel, by decide +kernel, by decide +kernel, by decide +kernel, by decide +kernel, fun _ h => by cases h⟩

example :
    (loadQ (squareS ++ [c!"; external perimeters extrusion width = 1.2.3mm"])).stretch rSqrt 100 .slic3r (StretchRepo.default 1) noProfile = .error .valueError ∧
    (loadQ [c!"(<edge> outer )", c!"G1 X0 Y0"]).stretch rSqrt 100 .skeinforge (StretchRepo.default 1) noProfile = .error .attributeError ∧
    (loadQ oneMoveWall).stretch rSqrt 100 .cura (StretchRepo.default 1) noProfile = .error .indexError ∧
    (loadQ [c!";CURA_PROFILE_STRING:"]).stretch rSqrt 100 .cura (StretchRepo.default 1) (fun _ => .error .typeError) = .error .typeError := by decide +kernel

/-- Points in one place, and a width of zero: no division by zero. -/
example : ((loadQ [c!"; external perimeters extrusion width = 0.00mm", c!"G1 X0 Y0 ; move to first perimeter point", c!"G1 X0 Y0 E1 ; perimeter external",
    c!"G1 X0 Y0 E2 ; perimeter external", c!"G1 X3 ; x"]).stretch rSqrt 100 .slic3r (StretchRepo.default 1) noProfile).isOk = true := by decide +kernel

/-- The condition on the strength is needed: with a negative strength and a profile with a negative nozzle size two points in one place are divided by
their distance. -/
theorem C147_negative_refuted : ∃ data : List Str, GCode.load qEnv data = .ok (loadQ data) ∧
    (loadQ data).stretch rSqrt 100 .cura (StretchRepo.default (-1)) (fun _ => .ok (some (-1))) = .error .zeroDivision :=
  ⟨[c!";CURA_PROFILE_STRING:", c!"G1 X0 Y0", c!";TYPE:WALL-OUTER", c!"G1 X1 Y0 E1", c!"G1 X1 Y0 E2", c!"G1 X0 Y1 E3", c!";TYPE:FILL", c!"G1 X5"], by decide +kernel⟩

end GCodeUtils
