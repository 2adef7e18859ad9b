import Verif.Lemmas.ElsewhereRun

/-
  The stretching pass on a program and the same program at another place of the bed.
-/

set_option linter.unusedSectionVars false

namespace GCodeUtils

open Spec

variable {α : Type} [Field α] [LinearOrder α] [IsStrictOrderedRing α] [FloorRing α]

theorem SameEnd.outcomes {β γ : Type} {R : β → γ → Prop} {x : Except Err β} {y : Except Err γ} (h : SameEnd R x y) :
    (∃ e, x = .error e ∧ y = .error e) ∨ ∃ a b, x = .ok a ∧ y = .ok b ∧ R a b := by
  cases x with
  | error e =>
    cases y with
    | error e' => exact .inl ⟨e, rfl, by rw [show e = e' from h]⟩
    | ok b => exact False.elim h
  | ok a =>
    cases y with
    | error e' => exact False.elim h
    | ok b => exact .inr ⟨a, b, rfl, rfl, h⟩

/-! ### points -/

/-- A point of the shifted program. -/
def Cx.shift (dx dy : α) (p : Cx α) : Cx α := ⟨p.re + dx, p.im + dy⟩

theorem Cx.sub_shift (dx dy : α) (p q : Cx α) : (p.shift dx dy).sub (q.shift dx dy) = p.sub q := by
  simp only [Cx.shift, Cx.sub, add_sub_add_right_eq_sub]

theorem Shift.both {dx dy : α} {l l' : PyLine α} (h : Shift dx dy l l') (hx : isXYMove l = true) :
    ArgShift dx dy l l' ∧ (∃ x y, l.x = some x ∧ l.y = some y ∧ l'.x = some (x + dx) ∧ l'.y = some (y + dy)) ∧
    ∃ n, l.command = some ('G' :: n) ∧ numLen n = n.length := by
  cases h with
  | kept r s h1 h2 hs hn hnl hp hcmd ha hxy => exact absurd ((isXYMove_iff l).1 hx) hxy
  | moved n hd hd' t ts ts' hn h1 h2 hne hne' hb hb' ht ht1 ht2 hts ha hcmd hx hy =>
    obtain ⟨x, ex⟩ := Option.isSome_iff_exists.1 hx
    obtain ⟨y, ey⟩ := Option.isSome_iff_exists.1 hy
    refine ⟨ha, ⟨x, y, ex, ey, by rw [ha.x, ex]; rfl, by rw [ha.y, ey]; rfl⟩, n, hcmd, by rcases hn with rfl | rfl <;> decide⟩

theorem pointOf_shift {dx dy : α} {l l' : PyLine α} (h : Shift dx dy l l') (hx : isXYMove l = true) (old old' : Option (Vec3 α)) :
    pointOf old' l' = (pointOf old l).shift dx dy := by
  obtain ⟨_, ⟨x, y, ex, ey, ex', ey'⟩, _⟩ := h.both hx
  simp only [pointOf, locationFromLine, ex, ey, ex', ey', Option.getD_some, Cx.shift]

section points

variable {dx dy : α} {ls ls' : List (PyLine α)} (sqrt : α → α) (fuel : ℕ) (d : StretchDist α)

theorem crossLimited_shift (h : List.Forall₂ (Shift dx dy) ls ls') (old old' : Option (Vec3 α)) (kind : ItKind) (start : ℤ) (loc s : Cx α) :
    crossLimited sqrt fuel d old' kind ls' start (loc.shift dx dy) s = crossLimited sqrt fuel d old kind ls start loc s := by
  unfold crossLimited
  rcases (getNext_alike (shift_reading dx dy) h fuel kind { idx := start }).outcomes with ⟨e, h1, h2⟩ | ⟨⟨l, st⟩, ⟨l', st'⟩, h1, h2, _, h3, hx⟩
  · rw [h1, h2]
    cases e <;> rfl
  · rw [h1, h2]
    simp only [pointOf_shift h3 hx old old', Cx.sub_shift]

theorem relStretchLoop_shift (h : List.Forall₂ (Shift dx dy) ls ls') (old old' : Option (Vec3 α)) (kind : ItKind) (loc : Cx α) :
    ∀ (n : ℕ) (st : ItSt) (last : Cx α) (oldTotal : α) (point : Cx α) (total : α),
    relStretchLoop sqrt fuel d old' kind ls' (loc.shift dx dy) n st (last.shift dx dy) oldTotal (point.shift dx dy) total =
      relStretchLoop sqrt fuel d old kind ls loc n st last oldTotal point total := by
  intro n
  induction n with
  | zero => intros; rfl
  | succ n ih =>
    intro st last oldTotal point total
    unfold relStretchLoop
    rcases (getNext_alike (shift_reading dx dy) h fuel kind st).outcomes with ⟨e, h1, h2⟩ | ⟨⟨l, st1⟩, ⟨l', st1'⟩, h1, h2, e, h3, hx⟩
    · rw [h1, h2]
      cases e <;> simp only [Cx.sub_shift]
    · simp only at e
      subst e
      rw [h1, h2]
      simp only [pointOf_shift h3 hx old old', Cx.sub_shift, ih]
      have key : ∀ r : α, (Cx.smul r ((pointOf old l).shift dx dy)).add (Cx.smul (1 - r) (last.shift dx dy)) =
          ((Cx.smul r (pointOf old l)).add (Cx.smul (1 - r) last)).shift dx dy := by
        intro r
        simp only [Cx.smul, Cx.add, Cx.shift, Cx.mk.injEq]
        constructor <;> ring
      simp only [key, Cx.sub_shift]

theorem displacement_shift (h : List.Forall₂ (Shift dx dy) ls ls') (old old' : Option (Vec3 α)) (kf kb : ItKind) (n : ℕ) (tmax : α) (loc : Cx α) :
    displacement sqrt fuel d old' kf kb ls' n tmax (loc.shift dx dy) = displacement sqrt fuel d old kf kb ls n tmax loc := by
  unfold displacement relStretch
  simp only [relStretchLoop_shift sqrt fuel d h old old', crossLimited_shift sqrt fuel d h old old']

end points

/-! ### lines -/

/-- The states of the two runs: only the last place may differ. -/
structure StretchRel (s s' : StretchSt α) : Prop where
  dist : s'.dist = s.dist
  isLoop : s'.isLoop = s.isLoop
  feed : s'.feed = s.feed
  tmax : s'.tmax = s.tmax

theorem loopSwitch_shift {dx dy : α} {s s' : StretchSt α} (h : StretchRel s s') {l l' : PyLine α} (hl : Shift dx dy l l') :
    SameEnd StretchRel (loopSwitch s l) (loopSwitch s' l') := by
  obtain ⟨h1, h2, h3, h4⟩ := h
  unfold loopSwitch
  simp only [marked_alike (shift_reading dx dy) hl (m := innerEdgeMarker) rfl, marked_alike (shift_reading dx dy) hl (m := outerEdgeMarker) rfl,
    marked_alike (shift_reading dx dy) hl (m := loopStartMarker) rfl, marked_alike (shift_reading dx dy) hl (m := loopStopMarker) rfl, h1]
  have enter : ∀ f : StretchDist α → α, SameEnd StretchRel
      (match s.dist with | none => (.error .attributeError : Except Err (StretchSt α)) | some d => .ok { s with isLoop := true, tmax := f d })
      (match s.dist with | none => (.error .attributeError : Except Err (StretchSt α)) | some d => .ok { s' with isLoop := true, tmax := f d, dist := s.dist }) := by
    intro f
    generalize s.dist = q
    cases q with
    | none => exact rfl
    | some d => exact ⟨rfl, rfl, h3, rfl⟩
  by_cases c1 : marked innerEdgeMarker l = true
  · rw [if_pos c1, if_pos c1]; exact enter _
  rw [if_neg c1, if_neg c1]
  by_cases c2 : marked outerEdgeMarker l = true
  · rw [if_pos c2, if_pos c2]; exact enter _
  rw [if_neg c2, if_neg c2]
  by_cases c3 : marked loopStartMarker l = true
  · rw [if_pos c3, if_pos c3]; exact enter _
  rw [if_neg c3, if_neg c3]
  by_cases c4 : marked loopStopMarker l = true
  · rw [if_pos c4, if_pos c4]; exact ⟨rfl, rfl, h3, rfl⟩
  · rw [if_neg c4, if_neg c4]; exact ⟨h1, h2, h3, h4⟩

theorem fixedVal_near (d : ℕ) (a : α) : |fixedVal d a - a| ≤ 1 / (2 * 10 ^ d) := by
  have := within_fixed d (some a)
  rw [abs_sub_comm]
  simpa [Within] using this

theorem fixedVal_shift (a t : α) : |fixedVal 3 (a + t) - (fixedVal 3 a + t)| ≤ 1 / 1000 := by
  have h1 := abs_le.1 (fixedVal_near 3 (a + t))
  have h2 := abs_le.1 (fixedVal_near 3 a)
  have e : (1 : α) / (2 * 10 ^ 3) = 1 / 2000 := by norm_num
  rw [e] at h1 h2
  rw [abs_le]
  constructor <;> linarith [h1.1, h1.2, h2.1, h2.2]

theorem Shift.upTo {dx dy tol : α} (ht : 0 ≤ tol) {l l' : PyLine α} (h : Shift dx dy l l') : ElsewhereUpTo tol dx dy l l' := by
  by_cases hx : isXYMove l = true
  · obtain ⟨ha, ⟨x, y, ex, ey, ex', ey'⟩, _⟩ := h.both hx
    exact .inr ⟨(isXYMove_iff l).1 hx, ha.command, ha.z, ha.e, ha.f, x, y, _, _, ex, ey, ex', ey', by simpa using ht, by simpa using ht⟩
  · cases h with
    | kept r s h1 h2 hs hn hnl hp hcmd ha hxy => exact .inl ⟨by rw [h1, h2], hxy⟩
    | moved n hd hd' t ts ts' hn h1 h2 hne hne' hb hb' ht ht1 ht2 hts ha hcmd hx' hy =>
      refine absurd ?_ hx
      rw [isXYMove_iff]
      refine ⟨?_, .inl fun k => by rw [k] at hx'; cases hx'⟩
      rcases hn with rfl | rfl
      · exact .inl hcmd
      · exact .inr hcmd

/-- What is put in place of a line: the line itself, or a new line. -/
def StretchedAlike (dx dy : α) (p q : StretchSt α × PyLine α × Bool) : Prop :=
  StretchRel p.1 q.1 ∧ q.2.2 = p.2.2 ∧ (p.2.2 = true → Shift dx dy p.2.1 q.2.1) ∧
    (p.2.2 = false → ∃ r r', reparse p.2.1 = .ok r ∧ reparse q.2.1 = .ok r' ∧ ElsewhereUpTo (1 / 1000) dx dy r r')

section lines

variable {dx dy : α} {ls ls' : List (PyLine α)} (sqrt : α → α) (fuel : ℕ)

theorem stretchedLine_shift (h : List.Forall₂ (Shift dx dy) ls ls') (d : StretchDist α) (old old' : Option (Vec3 α)) (kf kb : ItKind) (n : ℕ)
    (tmax feed : α) {l l' : PyLine α} (hl : Shift dx dy l l') (hx : isXYMove l = true) (o o' : Option (Vec3 α)) :
    SameEnd (fun p q => ∃ r r', reparse p = .ok r ∧ reparse q = .ok r' ∧ ElsewhereUpTo (1 / 1000) dx dy r r')
      (stretchedLine sqrt fuel d old kf kb ls n tmax feed (locationFromLine o l) l)
      (stretchedLine sqrt fuel d old' kf kb ls' n tmax feed (locationFromLine o' l') l') := by
  obtain ⟨ha, ⟨x, y, ex, ey, ex', ey'⟩, nn, hc, hnn⟩ := hl.both hx
  have lx : (locationFromLine o l).x = x := by simp [locationFromLine, ex]
  have ly : (locationFromLine o l).y = y := by simp [locationFromLine, ey]
  have lx' : (locationFromLine o' l').x = x + dx := by simp [locationFromLine, ex']
  have ly' : (locationFromLine o' l').y = y + dy := by simp [locationFromLine, ey']
  have hd := displacement_shift sqrt fuel d h old old' kf kb n tmax ⟨x, y⟩
  unfold stretchedLine
  rw [lx, ly, lx', ly']
  have e : displacement sqrt fuel d old' kf kb ls' n tmax ⟨x + dx, y + dy⟩ = displacement sqrt fuel d old kf kb ls n tmax ⟨x, y⟩ := hd
  rw [e, ha.command, ha.z, ha.e]
  cases displacement sqrt fuel d old kf kb ls n tmax ⟨x, y⟩ with
  | error er => exact rfl
  | ok a =>
    obtain ⟨m, hm⟩ : ∃ m : PyLine α, m = ({ command := l.command, x := some (x + a.re), y := some (y + a.im), z := l.z, f := some feed, e := l.e.map (fun e => e * (1 - a.abs sqrt)) } : PyLine α) := ⟨_, rfl⟩
    obtain ⟨m', hm'⟩ : ∃ m : PyLine α, m = ({ command := l.command, x := some (x + dx + a.re), y := some (y + dy + a.im), z := l.z, f := some feed, e := l.e.map (fun e => e * (1 - a.abs sqrt)) } : PyLine α) := ⟨_, rfl⟩
    simp only [bind, Except.bind]
    rw [← hm, ← hm']
    have hmc : m.command = some ('G' :: nn) := by rw [hm]; exact hc
    have hmc' : m'.command = some ('G' :: nn) := by rw [hm']; exact hc
    refine ⟨_, _, reparse_unsplit m nn hmc hnn, reparse_unsplit m' nn hmc' hnn, .inr ⟨?_, ?_, ?_, ?_, ?_, ?_⟩⟩
    · refine ⟨?_, .inl ?_⟩
      · have h3 := ((isXYMove_iff l).1 hx).1
        rw [hc] at h3
        exact h3
      · rw [hm]; simp [reread]
    · rfl
    · rw [hm, hm']; simp [reread, unsplit]
    · rw [hm, hm']; simp [reread, unsplit]
    · rw [hm, hm']; simp [reread, unsplit]
    · refine ⟨fixedVal 3 (x + a.re), fixedVal 3 (y + a.im), fixedVal 3 (x + dx + a.re), fixedVal 3 (y + dy + a.im), ?_, ?_, ?_, ?_, ?_, ?_⟩
      · rw [hm]; simp [reread]
      · rw [hm]; simp [reread]
      · rw [hm']; simp [reread]
      · rw [hm']; simp [reread]
      · rw [show x + dx + a.re = x + a.re + dx by ring]; exact fixedVal_shift _ _
      · rw [show y + dy + a.im = y + a.im + dy by ring]; exact fixedVal_shift _ _

theorem stretchLine_shift (h : List.Forall₂ (Shift dx dy) ls ls') (kf kb : ItKind) (n : ℕ) {s s' : StretchSt α} (hs : StretchRel s s')
    {l l' : PyLine α} (hl : Shift dx dy l l') (hx : isXYMove l = true) :
    SameEnd (StretchedAlike dx dy) (stretchLine sqrt fuel kf kb ls n s l) (stretchLine sqrt fuel kf kb ls' n s' l') := by
  obtain ⟨h1, h2, h3, h4⟩ := hs
  obtain ⟨ha, _, _⟩ := hl.both hx
  unfold stretchLine
  simp only [ha.f, h1, h3, h4]
  cases l.f <;> simp only <;>
  · by_cases ht : 0 < s.tmax
    · rw [if_pos ht, if_pos ht]
      cases hd : s.dist with
      | none => exact rfl
      | some d =>
        simp only
        rcases (stretchedLine_shift sqrt fuel h d (some (locationFromLine s.old l)) (some (locationFromLine s'.old l')) kf kb n s.tmax _ hl hx s.old s'.old).outcomes
          with ⟨e, k1, k2⟩ | ⟨r, r', k1, k2, k3⟩
        · rw [k1, k2]; exact rfl
        · rw [k1, k2]
          exact ⟨⟨rfl, h2, rfl, rfl⟩, rfl, fun k => (by cases k), fun _ => k3⟩
    · rw [if_neg ht, if_neg ht]
      exact ⟨⟨rfl, h2, rfl, rfl⟩, rfl, fun _ => hl, fun k => by cases k⟩

theorem stretchParseLine_shift (h : List.Forall₂ (Shift dx dy) ls ls') (kf kb : ItKind) (n : ℕ) {s s' : StretchSt α} (hs : StretchRel s s')
    {l l' : PyLine α} (hl : Shift dx dy l l') :
    SameEnd (StretchedAlike dx dy) (stretchParseLine sqrt fuel kf kb ls n s l) (stretchParseLine sqrt fuel kf kb ls' n s' l') := by
  unfold stretchParseLine
  rcases (loopSwitch_shift hs hl).outcomes with ⟨e, k1, k2⟩ | ⟨t, t', k1, k2, k3⟩
  · rw [k1, k2]; exact rfl
  · rw [k1, k2]
    simp only [hl.xyMove, k3.isLoop]
    by_cases hb : (isXYMove l && t.isLoop) = true
    · rw [if_pos hb, if_pos hb]
      rw [Bool.and_eq_true] at hb
      exact stretchLine_shift sqrt fuel h kf kb n k3 hl hb.1
    · rw [if_neg hb, if_neg hb]
      exact ⟨k3, rfl, fun _ => hl, fun k => by cases k⟩

theorem forall₂_set {β γ : Type} {R : β → γ → Prop} {a : List β} {b : List γ} (h : List.Forall₂ R a b) {x : β} {y : γ} (hxy : R x y) :
    ∀ n, List.Forall₂ R (a.set n x) (b.set n y) := by
  induction h with
  | nil => intro n; exact .nil
  | cons h1 hr ih =>
    intro n
    cases n with
    | zero => exact .cons hxy hr
    | succ n => exact .cons h1 (ih n)

theorem stretchLayer_shift (kf kb : ItKind) {todo todo' : List (PyLine α)} (ht : List.Forall₂ (Shift dx dy) todo todo') :
    ∀ {s s' : StretchSt α}, StretchRel s s' → ∀ {cur cur' : List (PyLine α)}, List.Forall₂ (Shift dx dy) cur cur' → ∀ n : ℕ,
    SameEnd (fun p q => StretchRel p.1 q.1 ∧ List.Forall₂ (ElsewhereUpTo (1 / 1000) dx dy) p.2 q.2)
      (stretchLayer sqrt fuel kf kb s cur n todo) (stretchLayer sqrt fuel kf kb s' cur' n todo') := by
  induction ht with
  | nil => intro s s' hs cur cur' _ n; exact ⟨hs, .nil⟩
  | @cons l l' rest rest' hl hr ih =>
    intro s s' hs cur cur' hcur n
    unfold stretchLayer
    rcases (stretchParseLine_shift sqrt fuel hcur kf kb n hs hl).outcomes with ⟨e, k1, k2⟩ | ⟨⟨t, r, b⟩, ⟨t', r', b'⟩, k1, k2, k3, k4, k5, k6⟩
    · rw [k1, k2]; exact rfl
    · rw [k1, k2]
      simp only at k3 k4 k5 k6 ⊢
      subst k4
      have hre : SameEnd (fun p q => ElsewhereUpTo (1 / 1000) dx dy p q ∧ (b' = true → Shift dx dy p q)) (reparse r) (reparse r') := by
        cases b' with
        | true => exact (reparse_shift (k5 rfl)).mono fun a b h => ⟨h.upTo (by positivity), fun _ => h⟩
        | false =>
          obtain ⟨q, q', e1, e2, e3⟩ := k6 rfl
          rw [e1, e2]
          exact ⟨e3, fun k => by cases k⟩
      rcases hre.outcomes with ⟨e, j1, j2⟩ | ⟨q, q', j1, j2, j3, j4⟩
      · rw [j1, j2]; exact rfl
      · rw [j1, j2]
        simp only
        have hcur1 : List.Forall₂ (Shift dx dy) (if b' = true then cur.set n q else cur) (if b' = true then cur'.set n q' else cur') := by
          by_cases hb : b' = true
          · rw [if_pos hb, if_pos hb]; exact forall₂_set hcur (j4 hb) n
          · rw [if_neg hb, if_neg hb]; exact hcur
        rcases (ih k3 hcur1 (n + 1)).outcomes with ⟨e, i1, i2⟩ | ⟨⟨u, o⟩, ⟨u', o'⟩, i1, i2, i3, i4⟩
        · rw [i1, i2]; exact rfl
        · rw [i1, i2]; exact ⟨i3, .cons j3 i4⟩

theorem stretchLayers_shift (kf kb : ItKind) {Ls Ls' : List (Layer α)} (h : LayersShift dx dy Ls Ls') :
    ∀ {s s' : StretchSt α}, StretchRel s s' →
    SameEnd (fun p q => StretchRel p.1 q.1 ∧ List.Forall₂ (fun L L' => List.Forall₂ (ElsewhereUpTo (1 / 1000) dx dy) L.lines L'.lines) p.2 q.2)
      (stretchLayers sqrt fuel kf kb s Ls) (stretchLayers sqrt fuel kf kb s' Ls') := by
  unfold LayersShift LinesAlike at h
  induction h with
  | nil => intro s s' hs; exact ⟨hs, .nil⟩
  | @cons L L' rest rest' hl hr ih =>
    intro s s' hs
    unfold stretchLayers
    rcases (stretchLayer_shift sqrt fuel kf kb hl hs hl 0).outcomes with ⟨e, k1, k2⟩ | ⟨⟨t, r⟩, ⟨t', r'⟩, k1, k2, k3, k4⟩
    · rw [k1, k2]; exact rfl
    · rw [k1, k2]
      simp only at k3 k4 ⊢
      rcases (ih k3).outcomes with ⟨e, i1, i2⟩ | ⟨⟨u, o⟩, ⟨u', o'⟩, i1, i2, i3, i4⟩
      · rw [i1, i2]; exact rfl
      · rw [i1, i2]; exact ⟨i3, .cons k4 i4⟩

theorem stretch_shift (slicer : Slicer) (repo : StretchRepo α) (profile : ProfileOracle α) {g g' : GCode α}
    (h : LayersShift dx dy g.allLayers g'.allLayers) :
    SameEnd (fun p q => List.Forall₂ (fun L L' => List.Forall₂ (ElsewhereUpTo (1 / 1000) dx dy) L.lines L'.lines) p.allLayers q.allLayers)
      (g.stretch sqrt fuel slicer repo profile) (g'.stretch sqrt fuel slicer repo profile) := by
  unfold GCode.stretch
  rcases (setupFilter_alike (shift_reading dx dy) slicer repo profile h).outcomes with ⟨e, k1, k2⟩ | ⟨⟨d, Ls⟩, ⟨d', Ls'⟩, k1, k2, k3, k4⟩
  · rw [k1, k2]; exact rfl
  · simp only at k3 k4
    subst k3
    rw [k1, k2]
    simp only
    rcases (stretchLayers_shift sqrt fuel slicer.forward slicer.backward k4 (s := { StretchSt.init with dist := d' })
      (s' := { StretchSt.init with dist := d' }) ⟨rfl, rfl, rfl, rfl⟩).outcomes with ⟨e, i1, i2⟩ | ⟨⟨u, o⟩, ⟨u', o'⟩, i1, i2, i3, i4⟩
    · rw [i1, i2]; exact rfl
    · rw [i1, i2]; exact i4

end lines

end GCodeUtils
