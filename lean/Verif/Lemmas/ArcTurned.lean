import Verif.Lemmas.ArcElsewhere
import Verif.Lemmas.ArcReal
import Verif.Lemmas.Turned
import Verif.Spec.ArcTurned

/-
  The circle fit of the arc optimiser on turned points.
-/

set_option linter.unusedSectionVars false

namespace GCodeUtils

open Spec

variable {α : Type} [Field α] [LinearOrder α] [IsStrictOrderedRing α] [FloorRing α]

/-- A point after the turn. -/
def turnPt (T : Turn) (p : α × α) : α × α := (T.x p.1 p.2, T.y p.1 p.2)

/-- A circle after the turn, with a given direction. -/
def turnCircle (T : Turn) (c : Circle α) (d : α) : Circle α :=
  { radius := c.radius, cx := T.x c.cx c.cy, cy := T.y c.cx c.cy, direction := d
    startX := T.x c.startX c.startY, startY := T.y c.startX c.startY, endX := T.x c.endX c.endY, endY := T.y c.endX c.endY }

theorem sumOf_turn (T : Turn) (pts : List (α × α)) (f' f : α → α → α) (s : α) (h : ∀ x y, f' (T.x x y) (T.y x y) = s * f x y) :
    sumOf (pts.map (turnPt T)) f' = s * sumOf pts f := by
  unfold sumOf
  induction pts with
  | nil => simp
  | cons p pts ih =>
    simp only [List.map_cons, List.sum_cons, ih, mul_add]
    rw [show f' (turnPt T p).1 (turnPt T p).2 = s * f p.1 p.2 from h _ _]

theorem amplitude_turn (t : Trig α) (T : Turn) (a b c d : α) : amplitude t (T.x a b - T.x c d) (T.y a b - T.y c d) = amplitude t (a - c) (b - d) := by
  obtain ⟨sw, nx, ny⟩ := T
  unfold amplitude Turn.x Turn.y
  congr 1
  simp only
  rcases sign_cases (α := α) nx with h | h <;> rcases sign_cases (α := α) ny with h' | h' <;> rw [h, h'] <;> cases sw <;>
    simp only [if_true, Bool.false_eq_true, if_false] <;> ring

theorem leastSquares_turn (t : Trig α) (T : Turn) (pts : List (α × α)) :
    SameEnd (fun o o' => (o = none ∧ o' = none) ∨ ∃ c c' p0 p2, o = some c ∧ o' = some c' ∧ pts[0]? = some p0 ∧ pts[2]? = some p2 ∧
        c' = turnCircle T c (phaseDiff t (t.phase (T.x p2.1 p2.2 - T.x c.cx c.cy) (T.y p2.1 p2.2 - T.y c.cx c.cy))
          (t.phase (T.x p0.1 p0.2 - T.x c.cx c.cy) (T.y p0.1 p0.2 - T.y c.cx c.cy))) ∧
        c.direction = phaseDiff t (t.phase (p2.1 - c.cx) (p2.2 - c.cy)) (t.phase (p0.1 - c.cx) (p0.2 - c.cy)))
      (leastSquares t pts) (leastSquares t (pts.map (turnPt T))) := by
  by_cases hn : (pts.length : α) = 0
  · have : leastSquares t pts = .error .zeroDivision := by
      unfold leastSquares; simp only [divE, if_pos hn]
    have h' : leastSquares t (pts.map (turnPt T)) = .error .zeroDivision := by
      unfold leastSquares; simp only [divE, List.length_map, if_pos hn]
    rw [this, h']
    exact rfl
  obtain ⟨xbar, hxb⟩ : ∃ v, sumOf pts (fun x _ => x) / pts.length = v := ⟨_, rfl⟩
  obtain ⟨ybar, hyb⟩ : ∃ v, sumOf pts (fun _ y => y) / pts.length = v := ⟨_, rfl⟩
  have ex0 : divE (sumOf pts (fun x _ => x)) (pts.length : α) = .ok xbar := by rw [divE, if_neg hn, hxb]
  have ey0 : divE (sumOf pts (fun _ y => y)) (pts.length : α) = .ok ybar := by rw [divE, if_neg hn, hyb]
  have ex : divE (sumOf (pts.map (turnPt T)) (fun x _ => x)) (pts.length : α) = .ok (T.x xbar ybar) := by
    rw [divE, if_neg hn, ← hxb, ← hyb]
    unfold Turn.x
    by_cases hs : T.swap = true
    · rw [if_pos hs, sumOf_turn T pts _ (fun _ y => y) (sign α T.negX) (fun x y => by unfold Turn.x; rw [if_pos hs]), mul_div_assoc]
    · rw [if_neg hs, sumOf_turn T pts _ (fun x _ => x) (sign α T.negX) (fun x y => by unfold Turn.x; rw [if_neg hs]), mul_div_assoc]
  have ey : divE (sumOf (pts.map (turnPt T)) (fun _ y => y)) (pts.length : α) = .ok (T.y xbar ybar) := by
    rw [divE, if_neg hn, ← hxb, ← hyb]
    unfold Turn.y
    by_cases hs : T.swap = true
    · rw [if_pos hs, sumOf_turn T pts _ (fun x _ => x) (sign α T.negY) (fun x y => by unfold Turn.y; rw [if_pos hs]), mul_div_assoc]
    · rw [if_neg hs, sumOf_turn T pts _ (fun _ y => y) (sign α T.negY) (fun x y => by unfold Turn.y; rw [if_neg hs]), mul_div_assoc]
  unfold leastSquares
  simp only [List.length_map, ex, ey, ex0, ey0]
  clear ex ey ex0 ey0 hxb hyb
  obtain ⟨sw, nx, ny⟩ := T
  -- the sums
  obtain ⟨sx, hsx⟩ : ∃ v, sign α nx = v := ⟨_, rfl⟩
  obtain ⟨sy, hsy⟩ : ∃ v, sign α ny = v := ⟨_, rfl⟩
  have cx : sx = 1 ∨ sx = -1 := hsx ▸ sign_cases nx
  have cy : sy = 1 ∨ sy = -1 := hsy ▸ sign_cases ny
  cases sw with
  | false =>
    have tx : ∀ x y : α, Turn.x ⟨false, nx, ny⟩ x y = sx * x := fun x y => by simp [Turn.x, hsx]
    have ty : ∀ x y : α, Turn.y ⟨false, nx, ny⟩ x y = sy * y := fun x y => by simp [Turn.y, hsy]
    have e := sumOf_turn (α := α) ⟨false, nx, ny⟩ pts
    simp only [tx, ty] at e ⊢
    rw [e (fun x _ => (x - sx * xbar) * (x - sx * xbar)) (fun x _ => (x - xbar) * (x - xbar)) 1 (fun x y => by rcases cx with rfl | rfl <;> ring),
      e (fun _ y => (y - sy * ybar) * (y - sy * ybar)) (fun _ y => (y - ybar) * (y - ybar)) 1 (fun x y => by rcases cy with rfl | rfl <;> ring),
      e (fun x _ => (x - sx * xbar) * (x - sx * xbar) * (x - sx * xbar)) (fun x _ => (x - xbar) * (x - xbar) * (x - xbar)) sx
        (fun x y => by rcases cx with rfl | rfl <;> ring),
      e (fun _ y => (y - sy * ybar) * (y - sy * ybar) * (y - sy * ybar)) (fun _ y => (y - ybar) * (y - ybar) * (y - ybar)) sy
        (fun x y => by rcases cy with rfl | rfl <;> ring),
      e (fun x y => (x - sx * xbar) * (y - sy * ybar) * (y - sy * ybar)) (fun x y => (x - xbar) * (y - ybar) * (y - ybar)) sx
        (fun x y => by rcases cy with rfl | rfl <;> ring),
      e (fun x y => (y - sy * ybar) * (x - sx * xbar) * (x - sx * xbar)) (fun x y => (y - ybar) * (x - xbar) * (x - xbar)) sy
        (fun x y => by rcases cx with rfl | rfl <;> ring),
      e (fun x y => (x - sx * xbar) * (y - sy * ybar)) (fun x y => (x - xbar) * (y - ybar)) (sx * sy) (fun x y => by ring)]
    simp only [one_mul]
    generalize sumOf pts (fun x _ => (x - xbar) * (x - xbar)) = suu
    generalize sumOf pts (fun _ y => (y - ybar) * (y - ybar)) = svv
    generalize sumOf pts (fun x _ => (x - xbar) * (x - xbar) * (x - xbar)) = suuu
    generalize sumOf pts (fun _ y => (y - ybar) * (y - ybar) * (y - ybar)) = svvv
    generalize sumOf pts (fun x y => (x - xbar) * (y - ybar) * (y - ybar)) = suvv
    generalize sumOf pts (fun x y => (y - ybar) * (x - xbar) * (x - xbar)) = svuu
    generalize sumOf pts (fun x y => (x - xbar) * (y - ybar)) = suv
    by_cases hs : suu < arcEpsilon ∨ svv < arcEpsilon
    · rw [if_pos hs, if_pos hs]; exact .inl ⟨rfl, rfl⟩
    rw [if_neg hs, if_neg hs]
    have hd : -(sx * sy * suv * (sx * sy * suv)) / suu + svv = -(suv * suv) / suu + svv := by
      rcases cx with rfl | rfl <;> rcases cy with rfl | rfl <;> ring
    have hv : divE ((sy * svvv + sy * svuu) / 2 - sx * sy * suv / 2 * ((sx * suuu + sx * suvv) / suu)) (-(sx * sy * suv * (sx * sy * suv)) / suu + svv) =
        (divE ((svvv + svuu) / 2 - suv / 2 * ((suuu + suvv) / suu)) (-(suv * suv) / suu + svv)).map (sy * ·) := by
      rw [hd]
      unfold divE
      split_ifs
      · rfl
      · show Except.ok _ = Except.ok _
        congr 1
        rcases cx with rfl | rfl <;> rcases cy with rfl | rfl <;> ring
    rw [hv]
    cases divE ((svvv + svuu) / 2 - suv / 2 * ((suuu + suvv) / suu)) (-(suv * suv) / suu + svv) with
    | error e => exact rfl
    | ok v =>
      simp only [Except.map, List.getElem?_map, List.getLast?_map]
      have hu : ((sx * suuu + sx * suvv) / 2 - sy * v * (sx * sy * suv)) / suu = sx * (((suuu + suvv) / 2 - v * suv) / suu) := by
        rcases cx with rfl | rfl <;> rcases cy with rfl | rfl <;> ring
      rw [hu]
      generalize ((suuu + suvv) / 2 - v * suv) / suu = u
      have hr : sx * u * (sx * u) + sy * v * (sy * v) = u * u + v * v := by
        rcases cx with rfl | rfl <;> rcases cy with rfl | rfl <;> ring
      rw [hr]
      cases pts[0]? with
      | none => exact rfl
      | some p0 =>
        cases pts[2]? with
        | none => exact rfl
        | some p2 =>
          cases pts.getLast? with
          | none => exact rfl
          | some pl =>
            refine .inr ⟨_, _, p0, p2, rfl, rfl, rfl, rfl, ?_, rfl⟩
            simp only [turnCircle, turnPt, tx, ty, mul_add]
  | true =>
    have tx : ∀ x y : α, Turn.x ⟨true, nx, ny⟩ x y = sx * y := fun x y => by simp [Turn.x, hsx]
    have ty : ∀ x y : α, Turn.y ⟨true, nx, ny⟩ x y = sy * x := fun x y => by simp [Turn.y, hsy]
    have e := sumOf_turn (α := α) ⟨true, nx, ny⟩ pts
    simp only [tx, ty] at e ⊢
    rw [e (fun x _ => (x - sx * ybar) * (x - sx * ybar)) (fun _ y => (y - ybar) * (y - ybar)) 1 (fun x y => by rcases cx with rfl | rfl <;> ring),
      e (fun _ y => (y - sy * xbar) * (y - sy * xbar)) (fun x _ => (x - xbar) * (x - xbar)) 1 (fun x y => by rcases cy with rfl | rfl <;> ring),
      e (fun x _ => (x - sx * ybar) * (x - sx * ybar) * (x - sx * ybar)) (fun _ y => (y - ybar) * (y - ybar) * (y - ybar)) sx
        (fun x y => by rcases cx with rfl | rfl <;> ring),
      e (fun _ y => (y - sy * xbar) * (y - sy * xbar) * (y - sy * xbar)) (fun x _ => (x - xbar) * (x - xbar) * (x - xbar)) sy
        (fun x y => by rcases cy with rfl | rfl <;> ring),
      e (fun x y => (x - sx * ybar) * (y - sy * xbar) * (y - sy * xbar)) (fun x y => (y - ybar) * (x - xbar) * (x - xbar)) sx
        (fun x y => by rcases cy with rfl | rfl <;> ring),
      e (fun x y => (y - sy * xbar) * (x - sx * ybar) * (x - sx * ybar)) (fun x y => (x - xbar) * (y - ybar) * (y - ybar)) sy
        (fun x y => by rcases cx with rfl | rfl <;> ring),
      e (fun x y => (x - sx * ybar) * (y - sy * xbar)) (fun x y => (x - xbar) * (y - ybar)) (sx * sy) (fun x y => by ring)]
    simp only [one_mul]
    generalize sumOf pts (fun x _ => (x - xbar) * (x - xbar)) = suu
    generalize sumOf pts (fun _ y => (y - ybar) * (y - ybar)) = svv
    generalize sumOf pts (fun x _ => (x - xbar) * (x - xbar) * (x - xbar)) = suuu
    generalize sumOf pts (fun _ y => (y - ybar) * (y - ybar) * (y - ybar)) = svvv
    generalize sumOf pts (fun x y => (x - xbar) * (y - ybar) * (y - ybar)) = suvv
    generalize sumOf pts (fun x y => (y - ybar) * (x - xbar) * (x - xbar)) = svuu
    generalize sumOf pts (fun x y => (x - xbar) * (y - ybar)) = suv
    by_cases hs : suu < arcEpsilon ∨ svv < arcEpsilon
    · rw [if_pos hs, if_pos hs.symm]; exact .inl ⟨rfl, rfl⟩
    rw [if_neg hs, if_neg (fun h => hs h.symm)]
    have hpos : (0 : α) < arcEpsilon := by unfold arcEpsilon; positivity
    have hu0 : suu ≠ 0 := by rintro rfl; exact hs (.inl hpos)
    have hv0 : svv ≠ 0 := by rintro rfl; exact hs (.inr hpos)
    have s2 : sx * sx = 1 ∧ sy * sy = 1 := by
      rcases cx with rfl | rfl <;> rcases cy with rfl | rfl <;> norm_num
    have hd : -(sx * sy * suv * (sx * sy * suv)) / svv + suu = (-(suv * suv) / suu + svv) * (suu / svv) := by
      have : sx * sy * suv * (sx * sy * suv) = suv * suv := by linear_combination (sy * sy * suv * suv) * s2.1 + (suv * suv) * s2.2
      rw [this]
      field_simp
    rw [hd]
    unfold divE
    by_cases hz : -(suv * suv) / suu + svv = 0
    · rw [if_pos hz, if_pos (by rw [hz, zero_mul])]
      exact rfl
    · have hq : (-(suv * suv) / suu + svv) * (suu / svv) ≠ 0 := mul_ne_zero hz (div_ne_zero hu0 hv0)
      rw [if_neg hz, if_neg hq]
      simp only [List.getElem?_map, List.getLast?_map]
      obtain ⟨v, hv⟩ : ∃ v, ((svvv + svuu) / 2 - suv / 2 * ((suuu + suvv) / suu)) / (-(suv * suv) / suu + svv) = v := ⟨_, rfl⟩
      obtain ⟨u, hu⟩ : ∃ u, ((suuu + suvv) / 2 - v * suv) / suu = u := ⟨_, rfl⟩
      have e1 : u * suu + v * suv = (suuu + suvv) / 2 := by rw [← hu]; field_simp; ring
      have e2 : u * suv + v * svv = (svvv + svuu) / 2 := by
        rw [div_eq_iff hz] at hv
        have h3 : u = ((suuu + suvv) / 2 - v * suv) / suu := hu.symm
        rw [h3]
        field_simp at hv ⊢
        linear_combination -hv
      have hv' : ((sy * suuu + sy * suvv) / 2 - sx * sy * suv / 2 * ((sx * svvv + sx * svuu) / svv)) / ((-(suv * suv) / suu + svv) * (suu / svv)) = sy * u := by
        rw [div_eq_iff hq]
        have a1 : suuu + suvv = 2 * (u * suu + v * suv) := by rw [e1]; ring
        have a2 : svvv + svuu = 2 * (u * suv + v * svv) := by rw [e2]; ring
        have l : (sy * suuu + sy * suvv) / 2 = sy * (u * suu + v * suv) := by rw [← mul_add, a1]; ring
        have r : (sx * svvv + sx * svuu) = sx * (2 * (u * suv + v * svv)) := by rw [← mul_add, a2]
        rw [l, r]
        have k : sx * sy * suv / 2 * (sx * (2 * (u * suv + v * svv)) / svv) = sy * suv * (u * suv + v * svv) / svv := by
          have : sx * sy * suv / 2 * (sx * (2 * (u * suv + v * svv)) / svv) = (sx * sx) * (sy * suv * (u * suv + v * svv) / svv) := by ring
          rw [this, s2.1, one_mul]
        rw [k]
        field_simp
        ring
      rw [hv, hu, hv']
      have hu' : ((sx * svvv + sx * svuu) / 2 - sy * u * (sx * sy * suv)) / svv = sx * v := by
        rw [div_eq_iff hv0]
        linear_combination (-sx) * e2 - (sx * u * suv) * s2.2
      rw [hu']
      have hr : sx * v * (sx * v) + sy * u * (sy * u) = u * u + v * v := by linear_combination (v * v) * s2.1 + (u * u) * s2.2
      rw [hr, add_comm svv suu]
      cases pts[0]? with
      | none => exact rfl
      | some p0 =>
        cases pts[2]? with
        | none => exact rfl
        | some p2 =>
          cases pts.getLast? with
          | none => exact rfl
          | some pl =>
            refine .inr ⟨_, _, p0, p2, rfl, rfl, rfl, rfl, ?_, rfl⟩
            simp only [turnCircle, turnPt, tx, ty, mul_add]

/-- The sums of angles are the same after the turn. -/
def SeenAlike (t : Trig α) (T : Turn) (pts : List (α × α)) : Prop :=
  ∀ c, leastSquares t pts = .ok (some c) → (∀ d, phaseDiffs t (turnCircle T c d) (pts.map (turnPt T)) = phaseDiffs t c pts) ∧
    ∀ p0 p2, pts[0]? = some p0 → pts[2]? = some p2 →
      phaseDiff t (t.phase (T.x p2.1 p2.2 - T.x c.cx c.cy) (T.y p2.1 p2.2 - T.y c.cx c.cy))
          (t.phase (T.x p0.1 p0.2 - T.x c.cx c.cy) (T.y p0.1 p0.2 - T.y c.cx c.cy)) =
        phaseDiff t (t.phase (p2.1 - c.cx) (p2.2 - c.cy)) (t.phase (p0.1 - c.cx) (p0.2 - c.cy))

theorem getCircle_turn (t : Trig α) (T : Turn) (pts : List (α × α)) (ha : SeenAlike t T pts) :
    SameEnd (fun p p' => p'.1 = p.1 ∧ p'.2 = p.2.map (fun c => turnCircle T c c.direction) ∧ ∀ c, p.2 = some c → leastSquares t pts = .ok (some c))
      (getCircle t pts) (getCircle t (pts.map (turnPt T))) := by
  unfold getCircle
  rcases (leastSquares_turn t T pts).outcomes with ⟨e, k1, k2⟩ | ⟨o, o', k1, k2, ⟨rfl, rfl⟩ | ⟨c, c', p0, p2, rfl, rfl, g0, g2, hc, hd⟩⟩
  · rw [k1, k2]; exact rfl
  · rw [k1, k2]; exact ⟨rfl, rfl, fun c h => by cases h⟩
  obtain ⟨a1, a2⟩ := ha c k1
  rw [a2 p0 p2 g0 g2, ← hd] at hc
  subst hc
  rw [k1, k2]
  simp only
  have hr : (turnCircle T c c.direction).radius = c.radius := rfl
  have he : radiusErrors t (turnCircle T c c.direction) (pts.map (turnPt T)) = radiusErrors t c pts := by
    unfold radiusErrors
    rw [List.map_map]
    simp only [Function.comp_def, turnPt, turnCircle, amplitude_turn]
  have hg : angleErrors t (turnCircle T c c.direction) (pts.map (turnPt T)) = angleErrors t c pts := by
    unfold angleErrors
    rw [a1]
  rw [hr, he, hg]
  have hfit : ∀ k, some c = some k → (Except.ok (some c) : Except Err (Option (Circle α))) = .ok (some k) := by
    intro k h; rw [h]
  split_ifs
  · exact ⟨rfl, rfl, hfit⟩
  · exact ⟨rfl, rfl, hfit⟩
  · split
    · exact rfl
    · exact ⟨rfl, rfl, hfit⟩

/-! ### lines -/

/-- A line as the optimiser sees it, and the same line turned. -/
structure TurnTwin (T : Turn) (Q : Str → Str → Prop) (l l' : PyLine α) : Prop where
  line : TurnedLine T l l'
  text : Q l.raw l'.raw

section lines

variable {T : Turn} {Q : Str → Str → Prop}

theorem TurnTwin.px {l l' : PyLine α} (h : TurnTwin T Q l l') : l'.currentX = T.optX l.currentX l.currentY := by rw [h.line]
theorem TurnTwin.py {l l' : PyLine α} (h : TurnTwin T Q l l') : l'.currentY = T.optY l.currentX l.currentY := by rw [h.line]
theorem TurnTwin.pz {l l' : PyLine α} (h : TurnTwin T Q l l') : l'.currentZ = l.currentZ := by rw [h.line]
theorem TurnTwin.pe {l l' : PyLine α} (h : TurnTwin T Q l l') : l'.currentE = l.currentE := by rw [h.line]
theorem TurnTwin.pf {l l' : PyLine α} (h : TurnTwin T Q l l') : l'.currentF = l.currentF := by rw [h.line]
theorem TurnTwin.e {l l' : PyLine α} (h : TurnTwin T Q l l') : l'.e = l.e := by rw [h.line]
theorem TurnTwin.relativeE {l l' : PyLine α} (h : TurnTwin T Q l l') : l'.relativeE = l.relativeE := by rw [h.line]

theorem cmd_id (hT : T.flips = false) (c : Str) : T.cmd c = c := by unfold Turn.cmd; rw [hT]; rfl

theorem TurnTwin.command (hT : T.flips = false) {l l' : PyLine α} (h : TurnTwin T Q l l') : l'.command = l.command := by
  rw [h.line]
  show l.command.map T.cmd = l.command
  cases l.command with
  | none => rfl
  | some c => rw [Option.map_some, cmd_id hT]

theorem opt_some (x y : α) : T.optX (some x) (some y) = some (T.x x y) ∧ T.optY (some x) (some y) = some (T.y x y) := by
  obtain ⟨sw, nx, ny⟩ := T
  cases sw <;> exact ⟨rfl, rfl⟩

theorem opt_none (x y : Option α) : (x = none ∨ y = none) ↔ (T.optX x y = none ∨ T.optY x y = none) := by
  obtain ⟨sw, nx, ny⟩ := T
  cases sw <;> cases x <;> cases y <;> simp [Turn.optX, Turn.optY]

theorem points_turn {q q' : List (PyLine α)} (h : List.Forall₂ (TurnTwin T Q) q q') :
    SameEnd (fun p p' => p' = p.map (turnPt T)) (points q) (points q') := by
  induction h with
  | nil => exact rfl
  | cons h _ ih =>
    unfold points
    rw [h.px, h.py]
    rename_i l _ _ _ _
    cases hx : l.currentX with
    | none =>
      have := (opt_none (T := T) (none : Option α) l.currentY).1 (.inl rfl)
      rcases this with k | k
      · rw [k]; exact rfl
      · rw [k]
        cases T.optX none l.currentY <;> exact rfl
    | some x =>
      cases hy : l.currentY with
      | none =>
        have := (opt_none (T := T) (some x) (none : Option α)).1 (.inr rfl)
        rcases this with k | k
        · rw [k]; exact rfl
        · rw [k]
          cases T.optX (some x) none <;> exact rfl
      | some y =>
        rw [(opt_some x y).1, (opt_some x y).2]
        simp only [num]
        rcases ih.outcomes with ⟨e, k1, k2⟩ | ⟨p, p', k1, k2, rfl⟩
        · rw [k1, k2]; exact rfl
        · rw [k1, k2]; exact rfl

theorem segFilament_turn {p p' l l' : PyLine α} (hp : TurnTwin T Q p p') (hl : TurnTwin T Q l l') : segFilament p' l' = segFilament p l := by
  unfold segFilament
  rw [hl.relativeE, hl.e, hl.pe, hp.pe]

theorem squares_turn (T : Turn) (a b c d : α) : (T.x a b - T.x c d) ^ 2 + (T.y a b - T.y c d) ^ 2 = (a - c) ^ 2 + (b - d) ^ 2 := by
  obtain ⟨sw, nx, ny⟩ := T
  unfold Turn.x Turn.y
  simp only
  rcases sign_cases (α := α) nx with h | h <;> rcases sign_cases (α := α) ny with h' | h' <;> rw [h, h'] <;> cases sw <;>
    simp only [if_true, Bool.false_eq_true, if_false] <;> ring

theorem segments_turn (t : Trig α) {q q' : List (PyLine α)} (h : List.Forall₂ (TurnTwin T Q) q q') : segments t q' = segments t q := by
  induction h with
  | nil => rfl
  | cons h hs ih =>
    cases hs with
    | nil => rfl
    | cons h2 hs =>
      unfold segments
      rw [ih, segFilament_turn h h2]
      rename_i p p' l l' _ _
      have key : ∀ a b c d : Option α, (a = none ∨ b = none ∨ c = none ∨ d = none) → ∀ f : α → α → α → α → Except Err (List (Seg α)),
          (match a, b, c, d with | some x, some y, some px, some py => f x y px py | _, _, _, _ => .error .typeError) = .error .typeError := by
        intro a b c d h f
        rcases h with rfl | rfl | rfl | rfl
        · rfl
        · cases a <;> rfl
        · cases a <;> cases b <;> rfl
        · cases a <;> cases b <;> cases c <;> rfl
      by_cases hn : (l.currentX = none ∨ l.currentY = none) ∨ (p.currentX = none ∨ p.currentY = none)
      · have hn' : (l'.currentX = none ∨ l'.currentY = none) ∨ (p'.currentX = none ∨ p'.currentY = none) := by
          rcases hn with k | k
          · left; rw [h2.px, h2.py]; exact (opt_none _ _).1 k
          · right; rw [h.px, h.py]; exact (opt_none _ _).1 k
        exact (key _ _ _ _ (by rcases hn' with (k | k) | k | k <;> simp only [k, true_or, or_true]) _).trans
          (key _ _ _ _ (by rcases hn with (k | k) | k | k <;> simp only [k, true_or, or_true]) _).symm
      · push Not at hn
        obtain ⟨⟨k1, k2⟩, k3, k4⟩ := hn
        obtain ⟨x, hx⟩ := Option.ne_none_iff_exists'.1 k1
        obtain ⟨y, hy⟩ := Option.ne_none_iff_exists'.1 k2
        obtain ⟨px, hpx⟩ := Option.ne_none_iff_exists'.1 k3
        obtain ⟨py, hpy⟩ := Option.ne_none_iff_exists'.1 k4
        rw [h.px, h.py, h2.px, h2.py, hx, hy, hpx, hpy, (opt_some x y).1, (opt_some x y).2, (opt_some px py).1, (opt_some px py).2]
        simp only [squares_turn]

theorem getDistances_turn (t : Trig α) {q q' : List (PyLine α)} (h : List.Forall₂ (TurnTwin T Q) q q') : getDistances t q' = getDistances t q := by
  unfold getDistances
  rw [segments_turn t h]

theorem all_turn {f : PyLine α → Bool} {q q' : List (PyLine α)} (h : List.Forall₂ (TurnTwin T Q) q q') (hf : ∀ l l', TurnTwin T Q l l' → f l' = f l) :
    q'.all f = q.all f ∧ q'.any f = q.any f := by
  induction h with
  | nil => exact ⟨rfl, rfl⟩
  | cons h _ ih =>
    simp only [List.all_cons, List.any_cons, hf _ _ h, ih.1, ih.2, and_self]

theorem uniformTail_turn {q q' : List (PyLine α)} (h : List.Forall₂ (TurnTwin T Q) q q') : uniformTail q' = uniformTail q := by
  unfold uniformTail
  cases h with
  | nil => rfl
  | cons h hs =>
    cases hs with
    | nil => rfl
    | cons h2 hs =>
      simp only [List.getElem?_cons_succ, List.getElem?_cons_zero, List.drop_succ_cons, List.drop_zero]
      have hall := List.Forall₂.cons h2 hs
      have k1 := all_turn (f := fun l : PyLine α => l.e.isSome) hall (fun l l' k => by simp only [k.e])
      rename_i q1 q1' _ _
      have k2 := all_turn (f := fun l : PyLine α => decide (l.currentF = q1.currentF)) hall (fun l l' k => by simp only [k.pf])
      have k3 := all_turn (f := fun l : PyLine α => decide (l.currentZ = q1.currentZ)) hall (fun l l' k => by simp only [k.pz])
      rw [h2.pf, h2.pz, h2.e, k1.1, k1.2, k2.1, k3.1]

theorem queueValid_turn (t : Trig α) {q q' : List (PyLine α)} (h : List.Forall₂ (TurnTwin T Q) q q') (ha : ∀ pts, points q = .ok pts → SeenAlike t T pts) :
    SameEnd (fun p p' => p'.1 = p.1) (queueValid t q) (queueValid t q') := by
  have hgo : SameEnd (fun p p' : Bool × Option (Circle α) => p'.1 = p.1)
      (match points q with | .error er => .error er | .ok pts => getCircle t pts)
      (match points q' with | .error er => .error er | .ok pts => getCircle t pts) := by
    rcases (points_turn h).outcomes with ⟨e, k1, k2⟩ | ⟨p, p', k1, k2, rfl⟩
    · rw [k1, k2]; exact rfl
    · rw [k1, k2]
      exact (getCircle_turn t T p (ha p k1)).mono fun _ _ k => k.1
  unfold queueValid
  rw [uniformTail_turn h, getDistances_turn t h]
  cases uniformTail q with
  | error e => exact rfl
  | ok b =>
    obtain ⟨b, allE⟩ := b
    cases b with
    | false => exact rfl
    | true =>
      simp only
      cases allE with
      | false => exact hgo
      | true =>
        rw [if_pos rfl, if_pos rfl]
        cases getDistances t q with
        | error e => exact rfl
        | ok d =>
          simp only
          by_cases hr : ratioOk d = true
          · rw [if_pos hr, if_pos hr]; exact hgo
          · rw [if_neg hr, if_neg hr]; exact rfl

/-! ### the generated lines -/

theorem roundEven_neg (y : α) : roundEven (-y) = -roundEven y := by
  unfold roundEven
  simp only
  by_cases hi : (⌊y⌋ : α) = y
  · have h2 : ⌊-y⌋ = -⌊y⌋ := by
      rw [Int.floor_eq_iff]; push_cast; rw [hi]; constructor <;> linarith
    rw [h2]
    push_cast
    rw [hi]
    norm_num
  · have hlt : (⌊y⌋ : α) < y := lt_of_le_of_ne (Int.floor_le y) hi
    have h1 := Int.lt_floor_add_one y
    have h2 : ⌊-y⌋ = -⌊y⌋ - 1 := by
      rw [Int.floor_eq_iff]; push_cast; constructor <;> linarith
    rw [h2]
    push_cast
    have e : -y - (-(⌊y⌋ : α) - 1) = 1 - (y - ⌊y⌋) := by ring
    rw [e]
    rcases lt_trichotomy (y - (⌊y⌋ : α)) (1 / 2) with h | h | h
    · rw [if_neg (by linarith), if_pos (by linarith), if_pos h]; ring
    · have c1 : ¬ 1 - (y - (⌊y⌋ : α)) < 1 / 2 := by linarith
      have c2 : ¬ 1 / 2 < 1 - (y - (⌊y⌋ : α)) := by linarith
      have c3 : ¬ y - (⌊y⌋ : α) < 1 / 2 := by linarith
      have c4 : ¬ 1 / 2 < y - (⌊y⌋ : α) := by linarith
      rw [if_neg c1, if_neg c2, if_neg c3, if_neg c4]
      generalize ⌊y⌋ = n
      by_cases hn : n % 2 = 0
      · have h' : ¬ (-n - 1) % 2 = 0 := by omega
        rw [if_pos hn, if_neg h']; ring
      · have h' : (-n - 1) % 2 = 0 := by omega
        rw [if_neg hn, if_pos h']; ring
    · rw [if_pos (by linarith), if_neg (by linarith), if_pos h]; ring

theorem roundAway_neg (y : α) : roundAway (-y) = -roundAway y := by
  unfold roundAway
  rcases lt_trichotomy y 0 with h | rfl | h
  · rw [if_pos (by linarith), if_neg (by linarith)]; ring
  · norm_num
  · rw [if_neg (by linarith), if_pos (by linarith)]; simp

theorem pyRound_neg (mode : RoundMode) (d : ℕ) (v : α) : pyRound mode d (-v) = -pyRound mode d v := by
  unfold pyRound
  rw [neg_mul]
  cases mode with
  | halfEven => simp only [roundInt, roundEven_neg]; push_cast; ring
  | halfAway => simp only [roundInt, roundAway_neg]; push_cast; ring

theorem pyRound_turn (T : Turn) (mode : RoundMode) (d : ℕ) (x y : α) : pyRound mode d (T.x x y) = T.x (pyRound mode d x) (pyRound mode d y) ∧
    pyRound mode d (T.y x y) = T.y (pyRound mode d x) (pyRound mode d y) := by
  obtain ⟨sw, nx, ny⟩ := T
  unfold Turn.x Turn.y
  simp only
  constructor
  · rcases sign_cases (α := α) nx with h | h <;> rw [h] <;> cases sw <;> simp [pyRound_neg]
  · rcases sign_cases (α := α) ny with h | h <;> rw [h] <;> cases sw <;> simp [pyRound_neg]

theorem turn_diff (T : Turn) (a b c d : α) : T.x a b - T.x c d = T.x (a - c) (b - d) ∧ T.y a b - T.y c d = T.y (a - c) (b - d) := by
  obtain ⟨sw, nx, ny⟩ := T
  unfold Turn.x Turn.y
  cases sw <;> simp only [if_true, Bool.false_eq_true, if_false, mul_sub, and_self]

/-- The replacements before and after the turn. -/
theorem toGcode_turn (hT : T.flips = false) (t : Trig α) {q q' : List (PyLine α)} (h : List.Forall₂ (TurnTwin T Q) q q')
    (ha : ∀ pts, points q = .ok pts → SeenAlike t T pts) (last last' : PyLine α) :
    SameEnd (fun r r' => ∃ first first' gen gen', q.head? = some first ∧ q'.head? = some first' ∧ r = first :: gen ++ [last] ∧ r' = first' :: gen' ++ [last'] ∧
      List.Forall₂ (OptimisedTurned T Q) gen gen') (toGcode t q last) (toGcode t q' last') := by
  unfold toGcode
  have hlen := h.length_eq
  cases hh : q.head? with
  | none =>
    cases q with
    | nil => cases h; exact rfl
    | cons => simp at hh
  | some first =>
    obtain ⟨first', hh', htw⟩ : ∃ first', q'.head? = some first' ∧ TurnTwin T Q first first' := by
      cases h with
      | nil => cases hh
      | cons h _ => cases hh; exact ⟨_, rfl, h⟩
    obtain ⟨lw, lw', hl, hl', htl⟩ : ∃ lw lw', q.getLast? = some lw ∧ q'.getLast? = some lw' ∧ TurnTwin T Q lw lw' := by
      have hr := List.rel_reverse h
      rw [← List.head?_reverse, ← List.head?_reverse]
      generalize q.reverse = a at hr
      generalize hb : q'.reverse = b at hr
      cases hr with
      | nil =>
        rw [List.reverse_eq_nil_iff] at hb
        subst hb
        cases hh'
      | cons h _ => exact ⟨_, _, rfl, rfl, h⟩
    rw [hh', hl, hl', getDistances_turn t h, ← hlen]
    simp only
    rcases (points_turn h).outcomes with ⟨e, k1, k2⟩ | ⟨p, p', k1, k2, rfl⟩
    · rw [k1, k2]; exact rfl
    have hal := ha p k1
    rw [k1, k2]
    simp only
    rcases (getCircle_turn t T p hal).outcomes with ⟨e, k1, k2⟩ | ⟨⟨b, c⟩, ⟨b', c'⟩, k1, k2, hb, hc, hfit⟩
    · rw [k1, k2]; exact rfl
    rw [k1, k2]
    simp only at hb hc hfit ⊢
    subst hb hc
    cases getDistances t q with
    | error e => exact rfl
    | ok d =>
      simp only
      cases c with
      | none => exact rfl
      | some c =>
        simp only [Option.map_some]
        rw [(hal c (hfit c rfl)).1, htl.relativeE, htl.pf, htl.pe, htw.pe]
        have harc : ∀ (cmd : Str) (e : Option α) (re : Option Bool) (f : Option α) (x y i j : α) (n : ℕ), (cmd = c!"G2" ∨ cmd = c!"G3") →
            OptimisedTurned T Q
              { unsplit { command := some cmd, x := some (pyRound t.mode 3 x), y := some (pyRound t.mode 3 y), i := some (pyRound t.mode 3 i), j := some (pyRound t.mode 3 j), f := f, e := e, relativeE := re } with
                raw := (unsplit ({ command := some cmd, x := some (pyRound t.mode 3 x), y := some (pyRound t.mode 3 y), i := some (pyRound t.mode 3 i), j := some (pyRound t.mode 3 j), f := f, e := e, relativeE := re } : PyLine α)).raw ++ arcComment n }
              { unsplit { command := some cmd, x := some (pyRound t.mode 3 (T.x x y)), y := some (pyRound t.mode 3 (T.y x y)), i := some (pyRound t.mode 3 (T.x i j)), j := some (pyRound t.mode 3 (T.y i j)), f := f, e := e, relativeE := re } with
                raw := (unsplit ({ command := some cmd, x := some (pyRound t.mode 3 (T.x x y)), y := some (pyRound t.mode 3 (T.y x y)), i := some (pyRound t.mode 3 (T.x i j)), j := some (pyRound t.mode 3 (T.y i j)), f := f, e := e, relativeE := re } : PyLine α)).raw ++ arcComment n } := by
          intro cmd e re f x y i j n hcmd
          refine ⟨?_, .inr (.inl ?_)⟩
          · have hn : T.optX (none : Option α) none = none ∧ T.optY (none : Option α) none = none := by
              unfold Turn.optX Turn.optY; cases T.swap <;> exact ⟨rfl, rfl⟩
            unfold TurnedLine
            simp only [unsplit, (opt_some _ _).1, (opt_some _ _).2, Option.map_some, cmd_id hT, (pyRound_turn T t.mode 3 _ _).1,
              (pyRound_turn T t.mode 3 _ _).2, hn.1, hn.2]
          · refine ⟨cmd, fmtFixed 3 (pyRound t.mode 3 x), fmtFixed 3 (pyRound t.mode 3 y), fmtFixed 3 (pyRound t.mode 3 i), fmtFixed 3 (pyRound t.mode 3 j),
              fmtFixed 3 (pyRound t.mode 3 (T.x x y)), fmtFixed 3 (pyRound t.mode 3 (T.y x y)), fmtFixed 3 (pyRound t.mode 3 (T.x i j)), fmtFixed 3 (pyRound t.mode 3 (T.y i j)),
              fmtArg 'E' 5 e ++ fmtArg 'F' 3 f, arcComment n, pyRound t.mode 3 x, pyRound t.mode 3 y, pyRound t.mode 3 i, pyRound t.mode 3 j, hcmd, ?_,
              decimal_round _ _, decimal_round _ _, decimal_round _ _, decimal_round _ _, ?_, ?_, ?_, ?_, ?_, ?_⟩
            · exact ⟨natDigits n ++ c!" segments", by simp [arcComment]⟩
            · rw [← (pyRound_turn T t.mode 3 _ _).1]; exact decimal_round _ _
            · rw [← (pyRound_turn T t.mode 3 _ _).2]; exact decimal_round _ _
            · rw [← (pyRound_turn T t.mode 3 _ _).1]; exact decimal_round _ _
            · rw [← (pyRound_turn T t.mode 3 _ _).2]; exact decimal_round _ _
            · simp [unsplit, fmtArg]
            · simp [unsplit, fmtArg]
        have hcmd : ((if 0 < c.direction then c!"G3" else c!"G2") = c!"G2" ∨ (if 0 < c.direction then c!"G3" else c!"G2") = c!"G3") := by
          split_ifs
          · exact .inr rfl
          · exact .inl rfl
        have m1 : (turnCircle T c c.direction).radius = c.radius := rfl
        have m2 : (turnCircle T c c.direction).direction = c.direction := rfl
        have m3 : (turnCircle T c c.direction).cx - (turnCircle T c c.direction).startX = T.x (c.cx - c.startX) (c.cy - c.startY) := (turn_diff _ _ _ _ _).1
        have m4 : (turnCircle T c c.direction).cy - (turnCircle T c c.direction).startY = T.y (c.cx - c.startX) (c.cy - c.startY) := (turn_diff _ _ _ _ _).2
        have m5 : (turnCircle T c c.direction).endX = T.x c.endX c.endY := rfl
        have m6 : (turnCircle T c c.direction).endY = T.y c.endX c.endY := rfl
        rw [m1, m2, m3, m4, m5, m6]
        generalize (if 0 < c.direction then c!"G3" else c!"G2") = cmd at hcmd
        by_cases hr : lw.relativeE.getD false = true
        · rw [if_pos hr, if_pos hr]
          split
          · exact rfl
          · exact ⟨first, first', [_], [_], rfl, rfl, rfl, rfl, .cons (harc _ _ _ _ _ _ _ _ _ hcmd) .nil⟩
        · rw [if_neg hr, if_neg hr]
          cases first.currentE with
          | none => exact rfl
          | some e0 =>
            cases divE ((List.map (fun a => a * c.radius) (phaseDiffs t c p)).sum * d.avgRatio) d.totalFilament with
            | error e => exact rfl
            | ok rel =>
              simp only
              by_cases hcr : correctionLimit < rel - 1
              · rw [if_pos hcr, if_pos hcr]
                refine ⟨first, first', [_, _], [_, _], rfl, rfl, rfl, rfl, .cons (harc _ _ _ _ _ _ _ _ _ hcmd) (.cons ⟨?_, .inr (.inr ⟨rfl, ?_, ?_⟩)⟩ .nil)⟩
                · have hn : T.optX (none : Option α) none = none ∧ T.optY (none : Option α) none = none := by
                    unfold Turn.optX Turn.optY; cases T.swap <;> exact ⟨rfl, rfl⟩
                  unfold TurnedLine
                  simp only [unsplit, Option.map_some, cmd_id hT, hn.1, hn.2]
                · simp [unsplit, fmtArg]
                · exact ⟨_, fmtFixed 6 rel, rfl⟩
              · rw [if_neg hcr, if_neg hcr]
                exact ⟨first, first', [_], [_], rfl, rfl, rfl, rfl, .cons (harc _ _ _ _ _ _ _ _ _ hcmd) .nil⟩

/-! ### the queue machine -/

/-- The states of the optimiser before and after the turn. -/
def QueueTurn (T : Turn) (Q : Str → Str → Prop) (s s' : ArcSt α) : Prop := List.Forall₂ (TurnTwin T Q) s.queue s'.queue ∧ s'.validCircle = s.validCircle

theorem inheritPos_turn (hT : T.flips = false) {q q' : List (PyLine α)} (h : List.Forall₂ (TurnTwin T Q) q q') {l l' : PyLine α} (hl : TurnTwin T Q l l') :
    TurnTwin T Q (inheritPos q l) (inheritPos q' l') := by
  unfold inheritPos
  rw [hl.command hT]
  cases hc : l.command with
  | some c => exact hl
  | none =>
    have hr := List.rel_reverse h
    rw [← List.head?_reverse, ← List.head?_reverse]
    generalize q.reverse = a at hr
    generalize q'.reverse = b at hr
    cases hr with
    | nil => exact hl
    | cons k _ =>
      refine ⟨?_, hl.text⟩
      have hl1 := hl.line
      unfold TurnedLine at hl1 ⊢
      rw [List.head?_cons, List.head?_cons]
      simp only [k.px, k.py, k.pz, k.pe, k.pf]
      rw [hl1]
      rfl

theorem valid_turn (t : Trig α) {q q' : List (PyLine α)} (h : List.Forall₂ (TurnTwin T Q) q q') (ha : ∀ pts, points q = .ok pts → SeenAlike t T pts) :
    (arcOps t).valid q' = (arcOps t).valid q := by
  unfold arcOps
  simp only
  rcases (queueValid_turn t h ha).outcomes with ⟨e, k1, k2⟩ | ⟨⟨a, b⟩, ⟨a', b'⟩, k1, k2, k3⟩
  · rw [k1, k2]
  · rw [k1, k2]
    simp only at k3 ⊢
    rw [k3]

theorem forall₂_kept {q q' : List (PyLine α)} (h : List.Forall₂ (TurnTwin T Q) q q') : List.Forall₂ (OptimisedTurned T Q) q q' :=
  h.imp fun _ _ k => ⟨k.line, .inl k.text⟩

/-- What is asked of the windows that the optimiser may look at, with the pending lines `q` and the lines `ls` to come. -/
def WindowsAlike (t : Trig α) (T : Turn) (q ls : List (PyLine α)) : Prop :=
  ∀ ks, Settled q.getLast? ls ks → ∀ w, w <:+: q ++ ks → 8 ≤ w.length → ∀ pts, points w = .ok pts → SeenAlike t T pts

theorem settled_any {p : Option (PyLine α)} {ls ks : List (PyLine α)} (h : Settled none ls ks) : Settled p ls ks := by
  cases h with
  | done => exact .done _
  | own _ h => exact .own _ h

theorem settled_some (p : Option (PyLine α)) (ls : List (PyLine α)) : ∃ ks, Settled p ls ks := by
  induction ls generalizing p with
  | nil => exact ⟨[], .done _⟩
  | cons l ls ih =>
    obtain ⟨ks, h⟩ := ih (some l)
    exact ⟨_, .own _ h⟩

theorem settled_inherit (q : List (PyLine α)) (l : PyLine α) {ls ks : List (PyLine α)} (h : Settled (some (inheritPos q l)) ls ks) :
    Settled q.getLast? (l :: ls) (inheritPos q l :: ks) := by
  cases hc : l.command with
  | some c =>
    have e : inheritPos q l = l := by unfold inheritPos; rw [hc]
    rw [e] at h ⊢
    exact .own _ h
  | none =>
    cases hq : q.getLast? with
    | none =>
      have e : inheritPos q l = l := by unfold inheritPos; rw [hc, hq]
      rw [e] at h ⊢
      exact .own _ h
    | some p => exact .taken p l (inheritPos q l) hc (by unfold inheritPos; rw [hq, hc]) h

theorem windows_step {t : Trig α} {q q2 ls : List (PyLine α)} {l : PyLine α} (h : WindowsAlike t T q (l :: ls)) (hs : q2 <:+ q ++ [inheritPos q l]) :
    WindowsAlike t T q2 ls := by
  intro ks hk w hw h8 pts hp
  have hk' : Settled (some (inheritPos q l)) ls ks := by
    rcases List.eq_nil_or_concat q2 with rfl | ⟨a, b, rfl⟩
    · exact settled_any (by simpa using hk)
    · rw [List.concat_eq_append] at hs hk
      rw [List.getLast?_append, List.getLast?_singleton, Option.some_or] at hk
      obtain ⟨c, hc⟩ := hs
      rw [← List.append_assoc] at hc
      have := (List.append_inj' hc rfl).2
      rw [List.cons.injEq] at this
      rw [← this.1]
      exact hk
  refine h _ (settled_inherit q l hk') w (hw.trans ?_) h8 pts hp
  obtain ⟨c, hc⟩ := hs
  exact ⟨c, [], by rw [List.append_nil, ← List.append_assoc, hc, List.append_assoc]; rfl⟩

theorem arcFilter_turn (hT : T.flips = false) (t : Trig α) {s s' : ArcSt α} (h : QueueTurn T Q s s') {l l' : PyLine α} (hl : TurnTwin T Q l l')
    {ls : List (PyLine α)} (hw : WindowsAlike t T s.queue (l :: ls)) :
    SameEnd (fun p p' => QueueTurn T Q p.1 p'.1 ∧ List.Forall₂ (OptimisedTurned T Q) (replacement l p.2) (replacement l' p'.2) ∧ WindowsAlike t T p.1.queue ls)
      (arcFilter (arcOps t) s l) (arcFilter (arcOps t) s' l') := by
  obtain ⟨hq, hv⟩ := h
  have hi := inheritPos_turn hT hq hl
  have hstep : ∀ q2, q2 <:+ s.queue ++ [inheritPos s.queue l] → WindowsAlike t T q2 ls := fun q2 k => windows_step hw k
  have hsee : ∀ w, w <:+: s.queue ++ [inheritPos s.queue l] → 8 ≤ w.length → ∀ pts, points w = .ok pts → SeenAlike t T pts := by
    intro w k h8 pts hp
    obtain ⟨ks, hk⟩ := settled_some (some (inheritPos s.queue l)) ls
    refine hw _ (settled_inherit _ l hk) w (k.trans ⟨[], ks, by simp⟩) h8 pts hp
  unfold arcFilter
  simp only
  generalize inheritPos s.queue l = k at hi hstep hsee
  generalize inheritPos s'.queue l' = k' at hi
  have hq2 : List.Forall₂ (TurnTwin T Q) (s.queue ++ [k]) (s'.queue ++ [k']) := forall₂_append hq (.cons hi .nil)
  have hm : k'.inMoves = k.inMoves := by unfold PyLine.inMoves; rw [hi.command hT]
  have hfirst : ∀ first first', s.queue.head? = some first → s'.queue.head? = some first' → TurnTwin T Q first first' := by
    intro a b ha hb
    generalize s.queue = u at hq ha
    generalize s'.queue = w at hq hb
    cases hq with
    | nil => cases ha
    | cons h _ => cases ha; cases hb; exact h
  rw [← hq2.length_eq, hm, hv, hi.command hT]
  by_cases c1 : minSegments < (s.queue ++ [k]).length
  · rw [if_pos c1, if_pos c1]
    have hlen : 8 ≤ s.queue.length := by
      simp only [List.length_append, List.length_singleton, minSegments] at c1; omega
    have hem := toGcode_turn hT t hq (hsee s.queue ⟨[], [k], rfl⟩ hlen) k k'
    have hem' : SameEnd (fun r r' => ∃ first first' gen gen', s.queue.head? = some first ∧ s'.queue.head? = some first' ∧ r = first :: gen ++ [k] ∧
        r' = first' :: gen' ++ [k'] ∧ List.Forall₂ (OptimisedTurned T Q) gen gen') ((arcOps t).emit s.queue k) ((arcOps t).emit s'.queue k') := hem
    rw [valid_turn t hq2 (hsee _ ⟨[], [], by simp⟩ (by rw [List.length_append]; omega))]
    by_cases c2 : (!k.inMoves) = true
    · rw [if_pos c2, if_pos c2]
      by_cases c3 : s.validCircle = true
      · rw [if_pos c3, if_pos c3]
        rcases hem'.outcomes with ⟨e, k1, k2⟩ | ⟨r, r', k1, k2, first, first', gen, gen', f1, f2, rfl, rfl, f3⟩
        · rw [k1, k2]; exact rfl
        · rw [k1, k2]
          exact ⟨⟨.nil, rfl⟩, forall₂_append (.cons ⟨(hfirst _ _ f1 f2).line, .inl (hfirst _ _ f1 f2).text⟩ f3) (.cons ⟨hi.line, .inl hi.text⟩ .nil),
            hstep _ List.nil_suffix⟩
      · rw [if_neg c3, if_neg c3]
        exact ⟨⟨.nil, rfl⟩, forall₂_kept hq2, hstep _ List.nil_suffix⟩
    · rw [if_neg c2, if_neg c2]
      cases (arcOps t).valid (s.queue ++ [k]) with
      | error e => exact rfl
      | ok b =>
        cases b with
        | true => exact ⟨⟨hq2, rfl⟩, .nil, hstep _ List.suffix_rfl⟩
        | false =>
          simp only
          by_cases c3 : s.validCircle = true
          · rw [if_pos c3, if_pos c3]
            rcases hem'.outcomes with ⟨e, k1, k2⟩ | ⟨r, r', k1, k2, first, first', gen, gen', f1, f2, rfl, rfl, f3⟩
            · rw [k1, k2]; exact rfl
            · rw [k1, k2]
              simp only [List.getLast?_append, List.getLast?_singleton, Option.some_or, List.dropLast_append_cons, List.dropLast_singleton, List.append_nil]
              exact ⟨⟨.cons hi .nil, rfl⟩, .cons ⟨(hfirst _ _ f1 f2).line, .inl (hfirst _ _ f1 f2).text⟩ f3, hstep _ ⟨s.queue, rfl⟩⟩
          · rw [if_neg c3, if_neg c3]
            generalize s.queue ++ [k] = u at hq2 hstep
            generalize s'.queue ++ [k'] = w at hq2
            cases hq2 with
            | nil => exact rfl
            | cons h hs => exact ⟨⟨hs, rfl⟩, .cons ⟨h.line, .inl h.text⟩ .nil, hstep _ ⟨[_], rfl⟩⟩
  · rw [if_neg c1, if_neg c1]
    by_cases c2 : (k.inMoves || decide (k.command = none)) = true
    · rw [if_pos c2, if_pos c2]
      exact ⟨⟨hq2, rfl⟩, .nil, hstep _ List.suffix_rfl⟩
    · rw [if_neg c2, if_neg c2]
      exact ⟨⟨.nil, rfl⟩, forall₂_kept hq2, hstep _ List.nil_suffix⟩

theorem filterLines_turn (hT : T.flips = false) (t : Trig α) {ls ls' : List (PyLine α)} (h : List.Forall₂ (TurnTwin T Q) ls ls') :
    ∀ {s s' : ArcSt α}, QueueTurn T Q s s' → WindowsAlike t T s.queue ls →
    SameEnd (fun p p' => QueueTurn T Q p.1 p'.1 ∧ List.Forall₂ (OptimisedTurned T Q) p.2 p'.2) (filterLines (arcFilter (arcOps t)) s ls)
      (filterLines (arcFilter (arcOps t)) s' ls') := by
  induction h with
  | nil => intro s s' hs _; exact ⟨hs, .nil⟩
  | cons h _ ih =>
    intro s s' hs hw
    unfold filterLines
    rcases (arcFilter_turn hT t hs h hw).outcomes with ⟨e, k1, k2⟩ | ⟨⟨a, b⟩, ⟨a', b'⟩, k1, k2, k3, k4, k7⟩
    · rw [k1, k2]; exact rfl
    · rw [k1, k2]
      simp only
      rcases (ih k3 k7).outcomes with ⟨e, k1, k2⟩ | ⟨⟨c, d⟩, ⟨c', d'⟩, k1, k2, k5, k6⟩
      · rw [k1, k2]; exact rfl
      · rw [k1, k2]
        exact ⟨k5, forall₂_append k4 k6⟩

end lines

/-! ### the fitted centre -/

theorem sum_far (pts : List (α × α)) (a b u v : α) :
    (pts.map (fun p => (p.1 - a) * ((p.1 - (u + a)) ^ 2 + (p.2 - (v + b)) ^ 2))).sum =
      sumOf pts (fun x _ => (x - a) * (x - a) * (x - a)) + sumOf pts (fun x y => (x - a) * (y - b) * (y - b)) - 2 * u * sumOf pts (fun x _ => (x - a) * (x - a)) -
        2 * v * sumOf pts (fun x y => (x - a) * (y - b)) + (u * u + v * v) * (sumOf pts (fun x _ => x) - pts.length * a) := by
  unfold sumOf
  induction pts with
  | nil => simp
  | cons p pts ih =>
    simp only [List.map_cons, List.sum_cons, List.length_cons, ih, Nat.cast_add, Nat.cast_one]
    ring

theorem sum_far' (pts : List (α × α)) (a b u v : α) :
    (pts.map (fun p => (p.2 - b) * ((p.1 - (u + a)) ^ 2 + (p.2 - (v + b)) ^ 2))).sum =
      sumOf pts (fun _ y => (y - b) * (y - b) * (y - b)) + sumOf pts (fun x y => (y - b) * (x - a) * (x - a)) - 2 * u * sumOf pts (fun x y => (x - a) * (y - b)) -
        2 * v * sumOf pts (fun _ y => (y - b) * (y - b)) + (u * u + v * v) * (sumOf pts (fun _ y => y) - pts.length * b) := by
  unfold sumOf
  induction pts with
  | nil => simp
  | cons p pts ih =>
    simp only [List.map_cons, List.sum_cons, List.length_cons, ih, Nat.cast_add, Nat.cast_one]
    ring

theorem leastSquares_fitted {t : Trig α} {pts : List (α × α)} {c : Circle α} (h : leastSquares t pts = .ok (some c)) : FittedAt pts (c.cx, c.cy) := by
  by_cases hn : (pts.length : α) = 0
  · unfold leastSquares at h; simp only [divE, if_pos hn] at h; cases h
  unfold FittedAt
  have hmx : (pts.map (·.1)).sum = sumOf pts (fun x _ => x) := rfl
  have hmy : (pts.map (·.2)).sum = sumOf pts (fun _ y => y) := rfl
  simp only [hmx, hmy]
  obtain ⟨xbar, hxb⟩ : ∃ v, sumOf pts (fun x _ => x) / pts.length = v := ⟨_, rfl⟩
  obtain ⟨ybar, hyb⟩ : ∃ v, sumOf pts (fun _ y => y) / pts.length = v := ⟨_, rfl⟩
  have ex0 : divE (sumOf pts (fun x _ => x)) (pts.length : α) = .ok xbar := by rw [divE, if_neg hn, hxb]
  have ey0 : divE (sumOf pts (fun _ y => y)) (pts.length : α) = .ok ybar := by rw [divE, if_neg hn, hyb]
  have zx : sumOf pts (fun x _ => x) - pts.length * xbar = 0 := by rw [← hxb]; field_simp; ring
  have zy : sumOf pts (fun _ y => y) - pts.length * ybar = 0 := by rw [← hyb]; field_simp; ring
  rw [hxb, hyb]
  unfold leastSquares at h
  simp only [ex0, ey0] at h
  by_cases hs : sumOf pts (fun x _ => (x - xbar) * (x - xbar)) < arcEpsilon ∨ sumOf pts (fun _ y => (y - ybar) * (y - ybar)) < arcEpsilon
  · rw [if_pos hs] at h; cases h
  rw [if_neg hs] at h
  have hpos : (0 : α) < arcEpsilon := by unfold arcEpsilon; positivity
  have f1 := sum_far pts xbar ybar
  have f2 := sum_far' pts xbar ybar
  rw [zx] at f1
  rw [zy] at f2
  generalize sumOf pts (fun x _ => (x - xbar) * (x - xbar)) = suu at *
  generalize sumOf pts (fun _ y => (y - ybar) * (y - ybar)) = svv at *
  generalize sumOf pts (fun x _ => (x - xbar) * (x - xbar) * (x - xbar)) = suuu at *
  generalize sumOf pts (fun _ y => (y - ybar) * (y - ybar) * (y - ybar)) = svvv at *
  generalize sumOf pts (fun x y => (x - xbar) * (y - ybar) * (y - ybar)) = suvv at *
  generalize sumOf pts (fun x y => (y - ybar) * (x - xbar) * (x - xbar)) = svuu at *
  generalize sumOf pts (fun x y => (x - xbar) * (y - ybar)) = suv at *
  have hu0 : suu ≠ 0 := by rintro rfl; exact hs (.inl hpos)
  unfold divE at h
  by_cases hz : -(suv * suv) / suu + svv = 0
  · rw [if_pos hz] at h; cases h
  rw [if_neg hz] at h
  simp only at h
  obtain ⟨v, hv⟩ : ∃ v, ((svvv + svuu) / 2 - suv / 2 * ((suuu + suvv) / suu)) / (-(suv * suv) / suu + svv) = v := ⟨_, rfl⟩
  obtain ⟨u, hu⟩ : ∃ u, ((suuu + suvv) / 2 - v * suv) / suu = u := ⟨_, rfl⟩
  have e1 : u * suu + v * suv = (suuu + suvv) / 2 := by rw [← hu]; field_simp; ring
  have e2 : u * suv + v * svv = (svvv + svuu) / 2 := by
    rw [div_eq_iff hz] at hv
    have h3 : u = ((suuu + suvv) / 2 - v * suv) / suu := hu.symm
    rw [h3]
    field_simp at hv ⊢
    linear_combination -hv
  rw [hv, hu] at h
  have hc : c.cx = u + xbar ∧ c.cy = v + ybar := by
    cases h0 : pts[0]? with
    | none => rw [h0] at h; cases h
    | some p0 =>
      cases h2 : pts[2]? with
      | none => rw [h0, h2] at h; cases h
      | some p2 =>
        cases hl : pts.getLast? with
        | none => rw [h0, h2, hl] at h; cases h
        | some pl => rw [h0, h2, hl] at h; cases h; exact ⟨rfl, rfl⟩
  rw [hc.1, hc.2, f1, f2]
  exact ⟨by linear_combination (-2) * e1, by linear_combination (-2) * e2⟩

/-! ### the angles between real points -/

theorem phaseDiff_real {mode : RoundMode} {z w : ℂ} (hz : z ≠ 0) (hw : w ≠ 0) (hn : (z / w).arg ≠ Real.pi) :
    phaseDiff (realTrig mode) z.arg w.arg = (z / w).arg := by
  have hpi := Real.pi_pos
  have b1 := Complex.neg_pi_lt_arg z
  have b2 := Complex.arg_le_pi z
  have b3 := Complex.neg_pi_lt_arg w
  have b4 := Complex.arg_le_pi w
  have b5 := Complex.neg_pi_lt_arg (z / w)
  have b6 := lt_of_le_of_ne (Complex.arg_le_pi (z / w)) hn
  obtain ⟨n, hn⟩ : ∃ n : ℤ, (z / w).arg - (z.arg - w.arg) = 2 * Real.pi * n := by
    have := Complex.arg_div_coe_angle hz hw
    rw [← Real.Angle.coe_sub, Real.Angle.angle_eq_iff_two_pi_dvd_sub] at this
    exact this
  obtain ⟨m, hm, hlo, hhi⟩ : ∃ m : ℤ, phaseDiff (realTrig mode) z.arg w.arg - (z.arg - w.arg) = 2 * Real.pi * m ∧
      -Real.pi ≤ phaseDiff (realTrig mode) z.arg w.arg ∧ phaseDiff (realTrig mode) z.arg w.arg ≤ Real.pi := by
    have ep : (realTrig mode).pi = Real.pi := rfl
    unfold phaseDiff
    simp only [ep]
    by_cases h1 : z.arg - w.arg < -Real.pi
    · rw [if_pos h1]
      exact ⟨1, by push_cast; ring, by linarith, by linarith⟩
    · rw [if_neg h1]
      by_cases h2 : Real.pi < z.arg - w.arg
      · rw [if_pos h2]
        exact ⟨-1, by push_cast; ring, by linarith, by linarith⟩
      · rw [if_neg h2]
        exact ⟨0, by push_cast; ring, by linarith, by linarith⟩
  have e : phaseDiff (realTrig mode) z.arg w.arg - (z / w).arg = 2 * Real.pi * ((m - n : ℤ) : ℝ) := by push_cast; linarith
  have h1 : (-1 : ℝ) < ((m - n : ℤ) : ℝ) := by
    by_contra hc
    have := mul_le_mul_of_nonneg_left (not_lt.1 hc) (by linarith : 0 ≤ 2 * Real.pi)
    linarith
  have h2 : ((m - n : ℤ) : ℝ) < 1 := by
    by_contra hc
    have := mul_le_mul_of_nonneg_left (not_lt.1 hc) (by linarith : 0 ≤ 2 * Real.pi)
    linarith
  have h3 : m - n = 0 := by
    have h1' : (-1 : ℤ) < m - n := by exact_mod_cast h1
    have h2' : m - n < (1 : ℤ) := by exact_mod_cast h2
    omega
  rw [h3] at e
  push_cast at e
  linarith

/-- A point as seen from the centre, as a complex number. -/
def rel (c p : ℝ × ℝ) : ℂ := ⟨p.1 - c.1, p.2 - c.2⟩

theorem not_across {c p q : ℝ × ℝ} (h : ¬ Across c p q) : rel c p ≠ 0 ∧ rel c q ≠ 0 ∧ (rel c q / rel c p).arg ≠ Real.pi := by
  have hp : rel c p ≠ 0 := by
    intro h0
    have h1 := congrArg Complex.re h0
    have h2 := congrArg Complex.im h0
    simp only [rel, Complex.zero_re, Complex.zero_im] at h1 h2
    exact h ⟨0, le_refl _, zero_le_one, Prod.ext (by simp only [zero_mul, add_zero]; linarith) (by simp only [zero_mul, add_zero]; linarith)⟩
  have hq : rel c q ≠ 0 := by
    intro h0
    have h1 := congrArg Complex.re h0
    have h2 := congrArg Complex.im h0
    simp only [rel, Complex.zero_re, Complex.zero_im] at h1 h2
    exact h ⟨1, zero_le_one, le_refl _, Prod.ext (by simp only [one_mul]; linarith) (by simp only [one_mul]; linarith)⟩
  refine ⟨hp, hq, ?_⟩
  intro ha
  rw [Complex.arg_eq_pi_iff] at ha
  obtain ⟨hre, him⟩ := ha
  obtain ⟨r, hr⟩ : ∃ r : ℝ, (rel c q / rel c p).re = -r := ⟨-(rel c q / rel c p).re, by ring⟩
  have hr0 : 0 < r := by rw [hr] at hre; linarith
  have he : rel c q / rel c p = ((-r : ℝ) : ℂ) := Complex.ext (by rw [hr, Complex.ofReal_re]) (by rw [him, Complex.ofReal_im])
  rw [div_eq_iff hp] at he
  have h1 := congrArg Complex.re he
  have h2 := congrArg Complex.im he
  rw [Complex.re_ofReal_mul] at h1
  rw [Complex.im_ofReal_mul] at h2
  simp only [rel] at h1 h2
  have hr1 : 1 + r ≠ 0 := by linarith
  refine h ⟨1 / (1 + r), by positivity, by rw [div_le_one (by linarith)]; linarith, Prod.ext ?_ ?_⟩
  · show c.1 = _
    have : q.1 = c.1 + -r * (p.1 - c.1) := by linarith
    rw [this]
    field_simp
    ring
  · show c.2 = _
    have : q.2 = c.2 + -r * (p.2 - c.2) := by linarith
    rw [this]
    field_simp
    ring

/-- A turn without reflection is the multiplication with a number. -/
theorem turn_mul {T : Turn} (hT : T.flips = false) : ∃ u : ℂ, u ≠ 0 ∧ ∀ x y : ℝ, (⟨T.x x y, T.y x y⟩ : ℂ) = u * ⟨x, y⟩ := by
  refine ⟨⟨T.x 1 0, T.y 1 0⟩, ?_, ?_⟩
  · obtain ⟨sw, nx, ny⟩ := T
    intro h
    have h1 := congrArg Complex.re h
    have h2 := congrArg Complex.im h
    cases sw <;> cases nx <;> cases ny <;> simp [Turn.x, Turn.y, sign] at h1 h2
  · intro x y
    obtain ⟨sw, nx, ny⟩ := T
    cases sw <;> cases nx <;> cases ny <;> simp [Turn.flips] at hT <;> apply Complex.ext <;> simp [Turn.x, Turn.y, sign]

theorem phaseDiff_turn {T : Turn} (hT : T.flips = false) {mode : RoundMode} {c p q : ℝ × ℝ} (h : ¬ Across c p q) :
    phaseDiff (realTrig mode) ((realTrig mode).phase (T.x q.1 q.2 - T.x c.1 c.2) (T.y q.1 q.2 - T.y c.1 c.2))
        ((realTrig mode).phase (T.x p.1 p.2 - T.x c.1 c.2) (T.y p.1 p.2 - T.y c.1 c.2)) =
      phaseDiff (realTrig mode) ((realTrig mode).phase (q.1 - c.1) (q.2 - c.2)) ((realTrig mode).phase (p.1 - c.1) (p.2 - c.2)) := by
  obtain ⟨u, hu, he⟩ := turn_mul hT
  obtain ⟨hp, hq, ha⟩ := not_across h
  have e2 := phaseDiff_real (mode := mode) hq hp ha
  have hdiv : (u * rel c q) / (u * rel c p) = rel c q / rel c p := mul_div_mul_left _ _ hu
  have e1 := phaseDiff_real (mode := mode) (mul_ne_zero hu hq) (mul_ne_zero hu hp) (by rw [hdiv]; exact ha)
  rw [hdiv, ← e2] at e1
  have hx : ∀ r : ℝ × ℝ, (realTrig mode).phase (T.x r.1 r.2 - T.x c.1 c.2) (T.y r.1 r.2 - T.y c.1 c.2) = (u * rel c r).arg := by
    intro r
    rw [(turn_diff T r.1 r.2 c.1 c.2).1, (turn_diff T r.1 r.2 c.1 c.2).2]
    show Complex.arg ⟨T.x _ _, T.y _ _⟩ = _
    rw [he]
    rfl
  rw [hx, hx]
  exact e1

theorem pairwise_turn {β : Type} (f : ℝ → ℝ → ℝ) (a b : β → ℝ) (ps : List β) : (∀ p q, [p, q] <:+: ps → f (a q) (a p) = f (b q) (b p)) →
    pairwise f (ps.map a) = pairwise f (ps.map b) := by
  induction ps with
  | nil => intro _; rfl
  | cons p ps ih =>
    intro h
    cases ps with
    | nil => rfl
    | cons q ps =>
      have i := ih (fun x y k => h x y (k.trans ⟨[p], [], by simp⟩))
      simp only [List.map_cons] at i ⊢
      unfold pairwise
      rw [i, h p q ⟨[], ps, rfl⟩]

/-- Points that are not seen on two sides of the centre look the same after the turn. -/
theorem alike_real {T : Turn} (hT : T.flips = false) (mode : RoundMode) {pts : List (ℝ × ℝ)} (h : ¬ ThroughCentre pts) : SeenAlike (realTrig mode) T pts := by
  intro c hc
  have hf := leastSquares_fitted hc
  constructor
  · intro d
    unfold phaseDiffs
    rw [List.map_map]
    refine pairwise_turn _ _ _ pts ?_
    intro p q hpq
    exact phaseDiff_turn hT (c := (c.cx, c.cy)) fun k => h ⟨_, hf, .inl ⟨p, q, hpq, k⟩⟩
  · intro p0 p2 h0 h2
    refine phaseDiff_turn hT (c := (c.cx, c.cy)) fun k => h ⟨_, hf, .inr ?_⟩
    cases pts with
    | nil => cases h0
    | cons a pts =>
      cases pts with
      | nil => cases h2
      | cons b pts =>
        cases pts with
        | nil => cases h2
        | cons c pts =>
          simp only [List.getElem?_cons_zero, List.getElem?_cons_succ, Option.some.injEq] at h0 h2
          exact ⟨a, b, c, pts, rfl, by rw [h0, h2]; exact k⟩

end GCodeUtils
