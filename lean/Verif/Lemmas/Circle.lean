import Verif.Spec.Arc
import Mathlib.Tactic.Linarith
import Mathlib.Tactic.Ring
import Mathlib.Tactic.FieldSimp
import Mathlib.Tactic.LinearCombination

/-
  The least-squares circle.
-/

set_option linter.unusedSectionVars false

namespace GCodeUtils

open Spec

variable {α : Type} [Field α] [LinearOrder α] [IsStrictOrderedRing α] [FloorRing α]

theorem sumOf_add (pts : List (α × α)) (f g : α → α → α) : sumOf pts f + sumOf pts g = sumOf pts (fun x y => f x y + g x y) := by
  unfold sumOf
  rw [← List.sum_map_add]

theorem sumOf_mul (pts : List (α × α)) (k : α) (f : α → α → α) : k * sumOf pts f = sumOf pts (fun x y => k * f x y) := by
  unfold sumOf
  induction pts with
  | nil => simp
  | cons p pts ih => simp only [List.map_cons, List.sum_cons, mul_add, ih]

theorem sumOf_congr (pts : List (α × α)) {f g : α → α → α} (h : ∀ p ∈ pts, f p.1 p.2 = g p.1 p.2) : sumOf pts f = sumOf pts g := by
  unfold sumOf
  congr 1
  exact List.map_congr_left h

theorem sumOf_const (pts : List (α × α)) (k : α) : sumOf pts (fun _ _ => k) = (pts.length : α) * k := by
  unfold sumOf
  induction pts with
  | nil => simp
  | cons p pts ih => simp only [List.map_cons, List.sum_cons, ih, List.length_cons]; push_cast; ring

theorem sumOf_nonneg_zero (pts : List (α × α)) {f : α → α → α} (h : ∀ p ∈ pts, 0 ≤ f p.1 p.2) (h0 : sumOf pts f = 0) : ∀ p ∈ pts, f p.1 p.2 = 0 := by
  unfold sumOf at h0
  induction pts with
  | nil => simp
  | cons p pts ih =>
    simp only [List.map_cons, List.sum_cons] at h0
    have h1 : 0 ≤ f p.1 p.2 := h p (by simp)
    have h2 : 0 ≤ (pts.map (fun p => f p.1 p.2)).sum := by
      have h' : ∀ q ∈ pts, 0 ≤ f q.1 q.2 := fun q hq => h q (List.mem_cons_of_mem _ hq)
      clear ih h0 h1 h
      induction pts with
      | nil => simp
      | cons q pts ih =>
        simp only [List.map_cons, List.sum_cons]
        exact add_nonneg (h' q (by simp)) (ih (fun q hq => h' q (List.mem_cons_of_mem _ hq)))
    intro q hq
    rcases List.mem_cons.1 hq with rfl | hq
    · linarith
    · exact ih (fun q hq => h q (List.mem_cons_of_mem _ hq)) (by linarith) q hq

section fit

variable (pts : List (α × α)) (a b r m n : α)

/-- Deviations sum to zero. -/
theorem sum_dev (hn : (pts.length : α) ≠ 0) (f : α → α → α) (hm : m = sumOf pts f / (pts.length : α)) :
    sumOf pts (fun x y => f x y - m) = 0 := by
  have h1 : sumOf pts (fun x y => f x y - m) = sumOf pts f + sumOf pts (fun _ _ => -m) := by
    rw [sumOf_add]; exact sumOf_congr _ (fun _ _ => sub_eq_add_neg _ _)
  rw [h1, sumOf_const, hm]
  field_simp
  ring

/-- The spread of points on a circle: three equations. -/
theorem circle_sums (hn : (pts.length : α) ≠ 0) (hm : m = sumOf pts (fun x _ => x) / (pts.length : α)) (hk : n = sumOf pts (fun _ y => y) / (pts.length : α))
    (h : ∀ p ∈ pts, (p.1 - a) ^ 2 + (p.2 - b) ^ 2 = r ^ 2) :
    sumOf pts (fun x _ => (x - m) * (x - m) * (x - m)) + sumOf pts (fun x y => (x - m) * (y - n) * (y - n)) =
      2 * (a - m) * sumOf pts (fun x _ => (x - m) * (x - m)) + 2 * (b - n) * sumOf pts (fun x y => (x - m) * (y - n)) ∧
    sumOf pts (fun _ y => (y - n) * (y - n) * (y - n)) + sumOf pts (fun x y => (y - n) * (x - m) * (x - m)) =
      2 * (a - m) * sumOf pts (fun x y => (x - m) * (y - n)) + 2 * (b - n) * sumOf pts (fun _ y => (y - n) * (y - n)) ∧
    sumOf pts (fun x _ => (x - m) * (x - m)) + sumOf pts (fun _ y => (y - n) * (y - n)) =
      (pts.length : α) * (r ^ 2 - (a - m) ^ 2 - (b - n) ^ 2) := by
  have d1 := sum_dev pts m hn (fun x _ => x) hm
  have d2 := sum_dev pts n hn (fun _ y => y) hk
  refine ⟨?_, ?_, ?_⟩
  · have e : sumOf pts (fun x _ => (x - m) * (x - m) * (x - m)) + sumOf pts (fun x y => (x - m) * (y - n) * (y - n)) =
        2 * (a - m) * sumOf pts (fun x _ => (x - m) * (x - m)) + 2 * (b - n) * sumOf pts (fun x y => (x - m) * (y - n)) +
          (r ^ 2 - (a - m) ^ 2 - (b - n) ^ 2) * sumOf pts (fun x _ => x - m) := by
      rw [sumOf_mul, sumOf_mul, sumOf_mul, sumOf_add, sumOf_add, sumOf_add]
      apply sumOf_congr
      intro p hp
      linear_combination (p.1 - m) * h p hp
    rw [e, d1]; ring
  · have e : sumOf pts (fun _ y => (y - n) * (y - n) * (y - n)) + sumOf pts (fun x y => (y - n) * (x - m) * (x - m)) =
        2 * (a - m) * sumOf pts (fun x y => (x - m) * (y - n)) + 2 * (b - n) * sumOf pts (fun _ y => (y - n) * (y - n)) +
          (r ^ 2 - (a - m) ^ 2 - (b - n) ^ 2) * sumOf pts (fun _ y => y - n) := by
      rw [sumOf_mul, sumOf_mul, sumOf_mul, sumOf_add, sumOf_add, sumOf_add]
      apply sumOf_congr
      intro p hp
      linear_combination (p.2 - n) * h p hp
    rw [e, d2]; ring
  · have e : sumOf pts (fun x _ => (x - m) * (x - m)) + sumOf pts (fun _ y => (y - n) * (y - n)) =
        2 * (a - m) * sumOf pts (fun x _ => x - m) + 2 * (b - n) * sumOf pts (fun _ y => y - n) +
          sumOf pts (fun _ _ => r ^ 2 - (a - m) ^ 2 - (b - n) ^ 2) := by
      rw [sumOf_mul, sumOf_mul, sumOf_add, sumOf_add, sumOf_add]
      apply sumOf_congr
      intro p hp
      linear_combination h p hp
    rw [e, d1, d2, sumOf_const]; ring

/-- Three different points on a circle are not on a line, so the determinant of the fit is positive. -/
theorem circle_det (h : ∀ p ∈ pts, (p.1 - a) ^ 2 + (p.2 - b) ^ 2 = r ^ 2) (hs : 0 < sumOf pts (fun x _ => (x - m) * (x - m)))
    {p q s : α × α} (hp : p ∈ pts) (hq : q ∈ pts) (hs' : s ∈ pts) (hpq : p ≠ q) (hps : p ≠ s) (hqs : q ≠ s) :
    sumOf pts (fun x y => (x - m) * (y - n)) * sumOf pts (fun x y => (x - m) * (y - n)) ≠
      sumOf pts (fun x _ => (x - m) * (x - m)) * sumOf pts (fun _ y => (y - n) * (y - n)) := by
  intro hd
  generalize hA : sumOf pts (fun x _ => (x - m) * (x - m)) = A at *
  generalize hB : sumOf pts (fun _ y => (y - n) * (y - n)) = B at *
  generalize hC : sumOf pts (fun x y => (x - m) * (y - n)) = C at *
  have hz : sumOf pts (fun x y => (A * (y - n) - C * (x - m)) ^ 2) = 0 := by
    have e : sumOf pts (fun x y => (A * (y - n) - C * (x - m)) ^ 2) = A ^ 2 * B + (-2 * A * C) * C + C ^ 2 * A := by
      have e1 : A ^ 2 * B = sumOf pts (fun x y => A ^ 2 * ((y - n) * (y - n))) := by rw [← hB, sumOf_mul]
      have e2 : (-2 * A * C) * C = sumOf pts (fun x y => (-2 * A * C) * ((x - m) * (y - n))) := by rw [← sumOf_mul, hC]
      have e3 : C ^ 2 * A = sumOf pts (fun x y => C ^ 2 * ((x - m) * (x - m))) := by rw [← sumOf_mul, hA]
      rw [e1, e2, e3, sumOf_add, sumOf_add]
      apply sumOf_congr
      intro p _
      ring
    rw [e]
    linear_combination (-A) * hd
  have hl := sumOf_nonneg_zero pts (fun p _ => sq_nonneg _) hz
  have line : ∀ p ∈ pts, A * (p.2 - n) = C * (p.1 - m) := by
    intro p hp
    have := hl p hp
    have := pow_eq_zero_iff (two_ne_zero) |>.1 this
    linarith
  -- the quadratic satisfied by the first coordinates
  have quad : ∀ p ∈ pts, A ^ 2 * ((p.1 - m) - (a - m)) ^ 2 + (C * (p.1 - m) - A * (b - n)) ^ 2 = A ^ 2 * r ^ 2 := by
    intro p hp
    have h1 := line p hp
    have h2 := h p hp
    rw [← h1]
    linear_combination A ^ 2 * h2
  have coord : ∀ p ∈ pts, ∀ q ∈ pts, p.1 = q.1 → p = q := by
    intro p hp q hq he
    have h1 := line p hp
    have h2 := line q hq
    rw [he] at h1
    have h3 : A * (p.2 - q.2) = 0 := by linear_combination h1 - h2
    rcases mul_eq_zero.1 h3 with h3 | h3
    · exact absurd h3 hs.ne'
    · exact Prod.ext he (by linarith)
  have pos : 0 < A ^ 2 + C ^ 2 := by
    have : 0 < A ^ 2 := pow_pos hs 2
    have := sq_nonneg C
    linarith
  have pair : ∀ p ∈ pts, ∀ q ∈ pts, p ≠ q → (A ^ 2 + C ^ 2) * (p.1 + q.1) = 2 * (A ^ 2 * a + C ^ 2 * m + C * A * (b - n)) := by
    intro p hp q hq hne
    have h1 := quad p hp
    have h2 := quad q hq
    have h3 : (p.1 - q.1) * ((A ^ 2 + C ^ 2) * (p.1 + q.1) - 2 * (A ^ 2 * a + C ^ 2 * m + C * A * (b - n))) = 0 := by
      linear_combination h1 - h2
    rcases mul_eq_zero.1 h3 with h3 | h3
    · exact absurd (coord p hp q hq (by linarith)) hne
    · linarith
  have k1 := pair p hp q hq hpq
  have k2 := pair p hp s hs' hps
  have k3 : (A ^ 2 + C ^ 2) * (q.1 - s.1) = 0 := by linear_combination k1 - k2
  rcases mul_eq_zero.1 k3 with k3 | k3
  · exact pos.ne' k3
  · exact hqs (coord q hq s hs' (by linarith))

end fit

/-- The fit of points on a circle. -/
theorem leastSquares_exact (t : Trig α) (pts : List (α × α)) (a b r : α) (h : ∀ p ∈ pts, (p.1 - a) ^ 2 + (p.2 - b) ^ 2 = r ^ 2)
    (hx : 1 / 1000000 ≤ sumOf pts (fun x _ => (x - sumOf pts (fun x _ => x) / (pts.length : α)) * (x - sumOf pts (fun x _ => x) / (pts.length : α))))
    (hy : 1 / 1000000 ≤ sumOf pts (fun _ y => (y - sumOf pts (fun _ y => y) / (pts.length : α)) * (y - sumOf pts (fun _ y => y) / (pts.length : α))))
    {p q s : α × α} (hp : p ∈ pts) (hq : q ∈ pts) (hs : s ∈ pts) (hpq : p ≠ q) (hps : p ≠ s) (hqs : q ≠ s) :
    ∃ c, leastSquares t pts = .ok (some c) ∧ c.cx = a ∧ c.cy = b ∧ c.radius = t.sqrt (r * r) := by
  have hlen : 3 ≤ pts.length := by
    have : [p, q, s].Nodup := by simp [hpq, hps, hqs]
    have h1 : [p, q, s].Subperm pts := (List.subperm_of_subset this (by intro x hx; simp at hx; rcases hx with rfl | rfl | rfl <;> assumption))
    simpa using h1.length_le
  have hn : (pts.length : α) ≠ 0 := by
    have : pts.length ≠ 0 := by omega
    exact_mod_cast this
  obtain ⟨c1, c2, c3⟩ := circle_sums pts a b r _ _ hn rfl rfl h
  have hpos : (0 : α) < 1 / 1000000 := by norm_num
  have hdet := circle_det pts a b r _ (sumOf pts (fun _ y => y) / (pts.length : α)) h (lt_of_lt_of_le hpos hx) hp hq hs hpq hps hqs
  obtain ⟨p0, h0⟩ : ∃ p0, pts[0]? = some p0 := ⟨_, List.getElem?_eq_getElem (by omega)⟩
  obtain ⟨p2, h2⟩ : ∃ p2, pts[2]? = some p2 := ⟨_, List.getElem?_eq_getElem (by omega)⟩
  obtain ⟨pl, hl⟩ : ∃ pl, pts.getLast? = some pl := by
    cases hg : pts.getLast? with
    | some x => exact ⟨x, rfl⟩
    | none => rw [List.getLast?_eq_none_iff] at hg; rw [hg] at hlen; simp at hlen
  unfold leastSquares divE arcEpsilon
  simp only [if_neg hn]
  generalize sumOf pts (fun x _ => x) / (pts.length : α) = m at *
  generalize sumOf pts (fun _ y => y) / (pts.length : α) = n at *
  generalize sumOf pts (fun x _ => (x - m) * (x - m)) = suu at *
  generalize sumOf pts (fun _ y => (y - n) * (y - n)) = svv at *
  generalize sumOf pts (fun x y => (x - m) * (y - n)) = suv at *
  generalize sumOf pts (fun x _ => (x - m) * (x - m) * (x - m)) = suuu at *
  generalize sumOf pts (fun x y => (x - m) * (y - n) * (y - n)) = suvv at *
  generalize sumOf pts (fun _ y => (y - n) * (y - n) * (y - n)) = svvv at *
  generalize sumOf pts (fun x y => (y - n) * (x - m) * (x - m)) = svuu at *
  have hsu : suu ≠ 0 := (lt_of_lt_of_le hpos hx).ne'
  have hden : -(suv * suv) / suu + svv ≠ 0 := by
    intro hc
    apply hdet
    field_simp at hc
    linear_combination -hc
  rw [if_neg (not_or.2 ⟨not_lt.2 hx, not_lt.2 hy⟩), if_neg hden, h0, h2, hl]
  simp only
  have hv : ((svvv + svuu) / 2 - suv / 2 * ((suuu + suvv) / suu)) / (-(suv * suv) / suu + svv) = b - n := by
    rw [div_eq_iff hden, c1, c2]
    field_simp
    ring
  rw [hv]
  have hu : ((suuu + suvv) / 2 - (b - n) * suv) / suu = a - m := by
    rw [div_eq_iff hsu, c1]
    ring
  rw [hu]
  refine ⟨_, rfl, by simp, by simp, ?_⟩
  simp only
  congr 1
  rw [c3]
  field_simp
  ring

end GCodeUtils
