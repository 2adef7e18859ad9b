import Mathlib.Tactic.Linarith
import Mathlib.Tactic.FieldSimp
import Mathlib.Tactic.Ring
import Mathlib.Tactic.Positivity
import Mathlib.Tactic.NormNum
import Verif.Model.Num

set_option linter.unusedSectionVars false

namespace GCodeUtils

variable {α : Type} [Field α] [LinearOrder α] [IsStrictOrderedRing α] [FloorRing α]

theorem roundEven_bound (y : α) : |(roundEven y : α) - y| ≤ 1 / 2 := by
  have h1 := Int.floor_le y
  have h2 := Int.lt_floor_add_one y
  unfold roundEven
  simp only
  rw [abs_le]
  split_ifs <;> push_cast <;> constructor <;> linarith

theorem roundEven_nonneg {y : α} (h : 0 ≤ y) : 0 ≤ roundEven y := by
  have h1 : 0 ≤ ⌊y⌋ := Int.floor_nonneg.2 h
  unfold roundEven
  simp only
  split_ifs <;> omega

theorem roundAway_bound (y : α) : |(roundAway y : α) - y| ≤ 1 / 2 := by
  unfold roundAway
  rw [abs_le]
  split_ifs
  · have h1 := Int.floor_le (y + 1 / 2)
    have h2 := Int.lt_floor_add_one (y + 1 / 2)
    constructor <;> linarith
  · have h1 := Int.floor_le (-y + 1 / 2)
    have h2 := Int.lt_floor_add_one (-y + 1 / 2)
    push_cast
    constructor <;> linarith

theorem roundInt_bound (mode : RoundMode) (y : α) : |(roundInt mode y : α) - y| ≤ 1 / 2 := by
  cases mode
  · exact roundEven_bound y
  · exact roundAway_bound y

theorem roundEven_int (n : ℤ) : roundEven (n : α) = n := by
  unfold roundEven
  simp

theorem roundAway_int (n : ℤ) : roundAway (n : α) = n := by
  have hh : ⌊(1 / 2 : α)⌋ = 0 := by
    rw [Int.floor_eq_iff]; constructor <;> norm_num
  unfold roundAway
  split_ifs
  · rw [Int.floor_intCast_add, hh, add_zero]
  · have : -(n : α) + 1 / 2 = ((-n : ℤ) : α) + 1 / 2 := by push_cast; ring
    rw [this, Int.floor_intCast_add, hh]
    ring

theorem roundInt_int (mode : RoundMode) (n : ℤ) : roundInt mode (n : α) = n := by
  cases mode
  · exact roundEven_int n
  · exact roundAway_int n

/-- An integer strictly within one half is the rounding. -/
theorem roundInt_near (mode : RoundMode) (y : α) (n : ℤ) (h : |(n : α) - y| < 1 / 2) : roundInt mode y = n := by
  have hb := roundInt_bound mode y
  rw [abs_le] at hb
  rw [abs_lt] at h
  have h1 : ((roundInt mode y : ℤ) : α) < (n : α) + 1 := by linarith
  have h2 : (n : α) < (roundInt mode y : α) + 1 := by linarith
  have h3 : roundInt mode y < n + 1 := by exact_mod_cast h1
  have h4 : n < roundInt mode y + 1 := by exact_mod_cast h2
  omega

theorem roundInt_mono (mode : RoundMode) {x y : α} (h : x ≤ y) : roundInt mode x ≤ roundInt mode y := by
  cases mode with
  | halfAway =>
    simp only [roundInt, roundAway]
    split_ifs with h1 h2 h2
    · exact Int.floor_le_floor (by linarith)
    · exfalso; linarith
    · have a1 : 0 ≤ ⌊y + 1 / 2⌋ := Int.floor_nonneg.2 (by linarith)
      have a2 : 0 ≤ ⌊-x + 1 / 2⌋ := Int.floor_nonneg.2 (by linarith [not_le.1 h1])
      omega
    · have := Int.floor_le_floor (show -y + 1 / 2 ≤ -x + 1 / 2 by linarith)
      omega
  | halfEven =>
    simp only [roundInt]
    have hm := Int.floor_le_floor h
    have hx1 := Int.floor_le x
    have hx2 := Int.lt_floor_add_one x
    have hy1 := Int.floor_le y
    have hy2 := Int.lt_floor_add_one y
    rcases lt_or_eq_of_le hm with hlt | heq
    · have a1 : roundEven x ≤ ⌊x⌋ + 1 := by
        unfold roundEven; simp only; split_ifs <;> omega
      have a2 : ⌊y⌋ ≤ roundEven y := by
        unfold roundEven; simp only; split_ifs <;> omega
      omega
    · unfold roundEven
      simp only
      rw [heq] at hx1 hx2 ⊢
      split_ifs <;> first | omega | (exfalso; linarith)

/-- `round(x, d)` is within half a unit of the last digit. -/
theorem pyRound_bound (mode : RoundMode) (d : ℕ) (x : α) : |pyRound mode d x - x| ≤ 1 / (2 * 10 ^ d) := by
  have hp : (0 : α) < 10 ^ d := by positivity
  have h := roundInt_bound mode (x * 10 ^ d)
  unfold pyRound
  have : (roundInt mode (x * 10 ^ d) : α) / 10 ^ d - x = ((roundInt mode (x * 10 ^ d) : α) - x * 10 ^ d) / 10 ^ d := by
    field_simp
  rw [this, abs_div, abs_of_pos hp, div_le_div_iff₀ hp (by positivity)]
  calc |(roundInt mode (x * 10 ^ d) : α) - x * 10 ^ d| * (2 * 10 ^ d) ≤ 1 / 2 * (2 * 10 ^ d) := by
        apply mul_le_mul_of_nonneg_right h (by positivity)
    _ = 1 * 10 ^ d := by ring

theorem pyRound_mono (mode : RoundMode) (d : ℕ) {x y : α} (h : x ≤ y) : pyRound mode d x ≤ pyRound mode d y := by
  have hp : (0 : α) < 10 ^ d := by positivity
  unfold pyRound
  apply div_le_div_of_nonneg_right _ hp.le
  exact_mod_cast roundInt_mono mode (mul_le_mul_of_nonneg_right h hp.le)

/-- Multiples of the unit are kept. -/
theorem pyRound_exact (mode : RoundMode) (d : ℕ) (n : ℤ) : pyRound mode d ((n : α) / 10 ^ d) = (n : α) / 10 ^ d := by
  have hp : (10 : α) ^ d ≠ 0 := by positivity
  unfold pyRound
  rw [div_mul_cancel₀ _ hp, roundInt_int]

theorem pyRound_natCast (mode : RoundMode) (d : ℕ) (n : ℤ) : pyRound mode d (n : α) = n := by
  have hp : (10 : α) ^ d ≠ 0 := by positivity
  have := pyRound_exact (α := α) mode d (n * 10 ^ d)
  push_cast at this
  rwa [mul_div_cancel_right₀ _ hp] at this

theorem pyRound_idem (mode : RoundMode) (d : ℕ) (x : α) : pyRound mode d (pyRound mode d x) = pyRound mode d x := by
  conv_lhs => rw [show pyRound mode d x = (roundInt mode (x * 10 ^ d) : α) / 10 ^ d from rfl]
  rw [pyRound_exact]; rfl

end GCodeUtils
