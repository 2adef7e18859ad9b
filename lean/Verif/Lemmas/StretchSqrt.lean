import Verif.Spec.Stretch
import Mathlib.Analysis.Real.Sqrt
import Mathlib.Data.Nat.Sqrt
import Mathlib.Tactic.Positivity
import Mathlib.Tactic.FieldSimp

/-
  Square roots that meet `IsSqrt`.
-/

set_option linter.unusedSectionVars false

namespace GCodeUtils

open Spec

theorem realSqrt_isSqrt : IsSqrt (0 : ℝ) Real.sqrt := by
  refine ⟨le_refl 0, fun v hv => ⟨Real.sqrt_nonneg v, ?_, ?_⟩⟩ <;> simp [Real.sq_sqrt hv]

/-- A square root of rational numbers with twelve significant digits. -/
def rSqrt (v : ℚ) : ℚ := (Nat.sqrt (v.num.toNat * v.den * 10 ^ 24) : ℚ) / (v.den * 10 ^ 12)

theorem rSqrt_isSqrt : IsSqrt (1 / 10 ^ 12 : ℚ) rSqrt := by
  refine ⟨by norm_num, fun v hv => ⟨by unfold rSqrt; positivity, ?_⟩⟩
  unfold rSqrt
  have hd : (0 : ℚ) < v.den := by exact_mod_cast v.den_pos
  obtain ⟨a, ha⟩ : ∃ a : ℕ, v.num = a := ⟨v.num.toNat, (Int.toNat_of_nonneg (Rat.num_nonneg.2 hv)).symm⟩
  have hv' : v = a / v.den := by
    conv_lhs => rw [← Rat.num_div_den v]
    rw [ha]; norm_num
  rw [ha, Int.toNat_natCast]
  generalize hN : a * v.den * 10 ^ 24 = N
  generalize hk : Nat.sqrt N = k
  have h1 : k * k ≤ N := by rw [← hk]; exact Nat.sqrt_le N
  have h2 : N < (k + 1) * (k + 1) := by rw [← hk]; exact Nat.lt_succ_sqrt N
  have h1' : (k : ℚ) * k ≤ N := by exact_mod_cast h1
  have h2' : (N : ℚ) < (k + 1) * (k + 1) := by exact_mod_cast h2
  have hNv : (N : ℚ) = v * (v.den * 10 ^ 12) ^ 2 := by
    rw [← hN]
    push_cast
    rw [hv']
    have : ((a : ℚ) / v.den).den = v.den := by rw [← hv']
    rw [this]
    field_simp
    norm_num
  have hp : (0 : ℚ) < (v.den * 10 ^ 12) ^ 2 := by positivity
  rw [div_pow]
  constructor
  · rw [div_le_iff₀ hp, mul_assoc, ← hNv]
    nlinarith [sq_nonneg (k : ℚ)]
  · rw [← mul_div_assoc, le_div_iff₀ hp, ← hNv]
    by_cases hz : a = 0
    · have : N = 0 := by rw [← hN, hz]; simp
      rw [this]
      push_cast
      positivity
    · have hge : (10 ^ 12) * (10 ^ 12) ≤ N := by
        rw [← hN]
        have : 1 ≤ a * v.den := Nat.mul_pos (Nat.pos_of_ne_zero hz) v.den_pos
        calc 10 ^ 12 * 10 ^ 12 = 1 * 10 ^ 24 := by norm_num
          _ ≤ _ := Nat.mul_le_mul_right _ this
      have hk12 : 10 ^ 12 ≤ k := by rw [← hk]; exact Nat.le_sqrt.2 hge
      have hk' : (10 ^ 12 : ℚ) ≤ k := by exact_mod_cast hk12
      have : (k : ℚ) + 1 ≤ (1 + 1 / 10 ^ 12) * k := by
        have : (1 : ℚ) ≤ 1 / 10 ^ 12 * k := by rw [div_mul_eq_mul_div, le_div_iff₀ (by norm_num)]; linarith
        linarith
      have h0 : (0 : ℚ) ≤ k + 1 := by positivity
      calc (N : ℚ) ≤ (k + 1) * (k + 1) := h2'.le
        _ ≤ ((1 + 1 / 10 ^ 12) * k) * ((1 + 1 / 10 ^ 12) * k) := mul_le_mul this this h0 (h0.trans this)
        _ = _ := by ring

end GCodeUtils
