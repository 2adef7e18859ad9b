import Verif.Model.Num

/-
  Numbers and durations as a reader of the report understands them (specification of C113).
-/

namespace GCodeUtils.Spec

open GCodeUtils

variable {α : Type} [Field α] [LinearOrder α] [IsStrictOrderedRing α] [FloorRing α]

/-- The text is a number with two decimals, and within half a hundredth of `v`. -/
def Shows (v : α) (t : Str) : Prop :=
  (∃ s ds a b, t = s ++ ds ++ ['.', a, b] ∧ (s = [] ∨ s = ['-']) ∧ ds ≠ [] ∧ ∀ c ∈ ds ++ [a, b], c ∈ c!"0123456789") ∧
  ∃ (w : α) (k : ℤ), parseFloat t = some w ∧ w = k / 100 ∧ |w - v| ≤ 1 / 200

/-- A whole number in decimal notation. -/
def CountText (n : ℕ) (t : Str) : Prop := t ≠ [] ∧ (∀ c ∈ t, c ∈ c!"0123456789") ∧ digitsVal t = n

/-- Hours, minutes and seconds, after a number of days unless that is 0. -/
def Clock (n : ℤ) (t : Str) : Prop :=
  ∃ (d : ℤ) (h m s : ℕ) (th tm ts : Str), h < 24 ∧ m < 60 ∧ s < 60 ∧ n = 86400 * d + 3600 * h + 60 * m + s ∧
    CountText h th ∧ CountText m tm ∧ tm.length = 2 ∧ CountText s ts ∧ ts.length = 2 ∧
    (d = 0 ∧ t = th ++ [':'] ++ tm ++ [':'] ++ ts ∨
      d ≠ 0 ∧ ∃ sg td : Str, CountText d.natAbs td ∧ (sg = [] ∧ 0 < d ∨ sg = ['-'] ∧ d < 0) ∧
        t = sg ++ td ++ (if d.natAbs = 1 then c!" day, " else c!" days, ") ++ th ++ [':'] ++ tm ++ [':'] ++ ts)

end GCodeUtils.Spec
