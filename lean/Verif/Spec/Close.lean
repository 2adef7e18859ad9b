import Verif.Model.Line

/-
  Vocabulary for line comparison and printing.
-/

set_option linter.unusedSectionVars false

namespace GCodeUtils.Spec

open GCodeUtils

variable {α : Type} [Field α] [LinearOrder α] [IsStrictOrderedRing α] [FloorRing α]

/-- Both absent, or both present and at most `tol` apart. -/
def Within (tol : α) (a b : Option α) : Prop :=
  (a = none ∧ b = none) ∨ ∃ u v, a = some u ∧ b = some v ∧ |u - v| ≤ tol

/-- The text of an unsigned decimal number: digits with an optional fraction. -/
def IsDecimal (n : Str) : Prop :=
  ∃ a, a ≠ [] ∧ (∀ c ∈ a, c ∈ c!"0123456789") ∧
    (n = a ∨ ∃ b, (∀ c ∈ b, c ∈ c!"0123456789") ∧ n = a ++ '.' :: b)

end GCodeUtils.Spec
