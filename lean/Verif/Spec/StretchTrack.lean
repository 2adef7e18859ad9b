import Verif.Spec.Exec
import Verif.Spec.Stretch

/-
  Specification: two printers side by side, one following a program, the other the stretched program.
-/

set_option linter.unusedSectionVars false

namespace GCodeUtils.Spec

open GCodeUtils

variable {α : Type} [Field α] [LinearOrder α] [IsStrictOrderedRing α] [FloorRing α]

/-- Printer `b` is in the same modes, has the same offsets and tool as `a`, and its head is at the same height and within `t` of
that of `a` along X and along Y (in each case up to half a thousandth of a millimetre). -/
structure Beside (t : α) (a b : Printer α) : Prop where
  inch : a.inch = false ∧ b.inch = false
  rel : a.rel = false ∧ b.rel = false
  relE : b.relE = a.relE
  tool : b.tool = a.tool
  org : b.org = a.org ∧ a.org.x = 0 ∧ a.org.y = 0
  x : |b.pos.x - a.pos.x| ≤ t + 5 / 10 ^ 4
  y : |b.pos.y - a.pos.y| ≤ t + 5 / 10 ^ 4
  z : |b.pos.z - a.pos.z| ≤ 5 / 10 ^ 4

/-- In millimetres, absolute coordinates, no re-labelling of X, Y, Z. -/
def Straight (l : PyLine α) : Prop :=
  ¬ HasCmd l c!"G20" ∧ ¬ HasCmd l c!"G91" ∧ (HasCmd l c!"G92" → l.x = none ∧ l.y = none ∧ l.z = none)

instance (l : PyLine α) : Decidable (Straight l) := by unfold Straight; infer_instance

/-- A move with E word, or the line that selects absolute extrusion, does not contain the text `p`. -/
def Silent (p : Str) (l : PyLine α) : Prop := (IsMove l ∧ l.e ≠ none) ∨ HasCmd l c!"M82" → ¬ p <:+: l.raw

instance (p : Str) (l : PyLine α) : Decidable (Silent p l) := by unfold Silent; infer_instance

end GCodeUtils.Spec
