import Verif.Spec.Arc

/-
  Runs of moves that look like an arc (specification of C55 and C128).
-/

namespace GCodeUtils.Spec

variable {α : Type} [Field α] [LinearOrder α] [IsStrictOrderedRing α] [FloorRing α]

/-- Between `a` and `b` the program has eight or more extruding moves in a row that lie on an arc, at one `current_z`. -/
def ArcRun (t : Trig α) (x a w b : List (PyLine α)) : Prop :=
  x = a ++ (w ++ b) ∧ 8 ≤ w.length ∧ (∀ l ∈ w, IsMove l ∧ l.e ≠ none) ∧ ∃ s pts c r paths fils, OnArc t s w pts c r paths fils

end GCodeUtils.Spec
