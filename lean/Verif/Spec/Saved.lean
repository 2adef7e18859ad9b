import Verif.Spec.Filter
import Verif.Model.Arc
import Verif.Model.Visit

/-
  Programs changed by filters, one after the other (specification of C110).
-/

namespace GCodeUtils.Spec

variable {α : Type} [Field α] [LinearOrder α] [IsStrictOrderedRing α] [FloorRing α]

/-- The second program comes from the first by any number of passes of the filters, in any order: translation, conversion
to relative extrusion, pauses, arcs. -/
inductive Passes (t : Trig α) : GCode α → GCode α → Prop
  | none (g) : Passes t g g
  | translated {g h k} (x y : Option α) : Passes t g h → h.translate x y = .ok k → Passes t g k
  | relative {g h k} : Passes t g h → h.toRelativeE = .ok k → Passes t g k
  | paused {g h k} (mode : RoundMode) (digits : ℕ) (pauses : List ℤ) : Passes t g h → h.pauseAt mode digits pauses = .ok k → Passes t g k
  | arcs {g h k} : Passes t g h → h.optimizeArcs t = .ok k → Passes t g k

end GCodeUtils.Spec
