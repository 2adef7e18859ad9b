import Verif.Spec.Filter
import Verif.Spec.Grammar
import Verif.Model.Arc
import Verif.Model.Visit
import Verif.Model.Stretch

/-
  Programs changed by all filters, one after the other (specification of C129).
-/

namespace GCodeUtils.Spec

open GCodeUtils

variable {α : Type} [Field α] [LinearOrder α] [IsStrictOrderedRing α] [FloorRing α]

/-- The second program comes from the first by any number of passes of the filters, in any order: translation, conversion
to relative extrusion, pauses, arcs, stretching. -/
inductive AllPasses (t : Trig α) (sqrt : α → α) : GCode α → GCode α → Prop
  | none (g) : AllPasses t sqrt g g
  | translated {g h k} (x y : Option α) : AllPasses t sqrt g h → h.translate x y = .ok k → AllPasses t sqrt g k
  | relative {g h k} : AllPasses t sqrt g h → h.toRelativeE = .ok k → AllPasses t sqrt g k
  | paused {g h k} (mode : RoundMode) (digits : ℕ) (pauses : List ℤ) : AllPasses t sqrt g h → h.pauseAt mode digits pauses = .ok k → AllPasses t sqrt g k
  | arcs {g h k} : AllPasses t sqrt g h → h.optimizeArcs t = .ok k → AllPasses t sqrt g k
  | stretched {g h k} (fuel : ℕ) (slicer : Slicer) (repo : StretchRepo α) (profile : ProfileOracle α) :
      AllPasses t sqrt g h → h.stretch sqrt fuel slicer repo profile = .ok k → AllPasses t sqrt g k

/-- Apart from a line number, the text has a word or a comment. -/
def Worded (r : Str) : Prop := ∀ ws, Reads letters true (lower r) ws → afterNumber ws ≠ []

end GCodeUtils.Spec
