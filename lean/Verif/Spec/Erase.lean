import Verif.Model.GCode

/-
  "The same up to the texts of the lines": used to compare what two spellings of a program mean.
-/

set_option linter.unusedSectionVars false

namespace GCodeUtils

variable {α : Type} [Field α] [LinearOrder α] [IsStrictOrderedRing α] [FloorRing α]

/-- The line with another text. -/
def withRaw (r : Str) (l : PyLine α) : PyLine α := { l with raw := r }

/-- The object with all line texts erased. -/
def GCode.eraseText (g : GCode α) : GCode α :=
  { g with lines := g.lines.map (withRaw []),
           allLayers := g.allLayers.map (fun L => { L with lines := L.lines.map (withRaw []) }) }

end GCodeUtils
