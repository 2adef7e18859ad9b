import Verif.Model.GCode

/-
  Specification for light programs: a light program is the full program of which only the text of the lines is kept.
-/

set_option linter.unusedSectionVars false

namespace GCodeUtils.Spec

open GCodeUtils

variable {α : Type} [Field α] [LinearOrder α] [IsStrictOrderedRing α] [FloorRing α]

/-- Only the text of a line. -/
def textOnly (l : PyLine α) : PyLine α := { raw := l.raw }

/-- A layer with only the texts of its lines. -/
def Layer.textOnly (L : Layer α) : Layer α := { L with lines := L.lines.map Spec.textOnly }

/-- A program with only the texts of its lines; everything computed about the program as a whole is kept. -/
def lighten (g : GCode α) : GCode α :=
  { g with light := true, lines := g.lines.map textOnly, allLayers := g.allLayers.map Layer.textOnly }

end GCodeUtils.Spec
