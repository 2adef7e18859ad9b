import Verif.Model.GCode

/-
  Independent description of "the index arrays address the layers": the list of all positions
  (layer number, line number) of a list of layers, in reading order.
-/

set_option linter.unusedSectionVars false

namespace GCodeUtils.Spec

open GCodeUtils

/-- Positions of a list of lists in reading order, layers numbered from `k`. -/
def positionsFrom {β : Type} (k : ℕ) : List (List β) → List (ℕ × ℕ)
  | [] => []
  | L :: Ls => (List.range L.length).map (fun j => (k, j)) ++ positionsFrom (k + 1) Ls

/-- Positions of a list of lists in reading order: `(0,0), (0,1), …, (1,0), …`. -/
def positions {β : Type} (Ls : List (List β)) : List (ℕ × ℕ) := positionsFrom 0 Ls

variable {α : Type} [Field α] [LinearOrder α] [IsStrictOrderedRing α] [FloorRing α]

/-- The lines of each layer. -/
def layerLines (g : GCode α) : List (List (PyLine α)) := g.allLayers.map (·.lines)

/-- The index arrays enumerate the layers: entry `i` of `layer_idxs`/`line_idxs` is the position of line `i`. -/
structure Indexed (g : GCode α) : Prop where
  flat : g.lines = (layerLines g).flatten
  layer : g.layerIdxs = (positions (layerLines g)).map (·.1)
  line : g.lineIdxs = (positions (layerLines g)).map (·.2)

/-- The command-bearing lines of a program, in order: what the comparison is about. -/
def commandLines (g : GCode α) : List (PyLine α) := (layerLines g).flatten.filter (fun l => l.command ≠ none)

end GCodeUtils.Spec
