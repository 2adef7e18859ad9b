import Verif.Spec.Converted
import Verif.Spec.Filter

/-
  What the analysis of a program says about it, and programs whose numbers survive being written (specification of C114).
-/

namespace GCodeUtils.Spec

variable {α : Type} [Field α] [LinearOrder α] [IsStrictOrderedRing α] [FloorRing α]

/-- No number of the line is changed by writing it with three decimals (E: five decimals). -/
def ShortNumbers (l : PyLine α) : Prop :=
  (∀ o ∈ [l.x, l.y, l.z, l.f, l.i, l.j], ∀ v, o = some v → ∃ k : ℤ, v = k / 10 ^ 3) ∧ ∀ v, l.e = some v → ∃ k : ℤ, v = k / 10 ^ 5

/-- The two programs have the same filament, bounding box, heights, layer height, and the same number of lines distributed over the
same layers at the same heights. -/
structure SameAnalysis (g g' : GCode α) : Prop where
  filament : g'.filamentLength = g.filamentLength
  x : g'.xmin = g.xmin ∧ g'.xmax = g.xmax ∧ g'.width = g.width
  y : g'.ymin = g.ymin ∧ g'.ymax = g.ymax ∧ g'.depth = g.depth
  z : g'.zmin = g.zmin ∧ g'.zmax = g.zmax ∧ g'.height = g.height
  heights : g'.allZs = g.allZs
  estimate : g'.est = g.est
  lines : g'.lines.length = g.lines.length
  layers : g'.allLayers.map (fun L => (L.z, L.lines.length)) = g.allLayers.map (fun L => (L.z, L.lines.length))
  indices : g'.layerIdxs = g.layerIdxs ∧ g'.lineIdxs = g.lineIdxs

/-- The two programs take the same time, as a whole and layer by layer. -/
def SameDuration (g g' : GCode α) : Prop :=
  g'.duration = g.duration ∧ g'.allLayers.map (·.duration) = g.allLayers.map (·.duration)

end GCodeUtils.Spec
