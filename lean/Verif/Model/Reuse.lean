import Verif.Model.Arc

/-
  One filter object used for several programs.  gcodeutils/filter/filter.py:10-15 (`filter`) keeps the attributes of the
  object; translate.py, relative_extrusion.py and arc_optimizer.py set them in `__init__` only.
-/

namespace GCodeUtils

variable {α : Type} [Field α] [LinearOrder α] [IsStrictOrderedRing α] [FloorRing α]

/-- filter.py:10-15: `[f.filter(g) for g in gs]` for one filter object `f` with attributes `s`; an exception ends the loop. -/
def filterAll {σ : Type} (run : σ → GCode α → Except Err (σ × GCode α)) : σ → List (GCode α) → Except Err (List (GCode α))
  | _, [] => .ok []
  | s, g :: gs =>
    match run s g with
    | .error er => .error er
    | .ok (s, g) =>
      match filterAll run s gs with
      | .error er => .error er
      | .ok out => .ok (g :: out)

/-- translate.py:13-19 and filter.py:10-15: `f = GCodeXYTranslateFilter(x, y)` and `[f.filter(g) for g in gs]`. -/
def translateAll (x y : Option α) (gs : List (GCode α)) : Except Err (List (GCode α)) :=
  filterAll (runFilter translateFilter) (TransSt.init x y) gs

/-- relative_extrusion.py:12-14 and filter.py:10-15: the same for `GCodeToRelativeExtrusionFilter()`. -/
def toRelativeEAll (gs : List (GCode α)) : Except Err (List (GCode α)) := filterAll (runFilter relExtFilter) RelSt.init gs

/-- arc_optimizer.py:84-88, 118-122: the same for `GCodeArcOptimizerFilter()`. -/
def optimizeArcsAll (t : Trig α) (gs : List (GCode α)) : Except Err (List (GCode α)) := filterAll (arcRun (arcOps t)) {} gs

end GCodeUtils
