import Verif.Model.Arc
import Verif.Model.Stretch

/-
  The arc filter and the stretch filters applied to a light program.  Light lines have only the attributes `raw` and `command`
  (gcoder.py:97-104), reading any other gives `None`, and setting any other raises `AttributeError`.  The remaining filters only
  read attributes of lines without command, so that the model of them for full programs serves for light programs as well.
-/

namespace GCodeUtils

variable {α : Type} [Field α] [LinearOrder α] [IsStrictOrderedRing α] [FloorRing α]

/-- arc_optimizer.py:330-376 `opcode_filter` on a light line: lines 336-341 set attributes of a line without command when the queue is
not empty.  The rest only reads the line. -/
def arcFilterLight (ops : ArcOps α) : OpFilter (ArcSt α) α := fun s l =>
  if l.command = none ∧ s.queue ≠ [] then .error .attributeError else arcFilter ops s l

/-- arc_optimizer.py:118-122 `parse_gcode` on a light program, with a fresh filter object. -/
def GCode.optimizeArcsLight (t : Trig α) (g : GCode α) : Except Err (GCode α) :=
  match runFilter (arcFilterLight (arcOps t)) {} g with
  | .error er => .error er
  | .ok (s, g) =>
    .ok (if s.queue.isEmpty then g
      else { g with allLayers := modifyLast (fun L => { L with lines := L.lines ++ s.queue }) g.allLayers })

/-- stretch.py:324-335 `filter` on a light program: the marks are appended to `raw`; then the first line is given to `split`
(gcoder.py:143-159), which sets `is_move` on every path. -/
def GCode.stretchLight (slicer : Slicer) (repo : StretchRepo α) (profile : ProfileOracle α) (g : GCode α) : Except Err (GCode α) :=
  match setupFilter slicer repo profile g.allLayers with
  | .error er => .error er
  | .ok (_, Ls) => if Ls.all (fun L => L.lines.isEmpty) then .ok { g with allLayers := Ls } else .error .attributeError

end GCodeUtils
