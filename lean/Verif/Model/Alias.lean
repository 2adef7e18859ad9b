import Verif.Model.Filter
import Verif.Model.Stretch
import Verif.Model.Arc

/-
  Shared objects.  `GCode.lines` and `GCode.all_layers` hold the same `Line` objects after loading
  (gcoder.py:309, 474-476, 706).  A filter replaces the lists in `all_layers` (filter.py:31-33, stretch.py:331-335,
  arc_optimizer.py) and never touches the list `lines`, but it may mutate the objects both lists hold.  The
  functions below give the objects of the list `lines` after a filter has run on a loaded program;
  `GCode.write` (gcoder.py:786-790) reads `all_layers`, `for line in gcode` (gcoder.py:327-328) reads `lines`.
  Each object occurs once in the layers, in the order of the list (C11 for loaded programs), so the value of an
  object afterwards is its value after the one call of `opcode_filter` on it.
-/

namespace GCodeUtils

variable {α : Type} [Field α] [LinearOrder α] [IsStrictOrderedRing α] [FloorRing α]

/-- The objects handed to an `opcode_filter` one after another (filter.py:20-30), as they are after the call.
`obj s l` is the state of the object `l` after the call in filter state `s`. -/
def objectsAfter {σ : Type} (f : OpFilter σ α) (obj : σ → PyLine α → PyLine α) : σ → List (PyLine α) → Except Err (List (PyLine α))
  | _, [] => .ok []
  | s, l :: ls =>
    match f s l with
    | .error er => .error er
    | .ok (s', _) =>
      match objectsAfter f obj s' ls with
      | .error er => .error er
      | .ok out => .ok (obj s l :: out)

/-- translate.py:24-81 `opcode_filter`: every single line it returns is the object it was given, mutated
(`opcode.x += ...; unsplit(opcode); return opcode`, :40-49, :60-70, :72-81); otherwise the object is unchanged. -/
def translateObject (s : TransSt α) (l : PyLine α) : PyLine α :=
  match translateFilter s l with
  | .ok (_, .one r) => r
  | _ => l

/-- relative_extrusion.py:16-42 `opcode_filter`: for `M82` a new object is returned (:21-23, `raw_to_line`) and the
given one is unchanged; for a move with E the object is mutated and returned (:35-42). -/
def relExtObject (s : RelSt α) (l : PyLine α) : PyLine α :=
  if l.isCmd c!"M82" then l
  else match relExtFilter s l with
    | .ok (_, .one r) => r
    | _ => l

/-- `list(gcode)` after `GCodeXYTranslateFilter(x, y).filter(gcode)`. -/
def GCode.iterTranslate (g : GCode α) (x y : Option α) : Except Err (List (PyLine α)) :=
  objectsAfter translateFilter translateObject (TransSt.init x y) g.lines

/-- `list(gcode)` after `GCodeToRelativeExtrusionFilter().filter(gcode)`. -/
def GCode.iterToRelativeE (g : GCode α) : Except Err (List (PyLine α)) :=
  objectsAfter relExtFilter relExtObject RelSt.init g.lines

/-- The texts of `list(gcode)` after `StretchFilter.filter(gcode)` (stretch.py:324-335).  The annotation passes append
to `line.raw` of the objects (`line.raw += ...`, stretch.py:533-762); a displaced line is a new object
(`Line()`, stretch.py:429-446) and goes to the layer only; the re-parse (:333-334) does not change `raw`. -/
def GCode.iterStretch (sqrt : α → α) (fuel : ℕ) (slicer : Slicer) (repo : StretchRepo α) (profile : ProfileOracle α)
    (g : GCode α) : Except Err (List Str) :=
  match setupFilter slicer repo profile g.allLayers with
  | .error er => .error er
  | .ok (dist, Ls) =>
    match stretchLayers sqrt fuel slicer.forward slicer.backward { StretchSt.init with dist := dist } Ls with
    | .error er => .error er
    | .ok _ => .ok ((Ls.flatMap (·.lines)).map (·.raw))

/-- The texts of `list(gcode)` after `GCodeArcOptimizerFilter().filter(gcode)`.  The generated lines are new objects
(arc_optimizer.py:292-330); no existing object's `raw` is assigned. -/
def GCode.iterArcs (t : Trig α) (g : GCode α) : Except Err (List Str) :=
  (g.optimizeArcs t).map (fun _ => g.lines.map (·.raw))

end GCodeUtils
