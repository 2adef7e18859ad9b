import Verif.Model.GCode

/-
  gcodeutils/filter/filter.py: the filter framework;
  gcodeutils/filter/translate.py and gcodeutils/filter/relative_extrusion.py.
-/

namespace GCodeUtils

variable {α : Type} [Field α] [LinearOrder α] [IsStrictOrderedRing α] [FloorRing α]

/-- What an `opcode_filter` returns (filter.py:21-30): `None`, one line (`list += line` raises `TypeError`,
the line is appended), or a list of lines. -/
inductive FResult (α : Type) where
  | keep
  | one (l : PyLine α)
  | many (ls : List (PyLine α))
  deriving DecidableEq, Repr

/-- An `opcode_filter` with the filter object's attributes as explicit state. -/
abbrev OpFilter (σ α : Type) := σ → PyLine α → Except Err (σ × FResult α)

/-- filter.py:20-30: one iteration of the loop; state, dirty flag, new layer. -/
def parseLayerStep {σ : Type} (f : OpFilter σ α) (st : σ × Bool × List (PyLine α)) (l : PyLine α) :
    Except Err (σ × Bool × List (PyLine α)) :=
  match f st.1 l with
  | .error er => .error er
  | .ok (s, .keep) => .ok (s, st.2.1, st.2.2 ++ [l])
  | .ok (s, .one r) => .ok (s, true, st.2.2 ++ [r])
  | .ok (s, .many rs) => .ok (s, true, st.2.2 ++ rs)

/-- filter.py:17-33 `parse_layer`. -/
def parseLayer {σ : Type} (f : OpFilter σ α) (s : σ) (layer : List (PyLine α)) :
    Except Err (σ × List (PyLine α)) :=
  match layer.foldlM (parseLayerStep f) (s, false, []) with
  | .error er => .error er
  | .ok (s, dirty, new) => .ok (s, if dirty then new else layer)

/-- filter.py:14-15: the loop over the layers. -/
def parseLayers {σ : Type} (f : OpFilter σ α) (s : σ) : List (Layer α) → Except Err (σ × List (Layer α))
  | [] => .ok (s, [])
  | L :: rest =>
    match parseLayer f s L.lines with
    | .error er => .error er
    | .ok (s, ls) =>
      match parseLayers f s rest with
      | .error er => .error er
      | .ok (s, Ls) => .ok (s, { L with lines := ls } :: Ls)

/-- filter.py:10-15 `filter` / `parse_gcode`. -/
def runFilter {σ : Type} (f : OpFilter σ α) (s : σ) (g : GCode α) : Except Err (σ × GCode α) :=
  match parseLayers f s g.allLayers with
  | .error er => .error er
  | .ok (s, Ls) => .ok (s, { g with allLayers := Ls })

/-! ### translate.py -/

/-- translate.py:13-19: attributes of `GCodeXYTranslateFilter`. -/
structure TransSt (α : Type) where
  tx : α
  ty : α
  firstMoveAfterHome : Bool := false
  /-- `absolute_distance_mode`; `none` when unknown -/
  absMode : Option Bool := none
  deriving DecidableEq, Repr

/-- translate.py:13-19 `__init__(x, y)`: `x or 0.` -/
def TransSt.init (x y : Option α) : TransSt α := { tx := x.getD 0, ty := y.getD 0 }

/-- translate.py:21-22 `generate_translation`. -/
def generateTranslation (s : TransSt α) : PyLine α :=
  rawToLine (c!"G0 X" ++ fmtFixed 4 s.tx ++ c!" Y" ++ fmtFixed 4 s.ty)

/-- translate.py:40-49: hard-patch an absolute move. -/
def translateMove (s : TransSt α) (l : PyLine α) : PyLine α :=
  let l := match l.x with
    | some x => if s.tx ≠ 0 then unsplit { l with x := some (x + s.tx) } else l
    | none => l
  match l.y with
  | some y => if s.ty ≠ 0 then unsplit { l with y := some (y + s.ty) } else l
  | none => l

/-- translate.py:59-81: `G92`. -/
def translateG92 (s : TransSt α) (l : PyLine α) : TransSt α × PyLine α :=
  if l.x = none ∧ l.y = none ∧ l.z = none then
    ({ s with tx := 0, ty := 0 }, unsplit { l with x := some (-s.tx), y := some (-s.ty) })
  else
    let (s, l) := match l.x with
      | some x => ({ s with tx := 0 }, { l with x := some (x - s.tx) })
      | none => (s, l)
    let (s, l) := match l.y with
      | some y => ({ s with ty := 0 }, { l with y := some (y - s.ty) })
      | none => (s, l)
    (s, unsplit l)

/-- translate.py:24-81 `opcode_filter`. -/
def translateFilter : OpFilter (TransSt α) α := fun s l =>
  if l.inMoves then
    match s.absMode with
    | none => .ok (s, .keep)
    | some false =>
      if s.firstMoveAfterHome then
        .ok ({ s with firstMoveAfterHome := false }, .many [generateTranslation s, l])
      else .ok (s, .keep)
    | some true => .ok (s, .one (translateMove s l))
  else if l.isCmd c!"G90" then .ok ({ s with absMode := some true }, .keep)
  else if l.isCmd c!"G91" then .ok ({ s with absMode := some false }, .keep)
  else if l.isCmd c!"G92" then
    let (s, l) := translateG92 s l
    .ok (s, .one l)
  else .ok (s, .keep)

/-- `GCodeXYTranslateFilter(x, y).filter(gcode)`. -/
def GCode.translate (g : GCode α) (x y : Option α) : Except Err (GCode α) :=
  (runFilter translateFilter (TransSt.init x y) g).map (·.2)

/-! ### relative_extrusion.py -/

/-- relative_extrusion.py:12-14: attributes of `GCodeToRelativeExtrusionFilter`.  `Decimal(float)` and
`float(Decimal)` are exact inverses on floats and are not distinguished. -/
structure RelSt (α : Type) where
  relative : Bool
  current : α
  deriving DecidableEq, Repr

/-- relative_extrusion.py:12-14 `__init__`. -/
def RelSt.init : RelSt α := { relative := false, current := 0 }

/-- relative_extrusion.py:16-42 `opcode_filter`. -/
def relExtFilter : OpFilter (RelSt α) α := fun s l =>
  if l.isCmd c!"M83" then .ok ({ s with relative := true }, .keep)
  else if l.isCmd c!"M82" then .ok ({ s with relative := false }, .one (rawToLine c!"M83"))
  else if l.isCmd c!"G92" then
    match l.e with
    | some e => .ok ({ s with current := e }, .keep)
    | none =>
      if l.x = none ∧ l.y = none ∧ l.z = none then .ok ({ s with current := 0 }, .keep)
      else .ok (s, .keep)
  else if l.inMoves && !s.relative then
    match l.e with
    | some e =>
      .ok ({ s with current := e },
           .one (unsplit { l with e := some (e - s.current), relativeE := some true }))
    | none => .ok (s, .keep)
  else .ok (s, .keep)

/-- `GCodeToRelativeExtrusionFilter().filter(gcode)`. -/
def GCode.toRelativeE (g : GCode α) : Except Err (GCode α) :=
  (runFilter relExtFilter RelSt.init g).map (·.2)

end GCodeUtils
