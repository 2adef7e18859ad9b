import Verif.Model.Compare

/-
  gcodeutils/visit/iterator.py, visitor.py, pause_at_layer.py.
-/

namespace GCodeUtils

variable {α : Type} [Field α] [LinearOrder α] [IsStrictOrderedRing α] [FloorRing α]

/-- iterator.py:15-24 `GCodeIteratorInformation` (the program itself is passed separately). -/
structure Info where
  layerNumber : ℕ
  layerIndex : ℕ
  /-- can be -1 in `did_visit_layer` of an empty first layer -/
  lineNumber : ℤ
  isPrinted : Bool
  deriving DecidableEq, Repr

/-- visitor.py:9-26 `GCodeVisitor`.  `will_visit_layer` and `visit_line` may change the visitor only,
`did_visit_layer` may also change the program (this covers every visitor in the repository). -/
structure Visitor (ν α : Type) where
  willVisit : ν → List (PyLine α) → Info → ν
  visitLine : ν → PyLine α → Info → ν
  didVisit : ν → GCode α → List (PyLine α) → Info → Except Err (ν × GCode α)

/-- `list ==` on two lists of lines (used by `all_layers.index`, iterator.py:50): same length and pairwise
`PyLine.__eq__`. -/
def linesEq : List (PyLine α) → List (PyLine α) → Bool
  | [], [] => true
  | a :: as, b :: bs => a.eq b && linesEq as bs
  | _, _ => false

/-- `layer == parsed_layer` inside `all_layers.index(parsed_layer)` (iterator.py:50) for layers number `j` and `i`.
Lines of a light program have no `__eq__`, so that non-empty light layers are equal only if they are the same
object. -/
def sameLayer (light : Bool) (j i : ℕ) (a b : List (PyLine α)) : Bool :=
  if light then j == i || (a.isEmpty && b.isEmpty) else linesEq a b

/-- iterator.py:50 `all_layers.index(parsed_layer)` where `parsed_layer` is layer number `i`. -/
def layerIndex (g : GCode α) (i : ℕ) (layer : Layer α) : ℕ :=
  g.allLayers.zipIdx.findIdx (fun q => sameLayer g.light q.2 i q.1.lines layer.lines)

/-- `[round(z, digits) for z in all_zs]`: `round(None)` raises `TypeError`. -/
def roundZs (mode : RoundMode) (digits : ℕ) : List (Option α) → Except Err (List α)
  | [] => .ok []
  | none :: _ => .error .typeError
  | some z :: rest =>
    match roundZs mode digits rest with
    | .error er => .error er
    | .ok zs => .ok (pyRound mode digits z :: zs)

/-- iterator.py:33-41 `GCodeIterator.__init__`: the sorted rounded heights. -/
def iteratorZs (mode : RoundMode) (digits : ℕ) (g : GCode α) : Except Err (List α) :=
  match roundZs mode digits g.allZs with
  | .error er => .error er
  | .ok zs => .ok (zs.insertionSort (· ≤ ·))

/-- iterator.py:51-57: layer number and printed flag; the bare `except` catches both `round(None)` and a
failed `index`. -/
def layerNumber (mode : RoundMode) (digits : ℕ) (zs : List α) (z : Option α) (parsed : ℕ) : ℕ × Bool :=
  match z with
  | none => (parsed, false)
  | some z =>
    let r := pyRound mode digits z
    if r ∈ zs then (zs.idxOf r, true) else (parsed, false)

/-- iterator.py:68-77: visit the lines of a layer, counting from `n`. -/
def visitLines {ν : Type} (v : Visitor ν α) (num idx : ℕ) (printed : Bool) :
    ν → ℕ → List (PyLine α) → ν × ℕ
  | s, n, [] => (s, n)
  | s, n, l :: rest =>
    visitLines v num idx printed (v.visitLine s l ⟨num, idx, n, printed⟩) (n + 1) rest

/-- iterator.py:49-86: the loop over the layers, `fuel` layers starting with layer `i`; the layer list is
read from the current (possibly modified) program. -/
def acceptFrom {ν : Type} (mode : RoundMode) (digits : ℕ) (zs : List α) (v : Visitor ν α) :
    ℕ → ℕ → ν → ℕ → GCode α → Except Err (ν × GCode α)
  | 0, _, s, _, g => .ok (s, g)
  | fuel + 1, i, s, lineNo, g =>
    match g.allLayers[i]? with
    | none => .ok (s, g)
    | some layer =>
      let idx := layerIndex g i layer
      let (num, printed) := layerNumber mode digits zs layer.z i
      let s := v.willVisit s layer.lines ⟨num, idx, lineNo, printed⟩
      let (s, lineNo) := visitLines v num idx printed s lineNo layer.lines
      match v.didVisit s g layer.lines ⟨num, idx, (lineNo : ℤ) - 1, printed⟩ with
      | .error er => .error er
      | .ok (s, g) => acceptFrom mode digits zs v fuel (i + 1) s lineNo g

/-- iterator.py:43-86 `accept`, for a program whose number of layers the visitor does not change. -/
def accept {ν : Type} (mode : RoundMode) (digits : ℕ) (zs : List α) (v : Visitor ν α) (s : ν) (g : GCode α) :
    Except Err (ν × GCode α) :=
  acceptFrom mode digits zs v g.allLayers.length 0 s 0 g

/-- pause_at_layer.py:10 `PAUSE_COMMAND`. -/
def pauseCommand : Str := c!"M226"

/-- pause_at_layer.py:13-30 `PauseAtLayer(pause_layer_list)`.  Layer numbers given on the command line may be
negative (`type=int`), hence `ℤ`. -/
def pauseVisitor (pauses : List ℤ) : Visitor Unit α where
  willVisit := fun s _ _ => s
  visitLine := fun s _ _ => s
  didVisit := fun s g _ info =>
    if info.isPrinted && pauses.contains (info.layerNumber : ℤ) then
      match g.prependToLayer [pauseCommand] info.layerIndex with
      | .error er => .error er
      | .ok (g, _) => .ok (s, g)
    else .ok (s, g)

/-- `GCodeIterator(gcode, digits).accept(PauseAtLayer(pauses))`. -/
def GCode.pauseAt (mode : RoundMode) (digits : ℕ) (g : GCode α) (pauses : List ℤ) : Except Err (GCode α) :=
  match iteratorZs mode digits g with
  | .error er => .error er
  | .ok zs =>
    match accept mode digits zs (pauseVisitor pauses) () g with
    | .error er => .error er
    | .ok (_, g) => .ok g

end GCodeUtils
