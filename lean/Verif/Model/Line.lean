import Verif.Model.Lex

/-
  gcodeutils/gcoder.py:34-184: lines, splitting, formatting, coordinate parsing, comparison.
-/

namespace GCodeUtils

variable {α : Type} [Field α] [LinearOrder α] [IsStrictOrderedRing α] [FloorRing α]

/-- gcoder.py:46-60 `PyLine`.  A slot that was never assigned reads as `None` (`__getattr__`), which is
`none` here.  `raw` is `None` only between `Line()` and the following `unsplit`; the model uses the empty text
for that.  The slot `gcview_end_vertex` is never used. -/
structure PyLine (α : Type) where
  raw : Str := []
  command : Option Str := none
  x : Option α := none
  y : Option α := none
  z : Option α := none
  e : Option α := none
  f : Option α := none
  i : Option α := none
  j : Option α := none
  isMove : Bool := false
  relative : Option Bool := none
  relativeE : Option Bool := none
  currentX : Option α := none
  currentY : Option α := none
  currentZ : Option α := none
  currentE : Option α := none
  currentF : Option α := none
  currentTool : Option ℤ := none
  extruding : Option Bool := none
  deriving DecidableEq, Repr

/-- gcoder.py:34 `move_gcodes`. -/
def moveGcodes : List Str := [c!"G0", c!"G1", c!"G2", c!"G3"]

/-- gcoder.py:35 `linear_move_gcodes`. -/
def linearMoveGcodes : List Str := [c!"G0", c!"G1"]

/-- `line.command in move_gcodes` (gcoder.py:160, translate.py:25, relative_extrusion.py:35,
arc_optimizer.py:345). -/
def PyLine.inMoves (l : PyLine α) : Bool :=
  match l.command with
  | some c => moveGcodes.contains c
  | none => false

/-- `line.command in linear_move_gcodes` (stretch.py:176,449,491,572,…). -/
def PyLine.inLinear (l : PyLine α) : Bool :=
  match l.command with
  | some c => linearMoveGcodes.contains c
  | none => false

/-- `line.command == c` for a literal `c`. -/
def PyLine.isCmd (l : PyLine α) (c : Str) : Bool := l.command == some c

/-- gcoder.py:54 `EQ_EPSILON = 1e-3`. -/
def eqEpsilon : α := 1 / 1000

/-- One round of the loop gcoder.py:69-83: compare two optional argument values. -/
def argEq (a b : Option α) : Bool :=
  match a, b with
  | none, none => true
  | none, some _ => false
  | some _, none => false
  | some u, some v => !decide (eqEpsilon < |u - v|)

/-- gcoder.py:62-85 `PyLine.__eq__` on two `PyLine`s: command, then x, y, z, e, f, i, j in the order of
`gcode_possible_arguments` (gcoder.py:36). -/
def PyLine.eq (a b : PyLine α) : Bool :=
  if a.command ≠ b.command then false
  else argEq a.x b.x && argEq a.y b.y && argEq a.z b.z && argEq a.e b.e && argEq a.f b.f
    && argEq a.i b.i && argEq a.j b.j

/-- gcoder.py:87-88 `PyLine.__ne__`. -/
def PyLine.ne (a b : PyLine α) : Bool := !a.eq b

/-- gcoder.py:147-148: drop a leading line number. -/
def dropN (toks : List Tok) : List Tok :=
  match toks with
  | some (c, v) :: rest => if c = 'n' then rest else some (c, v) :: rest
  | t => t

/-- gcoder.py:145-161 `split`: sets `command` and `is_move`, returns the tokens.
For an unparsable line Python returns `[line.raw]`, a list that `parse_coordinates` never looks at (the
command is then the raw text, whose first character is not `G`); the model returns `[]` there. -/
def split (l : PyLine α) : PyLine α × List Tok :=
  match dropN (findall (lower l.raw)) with
  | [] => ({ l with command := some l.raw, isMove := false }, [])
  | t :: rest =>
    let l := match t with
      | some (c, v) => { l with command := some (c.toUpper :: v) }
      | none => l
    ({ l with isMove := l.inMoves }, t :: rest)

/-- gcoder.py:139-143 `raw_to_line`. -/
def rawToLine (raw : Str) : PyLine α := (split { raw := raw }).1

/-- gcoder.py:164-171 `unsplit`, one argument: `" {}{:.3f}"` (`.5f` for E). -/
def fmtArg (letter : Char) (d : ℕ) (v : Option α) : Str :=
  match v with
  | none => []
  | some a => ' ' :: letter :: fmtFixed d a

/-- gcoder.py:164-171 `unsplit`: rebuild `raw` from command and arguments.  Every caller has set `command`;
on `None` Python would raise `TypeError` (modelled as the empty command, never used). -/
def unsplit (l : PyLine α) : PyLine α :=
  { l with raw := l.command.getD [] ++ fmtArg 'X' 3 l.x ++ fmtArg 'Y' 3 l.y ++ fmtArg 'Z' 3 l.z
      ++ fmtArg 'E' 5 l.e ++ fmtArg 'F' 3 l.f ++ fmtArg 'I' 3 l.i ++ fmtArg 'J' 3 l.j }

/-- `setattr(line, code, v)` for the argument letters (gcoder.py:184). -/
def PyLine.setArg (l : PyLine α) (c : Char) (v : α) : PyLine α :=
  if c = 'x' then { l with x := some v }
  else if c = 'y' then { l with y := some v }
  else if c = 'z' then { l with z := some v }
  else if c = 'e' then { l with e := some v }
  else if c = 'f' then { l with f := some v }
  else if c = 'i' then { l with i := some v }
  else if c = 'j' then { l with j := some v }
  else l

/-- gcoder.py:181-184: one token of `parse_coordinates`. -/
def parseTok (unit : α) (l : PyLine α) (t : Tok) : Except Err (PyLine α) :=
  match t with
  | none => .ok l
  | some (c, v) =>
    if !nonArgLetters.contains c && !v.isEmpty then
      match (parseFloat v : Option α) with
      | some a => .ok (l.setArg c (unit * a))
      | none => .error .valueError
    else .ok l

/-- gcoder.py:174-184 `parse_coordinates` (with `force=False`, the only way it is called). -/
def parseCoordinates (l : PyLine α) (toks : List Tok) (imperial : Bool) : Except Err (PyLine α) :=
  match l.command with
  | none => .ok l
  | some c =>
    if c.head? ≠ some 'G' then .ok l
    else toks.foldlM (parseTok (if imperial then 254 / 10 else 1)) l

end GCodeUtils
