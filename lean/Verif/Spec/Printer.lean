import Verif.Model.Lex

/-
  A reference printer, written from the G-code conventions and independently of the loading loop.  It shares with the
  model only the tokenizer (`findall`) and the reading of decimal numbers (`parseFloat`, `parseInt`).

  Conventions: words after comments have been removed; an optional leading line number `N…`; the first word is the
  command, the others its arguments; the last value given for a letter counts.
-/

set_option linter.unusedSectionVars false

namespace GCodeUtils.Spec

open GCodeUtils

variable {α : Type} [Field α] [LinearOrder α] [IsStrictOrderedRing α] [FloorRing α]

/-- A point. -/
structure Pos3 (α : Type) where
  x : α
  y : α
  z : α
  deriving DecidableEq, Repr

/-- State of the reference printer: modes, tool, where the head is (`pos`), where the program's coordinate origin is
(`org`), the same for the filament (`e`, `eOrg`), feed rate, net filament pushed so far and its maximum. -/
structure Printer (α : Type) where
  inch : Bool
  rel : Bool
  relE : Bool
  tool : ℤ
  pos : Pos3 α
  org : Pos3 α
  e : α
  eOrg : α
  feed : α
  pushed : α
  maxPushed : α
  deriving DecidableEq, Repr

/-- Power-on state. -/
def Printer.start : Printer α :=
  { inch := false, rel := false, relE := false, tool := 0, pos := ⟨0, 0, 0⟩, org := ⟨0, 0, 0⟩, e := 0, eOrg := 0,
    feed := 0, pushed := 0, maxPushed := 0 }

/-- The words of a line of text, comments removed. -/
def words (raw : Str) : List (Char × Str) := (findall (lower raw)).filterMap id

/-- Command and words of a line of text; `none` for a line without command. -/
def instr (raw : Str) : Option (Str × List (Char × Str)) :=
  match words raw with
  | ('n', _) :: (c, v) :: ws => some (c.toUpper :: v, (c, v) :: ws)
  | [('n', _)] => none
  | (c, v) :: ws => some (c.toUpper :: v, (c, v) :: ws)
  | [] => none

/-- The value given for a letter: its last occurrence that carries a number, times the unit. -/
def value (u : α) : List (Char × Str) → Char → Option α
  | [], _ => none
  | (c, v) :: ws, k => (value u ws k).or (if c = k ∧ v ≠ [] then (parseFloat v).map (u * ·) else none)

/-- Target of one axis. -/
def axis (rel : Bool) (pos org : α) : Option α → α
  | none => pos
  | some k => if rel then pos + k else org + k

/-- Millimetres per program unit. -/
def Printer.unit (p : Printer α) : α := if p.inch then 254 / 10 else 1

/-- Filament pushed by a move with the given E word. -/
def Printer.push (p : Printer α) : Option α → α
  | none => 0
  | some k => axis p.relE p.e p.eOrg (some k) - p.e

/-- A move. -/
def Printer.move (p : Printer α) (ws : List (Char × Str)) : Printer α :=
  let v := value p.unit ws
  let d := p.push (v 'e')
  { p with
    pos := ⟨axis p.rel p.pos.x p.org.x (v 'x'), axis p.rel p.pos.y p.org.y (v 'y'), axis p.rel p.pos.z p.org.z (v 'z')⟩
    feed := (v 'f').getD p.feed
    e := p.e + d
    pushed := p.pushed + d
    maxPushed := max p.maxPushed (p.pushed + d) }

/-- Homing: the named axes, or all if none is named, go to their home position and lose their offset. -/
def Printer.homing (home : Pos3 α) (p : Printer α) (ws : List (Char × Str)) : Printer α :=
  let named (c : Char) : Bool := ws.any (·.1 == c)
  let all := !(named 'x' || named 'y' || named 'z')
  { p with
    pos := ⟨if named 'x' || all then home.x else p.pos.x, if named 'y' || all then home.y else p.pos.y,
            if named 'z' || all then home.z else p.pos.z⟩
    org := ⟨if named 'x' || all then 0 else p.org.x, if named 'y' || all then 0 else p.org.y,
            if named 'z' || all then 0 else p.org.z⟩ }

/-- Move the origin so that the current point gets the given coordinate. -/
def relabel (pos org : α) : Option α → α
  | none => org
  | some k => pos - k

/-- `G92`: nothing moves, the named coordinates are re-labelled. -/
def Printer.setPosition (p : Printer α) (ws : List (Char × Str)) : Printer α :=
  let v := value p.unit ws
  { p with
    org := ⟨relabel p.pos.x p.org.x (v 'x'), relabel p.pos.y p.org.y (v 'y'), relabel p.pos.z p.org.z (v 'z')⟩
    eOrg := relabel p.e p.eOrg (v 'e') }

/-- One instruction. -/
def Printer.step (home : Pos3 α) (p : Printer α) (cmd : Str) (ws : List (Char × Str)) : Printer α :=
  if cmd ∈ [c!"G0", c!"G1", c!"G2", c!"G3"] then p.move ws
  else if cmd = c!"G20" then { p with inch := true }
  else if cmd = c!"G21" then { p with inch := false }
  else if cmd = c!"G28" then p.homing home ws
  else if cmd = c!"G90" then { p with rel := false, relE := false }
  else if cmd = c!"G91" then { p with rel := true, relE := true }
  else if cmd = c!"G92" then p.setPosition ws
  else if cmd = c!"M82" then { p with relE := false }
  else if cmd = c!"M83" then { p with relE := true }
  else match cmd with
    | 'T' :: n => { p with tool := (parseInt n).getD p.tool }
    | _ => p

/-- One line of text. -/
def Printer.line (home : Pos3 α) (p : Printer α) (raw : Str) : Printer α :=
  match instr raw with
  | none => p
  | some (cmd, ws) => p.step home cmd ws

/-- The states after each line. -/
def Printer.trace (home : Pos3 α) (p : Printer α) : List Str → List (Printer α)
  | [] => []
  | r :: rs => p.line home r :: (p.line home r).trace home rs

/-- The state after all lines. -/
def Printer.final (home : Pos3 α) (p : Printer α) (texts : List Str) : Printer α := texts.foldl (fun p r => p.line home r) p

/-- The command word is not preceded by a comment: `(x) G1 X1` and `N5 (x) G1` are excluded. -/
def CommandFirst (raw : Str) : Prop :=
  match findall (lower raw) with
  | none :: _ => words raw = []
  | some ('n', _) :: none :: ts => ts.filterMap id = []
  | _ => True

/-- A `G28` that names no axis, or that gives every axis it names a number, not all of them zero. -/
def HomingClear (raw : Str) : Prop :=
  match instr raw with
  | some (cmd, ws) => cmd = c!"G28" →
      (∀ w ∈ ws, w.1 ∉ c!"xyz") ∨
      ((∀ c ∈ c!"xyz", ws.any (·.1 == c) = true → (value (1 : α) ws c).isSome = true) ∧
        ∃ c ∈ c!"xyz", value (1 : α) ws c ≠ none ∧ value (1 : α) ws c ≠ some 0)
  | none => True

/-- After a `G92` with an `E` word: was the filament at twice the given value?  (In particular `G92 E0` with nothing
pushed.)  Otherwise, without such a line: as before. -/
def Printer.eFlag (p : Printer α) (ok : Bool) (raw : Str) : Bool :=
  match instr raw with
  | some (cmd, ws) =>
    if cmd = c!"G92" then
      match value p.unit ws 'e' with
      | some k => decide (p.e = 2 * k)
      | none => ok
    else ok
  | none => ok

/-- The program makes no absolute `E` move while the last `G92 E` word was not half of the true filament position. -/
def Printer.EClear (home : Pos3 α) : Bool → Printer α → List Str → Prop
  | _, _, [] => True
  | ok, p, r :: rs =>
    (match instr r with
      | some (cmd, ws) => cmd ∈ [c!"G0", c!"G1", c!"G2", c!"G3"] → (value p.unit ws 'e').isSome = true →
          p.relE = true ∨ ok = true
      | none => True) ∧
    Printer.EClear home (p.eFlag ok r) (p.line home r) rs

end GCodeUtils.Spec

namespace GCodeUtils.Spec

open GCodeUtils

variable {α : Type} [Field α] [LinearOrder α] [IsStrictOrderedRing α] [FloorRing α]

/-- Is the program in inches after lines with these commands? -/
def inchesAfter (cmds : List (Option Str)) : Bool :=
  cmds.foldl (fun b c => if c = some c!"G20" then true else if c = some c!"G21" then false else b) false

/-- Millimetres per unit after lines with these commands. -/
def unitAfter (cmds : List (Option Str)) : α := if inchesAfter cmds then 254 / 10 else 1

/-- Two lines saying the same, the second with 25.4 times the numbers of the first; no unit switch. -/
def InchMm (α : Type) [Field α] [LinearOrder α] [IsStrictOrderedRing α] [FloorRing α] (r s : Str) : Prop :=
  (instr r = none ∧ instr s = none) ∨
  ∃ cmd ws vs, instr r = some (cmd, ws) ∧ instr s = some (cmd, vs) ∧ cmd ≠ c!"G20" ∧ cmd ≠ c!"G21" ∧
    ws.map (·.1) = vs.map (·.1) ∧
    ∀ k ∈ c!"xyzef", value (1 : α) vs k = (value (1 : α) ws k).map (254 / 10 * ·)

instance : DecidablePred CommandFirst := fun raw => by
  unfold CommandFirst; split <;> infer_instance

instance : DecidablePred (HomingClear (α := α)) := fun raw => by
  unfold HomingClear; split <;> infer_instance

instance Printer.decEClear (home : Pos3 α) : ∀ (ok : Bool) (p : Printer α) (rs : List Str), Decidable (Printer.EClear home ok p rs)
  | _, _, [] => isTrue trivial
  | ok, p, r :: rs => by
    have := Printer.decEClear home (p.eFlag ok r) (p.line home r) rs
    unfold Printer.EClear
    have h : Decidable (match instr r with
      | some (cmd, ws) => cmd ∈ [c!"G0", c!"G1", c!"G2", c!"G3"] → (value p.unit ws 'e').isSome = true →
          p.relE = true ∨ ok = true
      | none => True) := by split <;> infer_instance
    exact instDecidableAnd

end GCodeUtils.Spec
