import Verif.Spec.Printer
import Verif.Model.Line

/-
  The reference printer driven by the argument values of parsed lines (in millimetres) instead of texts; this is how
  the effect of a filter that edits argument values is stated without the rounding of the written text.
-/

set_option linter.unusedSectionVars false

namespace GCodeUtils.Spec

open GCodeUtils

variable {α : Type} [Field α] [LinearOrder α] [IsStrictOrderedRing α] [FloorRing α]

/-- A move to the given values. -/
def Printer.moveTo (p : Printer α) (x y z e f : Option α) : Printer α :=
  { p with
    pos := ⟨axis p.rel p.pos.x p.org.x x, axis p.rel p.pos.y p.org.y y, axis p.rel p.pos.z p.org.z z⟩
    feed := f.getD p.feed
    e := p.e + p.push e
    pushed := p.pushed + p.push e
    maxPushed := max p.maxPushed (p.pushed + p.push e) }

/-- Home the flagged axes, or all axes if none is flagged. -/
def Printer.homeAxes (home : Pos3 α) (p : Printer α) (x y z : Bool) : Printer α :=
  let all := !(x || y || z)
  { p with
    pos := ⟨if x || all then home.x else p.pos.x, if y || all then home.y else p.pos.y, if z || all then home.z else p.pos.z⟩
    org := ⟨if x || all then 0 else p.org.x, if y || all then 0 else p.org.y, if z || all then 0 else p.org.z⟩ }

/-- Re-label the current point. -/
def Printer.relabelTo (p : Printer α) (x y z e : Option α) : Printer α :=
  { p with
    org := ⟨relabel p.pos.x p.org.x x, relabel p.pos.y p.org.y y, relabel p.pos.z p.org.z z⟩
    eOrg := relabel p.e p.eOrg e }

/-- One parsed line: its command with its argument values. -/
def Printer.exec (home : Pos3 α) (p : Printer α) (l : PyLine α) : Printer α :=
  match l.command with
  | none => p
  | some cmd =>
    if cmd ∈ [c!"G0", c!"G1", c!"G2", c!"G3"] then p.moveTo l.x l.y l.z l.e l.f
    else if cmd = c!"G20" then { p with inch := true }
    else if cmd = c!"G21" then { p with inch := false }
    else if cmd = c!"G28" then p.homeAxes home l.x.isSome l.y.isSome l.z.isSome
    else if cmd = c!"G90" then { p with rel := false, relE := false }
    else if cmd = c!"G91" then { p with rel := true, relE := true }
    else if cmd = c!"G92" then p.relabelTo l.x l.y l.z l.e
    else if cmd = c!"M82" then { p with relE := false }
    else if cmd = c!"M83" then { p with relE := true }
    else match cmd with
      | 'T' :: n => { p with tool := (parseInt n).getD p.tool }
      | _ => p

/-- All lines of a program. -/
def Printer.run (home : Pos3 α) (p : Printer α) (ls : List (PyLine α)) : Printer α := ls.foldl (Printer.exec home) p

/-- A line is a move. -/
def IsMove (l : PyLine α) : Prop := ∃ c ∈ [c!"G0", c!"G1", c!"G2", c!"G3"], l.command = some c

/-- The line has the given command. -/
def HasCmd (l : PyLine α) (c : Str) : Prop := l.command = some c

instance (l : PyLine α) : Decidable (IsMove l) :=
  inferInstanceAs (Decidable (∃ c ∈ [c!"G0", c!"G1", c!"G2", c!"G3"], l.command = some c))
instance (l : PyLine α) (c : Str) : Decidable (HasCmd l c) := inferInstanceAs (Decidable (l.command = some c))

end GCodeUtils.Spec
