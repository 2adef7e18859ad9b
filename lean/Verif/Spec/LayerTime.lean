import Verif.Spec.Duration

/-
  Specification for the time of a layer: how long each line takes to a machine that speeds up and slows down, and which lines
  count towards which layer.
-/

set_option linter.unusedSectionVars false

namespace GCodeUtils.Spec

open GCodeUtils

variable {α : Type} [Field α] [LinearOrder α] [IsStrictOrderedRing α] [FloorRing α]

/-- What the estimate remembers between lines: the last words, the direction of the last move and its speed in mm/s. -/
structure Pace (α : Type) where
  x : α
  y : α
  z : α
  e : α
  dx : α
  dy : α
  v : α
  deriving DecidableEq, Repr

/-- Before the first line: at the origin, without speed. -/
def Pace.rest : Pace α := ⟨0, 0, 0, 0, 0, 0, 0⟩

/-- Seconds for the length `s` at speed `v`, entered at speed `v0`.  With 2000 mm/s² the length `d` is spent on changing the
speed, at the mean of both speeds, once at each end, and the rest on the speed `v`; on a length shorter than `d` all of it is
spent at the mean speed. -/
def rampTime (v0 v s : α) : α :=
  let d := |v ^ 2 - v0 ^ 2| / 2000
  if v = v0 then s / v
  else if d ≤ s ∧ v ≠ 0 then d / ((v0 + v) / 2) + (s - d) / v
  else s / ((v0 + v) / 2)

/-- The linear moves. -/
def Linear (l : PyLine α) : Prop := HasCmd l c!"G0" ∨ HasCmd l c!"G1"

instance (l : PyLine α) : Decidable (Linear l) := by unfold Linear; infer_instance

/-- The length that counts: seen from above, where each X and Y word is taken for a coordinate; without any, the change of
height if there is a Z word, or else the filament if there is an E word. -/
def paceLength (hyp : α → α → α) (p : Pace α) (l : PyLine α) : α :=
  let s := hyp (l.x.getD p.x - p.x) (l.y.getD p.y - p.y)
  if s ≠ 0 then s
  else match l.z, l.e with
    | some z, _ => |z - if l.relative = some true then 0 else p.z|
    | none, some e => |e - if l.relativeE = some true then 0 else p.e|
    | none, none => 0

/-- The state after a line. -/
def Pace.next (p : Pace α) (l : PyLine α) : Pace α :=
  if Linear l then
    { x := l.x.getD p.x, y := l.y.getD p.y, z := l.z.getD p.z, e := l.e.getD p.e
      dx := l.x.getD p.x - p.x, dy := l.y.getD p.y - p.y, v := (l.f.map (· / 60)).getD p.v }
  else p

/-- Seconds of one line: a linear move that goes on in the direction of the last one, within a right angle, is entered at the
speed of that one, any other from standstill; `G4` waits; other commands take no time. -/
def lineTime (hyp : α → α → α) (p : Pace α) (l : PyLine α) : α :=
  if Linear l then
    rampTime (if 0 < (p.next l).dx * p.dx + (p.next l).dy * p.dy then p.v else 0) (p.next l).v (paceLength hyp p l)
  else dwell l

/-- Seconds of each line. -/
def lineTimes (hyp : α → α → α) : Pace α → List (PyLine α) → List α
  | _, [] => []
  | p, l :: ls => lineTime hyp p l :: lineTimes hyp (p.next l) ls

/-- Seconds until the first `n` lines are done. -/
def timeUpTo (hyp : α → α → α) (ls : List (PyLine α)) (n : ℕ) : α := ((lineTimes hyp .rest ls).take n).sum

/-- How many lines a list of layers holds. -/
def lineCount (Ls : List (Layer α)) : ℕ := (Ls.map (·.lines.length)).sum

/-- When the layers `Ls` are over: with the first line after them. -/
def overAt (hyp : α → α → α) (ls : List (PyLine α)) (Ls : List (Layer α)) : α :=
  if Ls = [] then 0 else timeUpTo hyp ls (lineCount Ls + 1)

end GCodeUtils.Spec
