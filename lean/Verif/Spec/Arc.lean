import Verif.Model.Arc
import Verif.Spec.Filter
import Verif.Spec.Exec

/-
  What replacing windows of moves by arcs means.
-/

set_option linter.unusedSectionVars false

namespace GCodeUtils.Spec

open GCodeUtils

variable {α : Type} [Field α] [LinearOrder α] [IsStrictOrderedRing α] [FloorRing α]

/-- A retained line: unchanged, except that the position attributes of a comment may differ. -/
def Kept (l l' : PyLine α) : Prop :=
  l' = l ∨ (l.command = none ∧
    ∃ x y z e f, l' = { l with currentX := x, currentY := y, currentZ := z, currentE := e, currentF := f })

/-- A move or a comment. -/
def MoveOrComment (l : PyLine α) : Prop := IsMove l ∨ l.command = none

/-- The second program is the first one with windows replaced: lines are kept, except that after a kept line a window
may be replaced by generated lines `gen` with `R start window gen`. -/
inductive Rewrites (R : PyLine α → List (PyLine α) → List (PyLine α) → Prop) : List (PyLine α) → List (PyLine α) → Prop where
  | done : Rewrites R [] []
  | keep {l l' a b} : Kept l l' → Rewrites R a b → Rewrites R (l :: a) (l' :: b)
  | arc {l l' w w' gen a b} : Kept l l' → List.Forall₂ Kept w w' → R l' w' gen → Rewrites R a b →
      Rewrites R (l :: (w ++ a)) (l' :: (gen ++ b))

/-- A generated `G92` line, recognisable by its comment. -/
def IsCorrection (l : PyLine α) : Prop := HasCmd l c!"G92" ∧ c!"; generated as arc to path relation is " <:+: l.raw

instance (l : PyLine α) : Decidable (IsCorrection l) := by unfold IsCorrection HasCmd; infer_instance

/-- One arc line, optionally followed by one `G92`, for a window of at least 8 moves or comments. -/
def ArcForWindow (_start : PyLine α) (w gen : List (PyLine α)) : Prop :=
  8 ≤ w.length ∧ (∀ l ∈ w, MoveOrComment l) ∧
    ∃ arc, (HasCmd arc c!"G2" ∨ HasCmd arc c!"G3") ∧ c!"; generated from " <:+: arc.raw ∧
      (gen = [arc] ∨ ∃ g, IsCorrection g ∧ gen = [arc, g])

/-- The lines with a command that is not a move. -/
def otherCommands (ls : List (PyLine α)) : List (PyLine α) :=
  ls.filter (fun l => decide (l.command ≠ none ∧ ¬ IsMove l))

/-- A line stands at a point. -/
def At (l : PyLine α) (p : α × α) : Prop := l.currentX = some p.1 ∧ l.currentY = some p.2

/-- Distance of two points, in the square root of the machine. -/
def distance (t : Trig α) (p q : α × α) : α := t.sqrt ((p.1 - q.1) * (p.1 - q.1) + (p.2 - q.2) * (p.2 - q.2))

/-- Angle from `p` to `q` seen from `c`, in (-π, π] up to the two ends. -/
def turn (t : Trig α) (c p q : α × α) : α :=
  let d := t.phase (q.1 - c.1) (q.2 - c.2) - t.phase (p.1 - c.1) (p.2 - c.2)
  if d < -t.pi then d + 2 * t.pi else if t.pi < d then d - 2 * t.pi else d

/-- Consecutive pairs. -/
def steps {β : Type} (ls : List β) : List (β × β) := ls.zip ls.tail

/-- Filament pushed by line `l` after line `p`. -/
def Pushes (p l : PyLine α) (v : α) : Prop :=
  if l.relativeE = some true then l.e = some v else ∃ a b, l.currentE = some a ∧ p.currentE = some b ∧ v = a - b

/-- The average. -/
def mean (vs : List α) : α := vs.sum / (vs.length : α)

/-- The angles of the segments of a window. -/
def angles (t : Trig α) (c : α × α) (pts : List (α × α)) : List α := (steps pts).map (fun s => turn t c s.1 s.2)

/-- A window that lies on an arc: the points `pts` (start point first), centre `c`, radius `r`, path lengths
(rounded to 7 decimals) and filament amounts. -/
structure OnArc (t : Trig α) (start : PyLine α) (w : List (PyLine α)) (pts : List (α × α)) (c : α × α) (r : α)
    (paths fils : List α) : Prop where
  at_points : List.Forall₂ At (start :: w) pts
  near : ∀ p ∈ pts, |distance t c p - r| ≤ 15 / 1000
  radius : r ≤ 200
  root : ∃ v, 0 < v ∧ r = t.sqrt v
  even : ∀ a ∈ angles t c pts, a - mean (angles t c pts) ≤ 5 * t.pi / 180
  feed : ∃ f, ∀ l ∈ w, l.currentF = f
  height : ∃ z, ∀ l ∈ w, l.currentZ = z
  words : (∀ l ∈ w, l.e ≠ none) ∨ (∀ l ∈ w, l.e = none)
  paths_eq : List.Forall₂ (fun (s : (α × α) × (α × α)) v => v = pyRound t.mode 7 (distance t s.2 s.1)) (steps pts) paths
  fils_eq : List.Forall₂ (fun (s : PyLine α × PyLine α) v => Pushes s.1 s.2 v) (steps (start :: w)) fils
  flow : (∀ l ∈ w, l.e ≠ none) → 1 / 1000000 ≤ fils.sum / paths.sum ∧
    List.Forall₂ (fun path fil => 1 / 1000000 ≤ path ∧ |fil / path / (fils.sum / paths.sum) - 1| < 15 / 100) paths fils

/-- Filament of the generated arc when extrusion is relative: the amount of each segment times arc over chord. -/
def arcFilament (t : Trig α) (c : α × α) (r : α) (pts : List (α × α)) (fils : List α) : α :=
  (List.zipWith (fun s a => s * (r * a) / (2 * r * t.sin (a / 2))) fils (angles t c pts)).sum

/-- The generated line for a window. -/
structure ArcLine (t : Trig α) (start : PyLine α) (w : List (PyLine α)) (pts : List (α × α)) (c : α × α) (r : α)
    (paths fils : List α) (arc : PyLine α) : Prop where
  command : ∃ p0 p2, pts[0]? = some p0 ∧ pts[2]? = some p2 ∧ arc.command = some (if 0 < turn t c p0 p2 then c!"G3" else c!"G2")
  finish : ∃ p, pts.getLast? = some p ∧ arc.x = some (pyRound t.mode 3 p.1) ∧ arc.y = some (pyRound t.mode 3 p.2)
  centre : ∃ p, pts.head? = some p ∧ arc.i = some (pyRound t.mode 3 (c.1 - p.1)) ∧ arc.j = some (pyRound t.mode 3 (c.2 - p.2))
  height : arc.z = none
  feed : ∀ l ∈ w, arc.f = l.currentF
  filament : ∃ last, w.getLast? = some last ∧
    (last.relativeE = some true → (∀ a ∈ angles t c pts, 2 * r * t.sin (a / 2) ≠ 0) ∧ arc.e = some (arcFilament t c r pts fils)) ∧
    (last.relativeE ≠ some true → fils.sum ≠ 0 ∧ ∃ e0, start.currentE = some e0 ∧
      arc.e = some (e0 + ((angles t c pts).map (fun a => a * r)).sum * (fils.sum / paths.sum)))

/-- The generated lines after the arc: a `G92` that sets E to that of the window's end, if E is absolute and the arc
pushes over 1 % more than the window, else nothing. -/
def Correction (t : Trig α) (w : List (PyLine α)) (pts : List (α × α)) (c : α × α) (r : α) (paths fils : List α)
    (rest : List (PyLine α)) : Prop :=
  ∃ last, w.getLast? = some last ∧
    if last.relativeE ≠ some true ∧ 1 / 100 < ((angles t c pts).map (fun a => a * r)).sum * (fils.sum / paths.sum) / fils.sum - 1 then
      ∃ g, rest = [g] ∧ IsCorrection g ∧ g.x = none ∧ g.y = none ∧ g.z = none ∧ g.e = last.currentE
    else rest = []

/-- The full description of a replacement. -/
def ArcReplacement (t : Trig α) (start : PyLine α) (w gen : List (PyLine α)) : Prop :=
  ArcForWindow start w gen ∧ ∃ pts c r paths fils arc rest, OnArc t start w pts c r paths fils ∧
    ArcLine t start w pts c r paths fils arc ∧ Correction t w pts c r paths fils rest ∧ gen = arc :: rest

/-- `Rewrites`, following a printer `p` that executes the first program and a printer `q` that executes the second: `Q` holds
between them after every retained line and after every replaced window. -/
inductive Tracks (home : Pos3 α) (R : PyLine α → List (PyLine α) → List (PyLine α) → Prop) (Q : Printer α → Printer α → Prop) :
    Printer α → Printer α → List (PyLine α) → List (PyLine α) → Prop where
  | done {p q} : Tracks home R Q p q [] []
  | keep {p q l l' a b} : Kept l l' → Q (p.exec home l) (q.exec home l') → Tracks home R Q (p.exec home l) (q.exec home l') a b →
      Tracks home R Q p q (l :: a) (l' :: b)
  | arc {p q l l' w w' gen a b} : Kept l l' → List.Forall₂ Kept w w' → R l' w' gen → Q (p.exec home l) (q.exec home l') →
      Q (p.run home (l :: w)) (q.run home (l' :: gen)) → Tracks home R Q (p.run home (l :: w)) (q.run home (l' :: gen)) a b →
      Tracks home R Q p q (l :: (w ++ a)) (l' :: (gen ++ b))

/-- The extruder coordinate: what an absolute E word is compared with. -/
def Printer.eCoord (p : Printer α) : α := p.e - p.eOrg

/-- No relative extrusion; the extruder coordinate is only ever reset to 0. -/
def PlainE (l : PyLine α) : Prop :=
  ¬ HasCmd l c!"G91" ∧ ¬ HasCmd l c!"M83" ∧ (HasCmd l c!"G92" → l.e = none ∨ l.e = some 0)

/-- `Rewrites`, following a printer `p` that executes the first program and a printer `q` that executes the second: `K` holds of the
printers before every retained line and the line, and `W` of the printers before every replaced window, its start, the window and
what replaces it. -/
inductive Follows (home : Pos3 α) (R : PyLine α → List (PyLine α) → List (PyLine α) → Prop) (K : Printer α → Printer α → PyLine α → Prop)
    (W : Printer α → Printer α → PyLine α → List (PyLine α) → List (PyLine α) → Prop) :
    Printer α → Printer α → List (PyLine α) → List (PyLine α) → Prop where
  | done {p q} : Follows home R K W p q [] []
  | keep {p q l l' a b} : Kept l l' → K p q l → Follows home R K W (p.exec home l) (q.exec home l') a b → Follows home R K W p q (l :: a) (l' :: b)
  | arc {p q l l' w w' gen a b} : Kept l l' → List.Forall₂ Kept w w' → R l' w' gen → K p q l →
      W (p.exec home l) (q.exec home l') l' w' gen → Follows home R K W (p.run home (l :: w)) (q.run home (l' :: gen)) a b →
      Follows home R K W p q (l :: (w ++ a)) (l' :: (gen ++ b))

/-- A retained line that sets the extruder coordinate (a move or `G92` with an E word) leaves both printers with the same one; other
retained lines leave the difference of the two as it was. -/
def SameCount (home : Pos3 α) (p q : Printer α) (l : PyLine α) : Prop :=
  if l.e ≠ none ∧ (IsMove l ∨ HasCmd l c!"G92") then (q.exec home l).eCoord = (p.exec home l).eCoord
  else (q.exec home l).eCoord - (p.exec home l).eCoord = q.eCoord - p.eCoord

/-- After a replaced window: with a correction both printers have the same extruder coordinate; without one, the second printer is
ahead by at most one per cent of what the window pushed (measured from the recorded coordinate of its start). -/
def WindowCount (home : Pos3 α) (p q : Printer α) (start : PyLine α) (w gen : List (PyLine α)) : Prop :=
  ∃ e0 e1, start.currentE = some e0 ∧ (p.run home w).eCoord = e1 ∧ e0 < e1 ∧
    ((gen.length = 2 ∧ (q.run home gen).eCoord = e1) ∨ (gen.length = 1 ∧ (q.run home gen).eCoord - e1 ≤ 1 / 100 * (e1 - e0)))

/-! ### runs the optimiser can compute with -/

/-- Eight moves with an E word. -/
def ExtrudingRun (w : List (PyLine α)) : Prop := w.length = 8 ∧ ∀ l ∈ w, IsMove l ∧ l.e ≠ none

/-- All on one straight line that is not parallel to an axis. -/
def OnSlant (w : List (PyLine α)) : Prop := ∃ a b c : α, a ≠ 0 ∧ b ≠ 0 ∧ ∀ l ∈ w, ∀ p, At l p → a * p.1 + b * p.2 = c

/-- Squared distance. -/
def distSq (p q : α × α) : α := (p.1 - q.1) ^ 2 + (p.2 - q.2) ^ 2

/-- Conditions under which no computation of the optimiser fails. -/
structure SafeRuns (x : List (PyLine α)) : Prop where
  /-- A comment before eight extruding moves comes directly after a move. -/
  comment : ∀ pre c w post, x = pre ++ c :: (w ++ post) → c.command = none → ExtrudingRun w → ∃ m, pre.getLast? = some m ∧ IsMove m
  /-- No eight moves or comments without E word, the last one a move. -/
  travel : ∀ pre w post, x = pre ++ (w ++ post) → 8 ≤ w.length → (∀ l ∈ w, MoveOrComment l ∧ l.e = none) → ¬ ∃ l, w.getLast? = some l ∧ IsMove l
  /-- Eight extruding moves go somewhere. -/
  moving : ∀ pre w post, x = pre ++ (w ++ post) → ExtrudingRun w →
    ∃ u a b v, w = u ++ a :: b :: v ∧ ∀ p q, At a p → At b q → 1 / 10 ^ 12 ≤ distSq p q
  /-- Eight extruding moves are not on one slanted line. -/
  bent : ∀ pre w post, x = pre ++ (w ++ post) → ExtrudingRun w → ¬ OnSlant w
  /-- With relative extrusion, extruding moves stay or go more than 0.031 mm. -/
  apart : (∀ l ∈ x, l.relativeE ≠ some true) ∨ ∀ pre a mid b post, x = pre ++ a :: (mid ++ b :: post) → IsMove a → (∀ c ∈ mid, c.command = none) →
    IsMove b → b.e ≠ none → ∀ p q, At a p → At b q → p = q ∨ (31 / 1000) ^ 2 < distSq p q

end GCodeUtils.Spec
