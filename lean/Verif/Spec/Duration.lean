import Verif.Spec.Exec
import Verif.Spec.Analysis

/-
  Specification for the duration estimate: how far a printer travels, and how long it dwells.
-/

set_option linter.unusedSectionVars false

namespace GCodeUtils.Spec

open GCodeUtils

variable {α : Type} [Field α] [LinearOrder α] [IsStrictOrderedRing α] [FloorRing α]

/-- Length, seen from above, of one line executed in state `p`; `hyp` measures distances. -/
def lengthXY (hyp : α → α → α) (home : Pos3 α) (p : Printer α) (l : PyLine α) : α :=
  if IsMove l then hyp ((p.exec home l).pos.x - p.pos.x) ((p.exec home l).pos.y - p.pos.y) else 0

/-- Length of one line: seen from above, or for moves that stay on the spot the change of height if Z is named, otherwise the
filament moved. -/
def lengthXYZE (hyp : α → α → α) (home : Pos3 α) (p : Printer α) (l : PyLine α) : α :=
  if IsMove l then
    if lengthXY hyp home p l ≠ 0 then lengthXY hyp home p l
    else if l.z ≠ none then |(p.exec home l).pos.z - p.pos.z|
    else |(p.exec home l).pushed - p.pushed|
  else 0

/-- The sum over a program. -/
def along (len : Printer α → PyLine α → α) (home : Pos3 α) : Printer α → List (PyLine α) → α
  | _, [] => 0
  | p, l :: ls => len p l + along len home (p.exec home l) ls

/-- Seconds a `G4` line waits: its first `P` word, in milliseconds. -/
def dwell (l : PyLine α) : α :=
  if HasCmd l c!"G4" then
    match dwellWords l.raw with
    | v :: _ => ((parseFloat v : Option α).getD 0) / 1000
    | [] => 0
  else 0

/-- A line that a duration estimate can follow without knowing about offsets, arcs, or relative coordinates: no `G2`, `G3`,
`G91`, no `G92` of X or Y, `G28` only where the head is at home already; and moves have a feed rate in the range. -/
def Steady (home : Pos3 α) (fmin fmax : α) (p : Printer α) (l : PyLine α) : Prop :=
  ¬ HasCmd l c!"G2" ∧ ¬ HasCmd l c!"G3" ∧ ¬ HasCmd l c!"G91" ∧ (HasCmd l c!"G92" → l.x = none ∧ l.y = none) ∧
  (HasCmd l c!"G28" → p.pos.x = home.x ∧ p.pos.y = home.y) ∧ (IsMove l → fmin ≤ (p.exec home l).feed ∧ (p.exec home l).feed ≤ fmax)

/-- The same for height and filament: no `G92` at all, homing in Z only at home, no return from relative to absolute
extrusion. -/
def SteadyZE (home : Pos3 α) (p : Printer α) (l : PyLine α) : Prop :=
  ¬ HasCmd l c!"G92" ∧ (HasCmd l c!"G28" → p.pos.z = home.z) ∧ (HasCmd l c!"M82" ∨ HasCmd l c!"G90" → p.relE = false)

/-- Every line has the property in the state in which the printer reaches it. -/
def throughout (P : Printer α → PyLine α → Prop) (home : Pos3 α) : Printer α → List (PyLine α) → Prop
  | _, [] => True
  | p, l :: ls => P p l ∧ throughout P home (p.exec home l) ls

instance (home : Pos3 α) (fmin fmax : α) (p : Printer α) (l : PyLine α) : Decidable (Steady home fmin fmax p l) := by
  unfold Steady; infer_instance

instance (home : Pos3 α) (p : Printer α) (l : PyLine α) : Decidable (SteadyZE home p l) := by
  unfold SteadyZE; infer_instance

/-- `throughout` can be decided. -/
def decThroughout (P : Printer α → PyLine α → Prop) [∀ p l, Decidable (P p l)] (home : Pos3 α) :
    (p : Printer α) → (ls : List (PyLine α)) → Decidable (throughout P home p ls)
  | _, [] => .isTrue trivial
  | p, l :: ls => @instDecidableAnd _ _ _ (decThroughout P home (p.exec home l) ls)

instance (P : Printer α → PyLine α → Prop) [∀ p l, Decidable (P p l)] (home : Pos3 α) (p : Printer α) (ls : List (PyLine α)) :
    Decidable (throughout P home p ls) := decThroughout P home p ls

end GCodeUtils.Spec
