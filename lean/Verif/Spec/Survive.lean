import Verif.Spec.Arc

/-
  What is never touched when arcs are put in.
-/

set_option linter.unusedSectionVars false

namespace GCodeUtils.Spec

open GCodeUtils

variable {α : Type} [Field α] [LinearOrder α] [IsStrictOrderedRing α] [FloorRing α]

/-- The texts of the lines without E word: comments, travel moves, and commands that do not set E. -/
def unfedTexts (ls : List (PyLine α)) : List Str := (ls.filter (fun l => decide (l.e = none))).map (·.raw)

/-- A move that goes somewhere and pushes filament, coming from the line before it. -/
def Draws (p l : PyLine α) : Prop :=
  IsMove l ∧ l.e ≠ none ∧ (∃ v, Pushes p l v ∧ 0 < v) ∧ (l.currentX ≠ p.currentX ∨ l.currentY ≠ p.currentY)

/-- Every line of the window draws; what replaces it are generated lines, told by their comments. -/
def DrawnWindow (start : PyLine α) (w gen : List (PyLine α)) : Prop :=
  8 ≤ w.length ∧ (∀ s ∈ steps (start :: w), Draws s.1 s.2) ∧
    ∀ l ∈ gen, l.e ≠ none ∧ (c!"; generated from " <:+: l.raw ∨ IsCorrection l)

/-- A circular move. -/
def IsCurve (l : PyLine α) : Prop := HasCmd l c!"G2" ∨ HasCmd l c!"G3"

instance (l : PyLine α) : Decidable (IsCurve l) := by unfold IsCurve HasCmd; infer_instance

/-- A circular move that is not generated. -/
def OwnCurve (l : PyLine α) : Prop := IsCurve l ∧ ¬ c!"; generated from " <:+: l.raw

instance (l : PyLine α) : Decidable (OwnCurve l) := by unfold OwnCurve; infer_instance

/-- The circular moves that are not generated. -/
def ownCurves (ls : List (PyLine α)) : List (PyLine α) := ls.filter (fun l => decide (OwnCurve l))

/-- Eight or more extruding moves in a row are never circular. -/
def CurvesApart (ls : List (PyLine α)) : Prop :=
  ∀ pre w post, ls = pre ++ (w ++ post) → 8 ≤ w.length → (∀ l ∈ w, IsMove l ∧ l.e ≠ none) → ∀ l ∈ w, ¬ IsCurve l

end GCodeUtils.Spec
