import Verif.Spec.ArcPath

/-
  Runs of moves that follow a circle in equal steps.
-/

set_option linter.unusedSectionVars false

namespace GCodeUtils.Spec

open GCodeUtils

/-- Sum of squared deviations from the average. -/
def spread {α : Type} [Field α] (vs : List α) : α := (vs.map (fun v => (v - mean vs) ^ 2)).sum

/-- The moves `w`, which come after `start`, go round a circle (centre `c`, radius `r`) one way in equal steps of length `d`, each of
which pushes `v` of filament. -/
structure RegularRun (start : PyLine ℝ) (w : List (PyLine ℝ)) (pts : List (ℝ × ℝ)) (c : ℝ × ℝ) (r d v : ℝ) : Prop where
  moves : ∀ l ∈ w, IsMove l ∧ l.e ≠ none
  long : 8 ≤ w.length
  feed : ∃ f, ∀ l ∈ w, l.currentF = f
  height : ∃ z, ∀ l ∈ w, l.currentZ = z
  at_points : List.Forall₂ At (start :: w) pts
  circle : ∀ p ∈ pts, distSq p c = r ^ 2
  radius : 0 ≤ r ∧ r ≤ 200
  step : ∀ s ∈ steps pts, distSq s.1 s.2 = d ^ 2
  way : (∀ s ∈ steps pts, 0 < cross c s.1 s.2) ∨ ∀ s ∈ steps pts, cross c s.1 s.2 < 0
  /-- The first nine points are not all on (almost) the same X or on the same Y. -/
  wide : 1 / 10 ^ 6 ≤ spread ((pts.take 9).map (·.1)) ∧ 1 / 10 ^ 6 ≤ spread ((pts.take 9).map (·.2))
  flow : ∀ s ∈ steps (start :: w), Pushes s.1 s.2 v
  size : 2 / 10 ^ 6 ≤ d
  amount : 2 / 10 ^ 6 * d ≤ v

/-- The run begins at `start`: that is the first line of the program, or comes after a command that is not a move, or is a travel move. -/
def Begins {α : Type} (pre : List (PyLine α)) (start : PyLine α) : Prop :=
  pre = [] ∨ (∃ p c, pre = p ++ [c] ∧ c.command ≠ none ∧ ¬ IsMove c) ∨ start.e = none

/-- A line that ends a run: anything but a move with an E word. -/
def Ends {α : Type} (l : PyLine α) : Prop := ¬ (IsMove l ∧ l.e ≠ none)

end GCodeUtils.Spec
