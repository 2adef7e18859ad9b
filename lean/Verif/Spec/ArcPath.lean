import Verif.Spec.Arc
import Mathlib.Analysis.SpecialFunctions.Trigonometric.Basic

/-
  The path of a sequence of moves and the path of an arc.
-/

set_option linter.unusedSectionVars false

namespace GCodeUtils.Spec

open GCodeUtils

/-- `q` lies to the left of `p` as seen from `c` if positive, to the right if negative. -/
def cross {α : Type} [Field α] (c p q : α × α) : α := (p.1 - c.1) * (q.2 - c.2) - (p.2 - c.2) * (q.1 - c.1)

/-- The point at distance `ρ` and in direction `θ` from `c`. -/
noncomputable def polar (c : ℝ × ℝ) (ρ θ : ℝ) : ℝ × ℝ := (c.1 + ρ * Real.cos θ, c.2 + ρ * Real.sin θ)

/-- A point of the straight moves between the points. -/
def OnPath (pts : List (ℝ × ℝ)) (q : ℝ × ℝ) : Prop :=
  ∃ s ∈ steps pts, ∃ τ : ℝ, 0 ≤ τ ∧ τ ≤ 1 ∧ q = ((1 - τ) * s.1.1 + τ * s.2.1, (1 - τ) * s.1.2 + τ * s.2.2)

/-- A point of the arc around `c` with radius `r` from the direction of `p` to the direction of `q`: counter-clockwise for `s = 1`,
clockwise for `s = -1`, and a full turn if the directions are the same. -/
def OnTurn (s : ℝ) (c : ℝ × ℝ) (r : ℝ) (p q x : ℝ × ℝ) : Prop :=
  ∃ φ S θ ρ ρ' : ℝ, 0 < ρ ∧ 0 < ρ' ∧ 0 < S ∧ S ≤ 2 * Real.pi ∧ 0 ≤ θ ∧ θ ≤ S ∧ p = polar c ρ φ ∧ q = polar c ρ' (φ + s * S) ∧ x = polar c r (φ + s * θ)

/-- Every point of one is within `δ` of a point of the other. -/
def Alongside (δ : ℝ) (A B : ℝ × ℝ → Prop) : Prop :=
  (∀ p, A p → ∃ q, B q ∧ (p.1 - q.1) ^ 2 + (p.2 - q.2) ^ 2 ≤ δ ^ 2) ∧ ∀ q, B q → ∃ p, A p ∧ (p.1 - q.1) ^ 2 + (p.2 - q.2) ^ 2 ≤ δ ^ 2

end GCodeUtils.Spec
