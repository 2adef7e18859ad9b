import Verif.Spec.Stretch

/-
  The same program stretched with two strengths.
-/

namespace GCodeUtils.Spec

open GCodeUtils

variable {α : Type} [Field α] [LinearOrder α] [IsStrictOrderedRing α] [FloorRing α]

/-- `n` is the length of `(dx, dy)`, up to the relative error `ε`. -/
def LengthOf (ε n dx dy : α) : Prop :=
  0 ≤ n ∧ n ^ 2 ≤ (1 + ε) ^ 2 * (dx ^ 2 + dy ^ 2) ∧ dx ^ 2 + dy ^ 2 ≤ (1 + ε) ^ 2 * n ^ 2

/-- What becomes of the line `l` under a strength (`l₁`) and under `c` times that strength (`l₂`).  A move inside a loop is
displaced in the same direction both times, `c` times as far the second time; its filament is reduced by the length of the
displacement; everything else is the same both times.  `most` are the greatest displacements with the first strength. -/
def LineScaled (ε c : α) (most : LoopKind → α) (hist : List (PyLine α)) (l l₁ l₂ : PyLine α) : Prop :=
  if XYMove l ∧ ∃ k, loopAt hist = some k ∧ 0 < most k then
    ∃ dx dy n n' : α, LengthOf ε n dx dy ∧ LengthOf ε n' (c * dx) (c * dy) ∧
      MovedBy dx dy n hist l l₁ ∧ MovedBy (c * dx) (c * dy) n' hist l l₂
  else l₂ = l₁ ∧ l₁.raw = l.raw

/-- What becomes of the lines of a program, `hist` coming first. -/
inductive Scales (ε c : α) (most : LoopKind → α) : List (PyLine α) → List (PyLine α) → List (PyLine α) → List (PyLine α) → Prop
  | done {hist} : Scales ε c most hist [] [] []
  | step {hist l l₁ l₂ a b₁ b₂} : LineScaled ε c most (hist ++ [l]) l l₁ l₂ → Scales ε c most (hist ++ [l]) a b₁ b₂ →
      Scales ε c most hist (l :: a) (l₁ :: b₁) (l₂ :: b₂)

end GCodeUtils.Spec
