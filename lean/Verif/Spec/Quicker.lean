import Verif.Spec.LayerTime

/-
  The same program with higher feed rates.
-/

namespace GCodeUtils.Spec

open GCodeUtils

variable {α : Type} [Field α] [LinearOrder α] [IsStrictOrderedRing α] [FloorRing α]

/-- The same line, but the feed rate of a linear move may be higher. -/
structure Quicker (l l' : PyLine α) : Prop where
  command : l'.command = l.command
  words : l'.x = l.x ∧ l'.y = l.y ∧ l'.z = l.z ∧ l'.e = l.e
  feed : Linear l → l.f = none ∧ l'.f = none ∨ ∃ a b, l.f = some a ∧ l'.f = some b ∧ a ≤ b
  raw : ¬ Linear l → l'.raw = l.raw

/-- Every linear move has a feed rate, its own or that of a linear move before, and none is zero or negative. -/
def SpeedStated (ls : List (PyLine α)) : Prop :=
  (∀ l ∈ ls, Linear l → ∀ f, l.f = some f → 0 < f) ∧
  ∀ pre l post, ls = pre ++ l :: post → Linear l → ∃ k ∈ pre ++ [l], Linear k ∧ k.f ≠ none

end GCodeUtils.Spec
