import Verif.Spec.Grammar
import Verif.Spec.Measured

/-
  Specification for programs in inches: the same program in millimetres.
-/

set_option linter.unusedSectionVars false

namespace GCodeUtils.Spec

open GCodeUtils

variable {α : Type} [Field α] [LinearOrder α] [IsStrictOrderedRing α] [FloorRing α]

/-- Two words, or comments, saying the same in inches and in millimetres. -/
inductive InchWord (α : Type) [Field α] : Option (Char × Str) → Option (Char × Str) → Prop
  | comment : InchWord α none none
  /-- codes and line numbers are no lengths -/
  | code (k : Char) (n : Str) : k ∈ c!"gtmn" → InchWord α (some (k, n)) (some (k, n))
  | bare (k : Char) : InchWord α (some (k, [])) (some (k, []))
  | number (k : Char) (n n' : Str) (v : α) : k ∉ c!"gtmn" → Decimal n v → Decimal n' (254 / 10 * v) → InchWord α (some (k, n)) (some (k, n'))

/-- Two lines saying the same in inches and in millimetres; neither switches the unit, and a waiting time is written in the same
way. -/
def InchLine (α : Type) [Field α] (r s : Str) : Prop :=
  ∃ ws vs, Reads letters true (lower r) ws ∧ Reads letters true (lower s) vs ∧ List.Forall₂ (InchWord α) ws vs ∧
    commandOf r ws = commandOf s vs ∧ commandOf r ws ≠ some c!"G20" ∧ commandOf r ws ≠ some c!"G21" ∧ (commandOf r ws = some c!"G4" → r = s)

/-- The same for lines of a file: blank lines correspond to blank lines. -/
def InchText (α : Type) [Field α] (t u : Str) : Prop :=
  (strip t = [] ∧ strip u = []) ∨ (strip t ≠ [] ∧ strip u ≠ [] ∧ InchLine α (strip t) (strip u))

/-- Two lines of programs that mean the same: but for its text, and the switch of the unit, the second line is the first. -/
def SameButUnit (l l' : PyLine α) : Prop :=
  (l' = { l with raw := l'.raw }) ∨ (l.command = some c!"G20" ∧ l' = { l with raw := l'.raw, command := some c!"G21" })

end GCodeUtils.Spec
