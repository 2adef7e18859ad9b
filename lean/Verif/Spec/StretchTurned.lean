import Verif.Spec.Turned
import Verif.Spec.Elsewhere

/-
  Specification for the stretching of turned and mirrored programs.
-/

set_option linter.unusedSectionVars false

namespace GCodeUtils.Spec

open GCodeUtils

variable {α : Type} [Field α] [LinearOrder α] [IsStrictOrderedRing α] [FloorRing α]

/-- The texts of a G line before and after the turn: words in capital letters, then the same comment (or none). -/
def TurnedG (T : Turn) (α : Type) [Field α] (r s : Str) : Prop :=
  ∃ (hd hd' t n n' : Str) (ws vs : List (Option (Char × Str))), r = hd ++ t ∧ s = hd' ++ t ∧
    (∀ c ∈ hd ++ hd', c ∈ c!"GMXYZEFIJ 0123456789.+-") ∧ CommentTail t ∧
    Reads letters true (lower hd) (some ('g', n) :: ws) ∧ Reads letters true (lower hd') (some ('g', n') :: vs) ∧
    'G' :: n' = T.cmd ('G' :: n) ∧ List.Forall₂ (TurnWord T α) ws vs

/-- Two lines of text, before and after the turn: a turned G line with the same comment, or the same text. -/
def TurnSeen (T : Turn) (α : Type) [Field α] (r s : Str) : Prop :=
  TurnLine T α r s ∧ (TurnedG T α r s ∨ (s = r ∧ ¬ Nested r ∧ '\n' ∉ r))

/-- The same for lines of a file: blank lines correspond to blank lines. -/
def TurnSeenText (T : Turn) (α : Type) [Field α] (t u : Str) : Prop :=
  (strip t = [] ∧ strip u = []) ∨ (strip t ≠ [] ∧ strip u ≠ [] ∧ TurnSeen T α (strip t) (strip u))

end GCodeUtils.Spec
