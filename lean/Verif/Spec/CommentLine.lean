import Verif.Spec.Comment
import Verif.Spec.Text

/-
  Comment-only lines.
-/

namespace GCodeUtils.Spec

open GCodeUtils

/-- A line that holds nothing but a comment as far as the parser is concerned: after leading blanks it starts with
a semicolon or with a complete parenthesised comment. -/
def IsComment (s : Str) : Prop :=
  ∃ a t, (∀ c ∈ a, c ∈ blanks) ∧ (s = a ++ ';' :: t ∨ ∃ u, (∀ c ∈ u, c ≠ '(' ∧ c ≠ ')') ∧ s = a ++ (paren u ++ t))

/-- One program is the other with comment-only lines inserted. -/
inductive CommentsAdded : List Str → List Str → Prop
  | nil : CommentsAdded [] []
  | same (s : Str) {a b : List Str} : CommentsAdded a b → CommentsAdded (s :: a) (s :: b)
  | comment (s : Str) {a b : List Str} : IsComment s → CommentsAdded a b → CommentsAdded a (s :: b)

end GCodeUtils.Spec
