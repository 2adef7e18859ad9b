import Verif.Model.Text

/-
  Character classes used to state the comment properties.
-/

namespace GCodeUtils.Spec

open GCodeUtils

/-- No comment or line-end character. -/
def Plain (s : Str) : Prop := ∀ c ∈ s, c ∉ c!"();/*\n"

/-- Some letter that can start a G-code word other than a line number. -/
def HasCommand (s : Str) : Prop := ∃ c ∈ s, c ∈ c!"xyefzijgtmXYEFZIJGTM"

/-- The text does not continue a number: it is empty or starts with something else than a digit, point or
sign. -/
def NotNumeric (s : Str) : Prop := ∀ c, s.head? = some c → c ∉ c!"0123456789.+-"

/-- A complete parenthesised comment. -/
def paren (t : Str) : Str := '(' :: t ++ [')']

/-- Text in which every parenthesised comment is closed (and there is no other kind of comment). -/
inductive Closed : Str → Prop
  | nil : Closed []
  | plain (c : Char) (s : Str) : c ∉ c!"();/*\n" → Closed s → Closed (c :: s)
  | paren (t s : Str) : (∀ c ∈ t, c ≠ '(' ∧ c ≠ ')') → Closed s → Closed (paren t ++ s)

instance (s : Str) : Decidable (Plain s) := inferInstanceAs (Decidable (∀ c ∈ s, c ∉ c!"();/*\n"))
instance (s : Str) : Decidable (HasCommand s) :=
  inferInstanceAs (Decidable (∃ c ∈ s, c ∈ c!"xyefzijgtmXYEFZIJGTM"))

end GCodeUtils.Spec
