import Verif.Model.Text

/-
  Independent description of stripping and of blank lines.
-/

namespace GCodeUtils.Spec

open GCodeUtils

/-- Space, tab, newline, carriage return, vertical tab, form feed. -/
def blanks : List Char := [' ', '\t', '\n', '\r', '\x0b', '\x0c']

/-- `t` is `s` without its surrounding blanks. -/
def IsStrip (s t : Str) : Prop :=
  (∃ a b, s = a ++ t ++ b ∧ (∀ c ∈ a, c ∈ blanks) ∧ (∀ c ∈ b, c ∈ blanks)) ∧
  (∀ c, t.head? = some c → c ∉ blanks) ∧ (∀ c, t.getLast? = some c → c ∉ blanks)

/-- A text of blanks only. -/
def IsBlank (s : Str) : Prop := ∀ c ∈ s, c ∈ blanks

instance (s : Str) : Decidable (IsBlank s) := inferInstanceAs (Decidable (∀ c ∈ s, c ∈ blanks))

end GCodeUtils.Spec
