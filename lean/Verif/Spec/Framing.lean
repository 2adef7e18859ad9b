import Verif.Spec.Text

/-
  The framing that hosts add to lines when they send a program over a serial port: a line number in front and a
  checksum behind.
-/

namespace GCodeUtils.Spec

open GCodeUtils

/-- A run of decimal digits. -/
def Digits (d : Str) : Prop := ∀ c ∈ d, c ∈ c!"0123456789"

instance (d : Str) : Decidable (Digits d) := inferInstanceAs (Decidable (∀ c ∈ d, c ∈ c!"0123456789"))

/-- Nothing, or `N` with its digits and blanks behind. -/
def LineNumber (p : Str) : Prop :=
  p = [] ∨ ∃ c d sp, c ∈ c!"nN" ∧ Digits d ∧ (∀ b ∈ sp, b ∈ blanks) ∧ p = c :: (d ++ sp)

/-- Nothing, or blanks and `*` with its digits. -/
def Checksum (p : Str) : Prop :=
  p = [] ∨ ∃ sp d, (∀ b ∈ sp, b ∈ blanks ∧ b ≠ '\n') ∧ Digits d ∧ p = sp ++ '*' :: d

/-- `b` is the command text `s` with a line number in front and a checksum behind, either possibly absent. -/
def Framed (s b : Str) : Prop := ∃ p q, LineNumber p ∧ Checksum q ∧ b = p ++ s ++ q

/-- A text that begins with the letter of a command or of a coordinate. -/
def StartsWord (s : Str) : Prop := ∃ c t, s = c :: t ∧ c ∈ c!"xyefzijgtmXYEFZIJGTM"

end GCodeUtils.Spec
