import Verif.Spec.Comment
import Mathlib.Data.Nat.Digits.Defs
import Mathlib.Algebra.Order.Field.Basic

/-
  How a line of text is to be read: words, comments and numbers.
-/

namespace GCodeUtils.Spec

open GCodeUtils

/-- The digits. -/
def digits : List Char := c!"0123456789"

/-- A text of digits. -/
def IsDigits (s : Str) : Prop := ∀ c ∈ s, c ∈ digits

/-- The number text at the head of `n ++ rest`: an optional sign, digits, an optional point, and digits after it; as much of the
text as has this form. -/
def NumberText (n rest : Str) : Prop :=
  ∃ sign a dot b, n = sign ++ a ++ dot ++ b ∧ (sign = [] ∨ sign = ['-'] ∨ sign = ['+']) ∧ IsDigits a ∧ (dot = [] ∨ dot = ['.']) ∧ IsDigits b ∧
    (dot = [] → b = []) ∧
    (∀ c, rest.head? = some c → c ∉ digits ∧ (dot = [] → c ≠ '.') ∧ (n = [] → c ≠ '-' ∧ c ≠ '+'))

/-- The text starts with a complete parenthesised comment. -/
def StartsParen (s : Str) : Prop := ∃ t r, s = paren t ++ r ∧ ∀ c ∈ t, c ≠ '(' ∧ c ≠ ')'

/-- The text, but for a newline at its end, is one line between parentheses. -/
def WholeParen (s : Str) : Prop := ∃ t nl, s = paren t ++ nl ∧ '\n' ∉ t ∧ (nl = [] ∨ nl = ['\n'])

/-- The letters that start words. -/
def letters : List Char := c!"gtmnxyzefij"

/-- Reading a text: its words (letter and number text) and comments (`none`), in order.  `L` are the letters that start words; the
flag says whether the text is that of a whole line. -/
inductive Reads (L : List Char) : Bool → Str → List (Option (Char × Str)) → Prop
  | done {b} : Reads L b [] []
  /-- `(…)` without parentheses inside is a comment -/
  | paren {b s ws} (t : Str) : (∀ c ∈ t, c ≠ '(' ∧ c ≠ ')') → Reads L false s ws → Reads L b (paren t ++ s) (none :: ws)
  /-- a whole line between parentheses is a comment -/
  | whole {s} : WholeParen s → ¬ StartsParen s → Reads L true s [none]
  /-- `;` starts a comment up to the end of the line -/
  | semicolon {b s ws} (t : Str) : '\n' ∉ t → (∀ c, s.head? = some c → c = '\n') → Reads L false s ws → Reads L b (';' :: t ++ s) (none :: ws)
  /-- `/` and `*` start a comment if a newline follows -/
  | slash {b s ws} (c : Char) (t : Str) : (c = '/' ∨ c = '*') → '\n' ∉ t → Reads L false s ws → Reads L b (c :: t ++ '\n' :: s) (none :: ws)
  /-- a word -/
  | word {b s ws} (c : Char) (n : Str) : c ∈ L → NumberText n s → Reads L false s ws → Reads L b (c :: n ++ s) (some (c, n) :: ws)
  /-- anything else is skipped -/
  | other {b s ws} (c : Char) : c ∉ L → c ≠ ';' → (c = '/' ∨ c = '*' → '\n' ∉ s) → ¬ StartsParen (c :: s) → (b = true → ¬ WholeParen (c :: s)) →
      Reads L false s ws → Reads L b (c :: s) ws

/-- The number a text of digits stands for. -/
def numeral (s : Str) : ℕ := Nat.ofDigits 10 (s.reverse.map (fun c => c.toNat - '0'.toNat))

/-- The number a decimal text stands for. -/
inductive Decimal {α : Type} [Field α] : Str → α → Prop
  | int (a : Str) : IsDigits a → a ≠ [] → Decimal a (numeral a : α)
  | point (a b : Str) : IsDigits a → IsDigits b → (a ≠ [] ∨ b ≠ []) → Decimal (a ++ '.' :: b) (numeral a + numeral b / 10 ^ b.length : α)
  | plus {s} {v : α} : s.head? ≠ some '-' → s.head? ≠ some '+' → Decimal s v → Decimal ('+' :: s) v
  | minus {s} {v : α} : s.head? ≠ some '-' → s.head? ≠ some '+' → Decimal s v → Decimal ('-' :: s) (-v)

/-- The items of a line after its line number, if it has one. -/
def afterNumber : List (Option (Char × Str)) → List (Option (Char × Str))
  | some ('n', _) :: ws => ws
  | ws => ws

/-- The command of a line: its first word, unless a comment comes before it; the whole text if there is neither. -/
def commandOf (raw : Str) (ws : List (Option (Char × Str))) : Option Str :=
  match afterNumber ws with
  | [] => some raw
  | some (c, n) :: _ => some (c.toUpper :: n)
  | none :: _ => none

/-- The value of an argument letter, in units `u`: that of the last word with this letter and a number. -/
def ArgOf {α : Type} [Field α] (u : α) (ws : List (Option (Char × Str))) (k : Char) (v : Option α) : Prop :=
  ((∀ n, some (k, n) ∈ ws → n = []) ∧ v = none) ∨
  ∃ a n b w, ws = a ++ some (k, n) :: b ∧ n ≠ [] ∧ (∀ n', some (k, n') ∈ b → n' = []) ∧ Decimal n w ∧ v = some (u * w)

end GCodeUtils.Spec
