import Mathlib.Algebra.Order.Floor.Ring
import Mathlib.Algebra.Order.Field.Basic
import Mathlib.Data.Rat.Floor
import Verif.Model.Text

/-
  Numbers: Python `float` is modelled by an arbitrary linearly ordered field with floor (`ℚ`, `ℝ`).
  `round`, `"%.nf"`, `float(text)`, `int(text)`.
-/

namespace GCodeUtils

variable {α : Type} [Field α] [LinearOrder α] [IsStrictOrderedRing α] [FloorRing α]

/-- Tie rule of the built-in `round`: Python 3 rounds ties to even, Python 2 away from zero
(setup.py:60-66 declares both). -/
inductive RoundMode where
  | halfEven | halfAway
  deriving DecidableEq, Repr

/-- Nearest integer, ties to even. -/
def roundEven (y : α) : ℤ :=
  let f := ⌊y⌋
  let r := y - f
  if r < 1 / 2 then f else if 1 / 2 < r then f + 1 else if f % 2 = 0 then f else f + 1

/-- Nearest integer, ties away from zero. -/
def roundAway (y : α) : ℤ :=
  if 0 ≤ y then ⌊y + 1 / 2⌋ else -⌊-y + 1 / 2⌋

/-- Nearest integer under the given tie rule. -/
def roundInt : RoundMode → α → ℤ
  | .halfEven, y => roundEven y
  | .halfAway, y => roundAway y

/-- Python `round(x, d)` on an exact number (the float-to-decimal conversion error is not modelled). -/
def pyRound (mode : RoundMode) (d : ℕ) (x : α) : α :=
  (roundInt mode (x * 10 ^ d) : α) / 10 ^ d

/-- The decimal digit character of `n < 10`. -/
def digitChar (n : ℕ) : Char := Char.ofNat (48 + n)

/-- Decimal digits of `n`, most significant first; `fuel` bounds the number of digits. -/
def natDigitsAux : ℕ → ℕ → Str → Str
  | 0, _, acc => acc
  | fuel + 1, n, acc =>
    if n < 10 then digitChar n :: acc
    else natDigitsAux fuel (n / 10) (digitChar (n % 10) :: acc)

/-- `str(n)` for a natural number. -/
def natDigits (n : ℕ) : Str := natDigitsAux (n + 1) n []

/-- `n` written with exactly `d` digits (leading zeros, high digits dropped). -/
def padDigits : ℕ → ℕ → Str
  | 0, _ => []
  | d + 1, n => padDigits d (n / 10) ++ [digitChar (n % 10)]

/-- Python `"%.df" % x` / `"{:.df}".format(x)` for `d ≥ 1`: correctly rounded (ties to even) decimal
notation of the exact value, sign kept for negative numbers that round to zero.
(`-0.0`, infinities and NaN are not modelled.) -/
def fmtFixed (d : ℕ) (x : α) : Str :=
  let m := (roundEven (|x| * 10 ^ d)).toNat
  (if x < 0 then ['-'] else []) ++ natDigits (m / 10 ^ d) ++ ['.'] ++ padDigits d (m % 10 ^ d)

/-- Value of a digit character. -/
def digitVal (c : Char) : ℕ := c.toNat - 48

/-- Value of a digit string. -/
def digitsVal (s : Str) : ℕ := s.foldl (fun a c => a * 10 + digitVal c) 0

/-- Unsigned part of `float(text)` on texts over `[0-9.]`: digits with at most one point and at least one
digit; anything else is a `ValueError` (`none`). -/
def parseUFloat (s : Str) : Option α :=
  let ip := s.takeWhile isDig
  match s.dropWhile isDig with
  | [] => if ip.isEmpty then none else some (digitsVal ip : α)
  | c :: fr =>
    if c = '.' && fr.all isDig && !(ip.isEmpty && fr.isEmpty) then
      some ((digitsVal (ip ++ fr) : α) / 10 ^ fr.length)
    else none

/-- `float(text)` on texts matched by `[-+]?[0-9]*\.?[0-9]*`; `none` is a `ValueError`. -/
def parseFloat (s : Str) : Option α :=
  match s with
  | '-' :: t => (parseUFloat t).map (fun v => -v)
  | '+' :: t => parseUFloat t
  | t => parseUFloat t

/-- `int(text)` on texts matched by `[-+]?[0-9]*\.?[0-9]*`; `none` is a `ValueError`. -/
def parseInt (s : Str) : Option ℤ :=
  let u : Str → Option ℤ := fun t => if t.isEmpty || !t.all isDig then none else some (digitsVal t : ℤ)
  match s with
  | '-' :: t => (u t).map (fun v => -v)
  | '+' :: t => u t
  | t => u t

end GCodeUtils
