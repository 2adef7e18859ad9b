import Verif.Spec.Words
import Verif.Spec.Grammar
import Verif.Spec.Close
import Verif.Spec.Stretch

/-
  The same program at another place of the bed.
-/

namespace GCodeUtils.Spec

open GCodeUtils

variable {α : Type} [Field α] [LinearOrder α] [IsStrictOrderedRing α] [FloorRing α]

/-- The same word, but X and Y words have numbers larger by `dx` and `dy`. -/
inductive MovedWord (dx dy : α) : Str → Str → Prop
  | same (c : Char) (n : Str) : c ∈ c!"ZEFIJ" → (∀ d ∈ n, d ∈ c!"0123456789.+-") → MovedWord dx dy (c :: n) (c :: n)
  | x (n n' : Str) (a : α) : Decimal n a → Decimal n' (a + dx) → MovedWord dx dy ('X' :: n) ('X' :: n')
  | y (n n' : Str) (a : α) : Decimal n a → Decimal n' (a + dy) → MovedWord dx dy ('Y' :: n) ('Y' :: n')

/-- A comment behind the words of a line (or nothing). -/
def CommentTail (t : Str) : Prop :=
  t = [] ∨ ∃ sp c, t = sp ++ ';' :: c ∧ (∀ b ∈ sp, b = ' ' ∨ b = '\t') ∧ ∀ d ∈ c, d ≠ '(' ∧ d ≠ ')' ∧ d ≠ '\n'

/-- The texts of a move at two places: `G0` or `G1` with the same words, of which X and Y are shifted, and the same comment. -/
def MovedMove (dx dy : α) (r r' : Str) : Prop :=
  ∃ (n : Str) (gs gs' : List (Str × Str)) (t : Str), (n = ['0'] ∨ n = ['1']) ∧
    (∀ g ∈ gs, ∀ b ∈ g.1, b = ' ') ∧
    List.Forall₂ (fun g g' => g'.1 = g.1 ∧ MovedWord dx dy g.2 g'.2) gs gs' ∧
    (∃ g ∈ gs, g.2.head? = some 'X') ∧ (∃ g ∈ gs, g.2.head? = some 'Y') ∧ CommentTail t ∧
    r = written ('G' :: n) gs ++ t ∧ r' = written ('G' :: n) gs' ++ t

/-- The same, for moves that may leave X or Y out. -/
def MovedText (dx dy : α) (r r' : Str) : Prop :=
  ∃ (n : Str) (gs gs' : List (Str × Str)) (t : Str), (n = ['0'] ∨ n = ['1']) ∧
    (∀ g ∈ gs, ∀ b ∈ g.1, b = ' ') ∧
    List.Forall₂ (fun g g' => g'.1 = g.1 ∧ MovedWord dx dy g.2 g'.2) gs gs' ∧ CommentTail t ∧
    r = written ('G' :: n) gs ++ t ∧ r' = written ('G' :: n) gs' ++ t

/-- The text is not that of a `G0` or `G1` line with X or Y words, and does not switch to inches. -/
def Placeless (r : Str) : Prop :=
  ∀ ws, Reads letters true (lower r) ws → commandOf r ws ≠ some c!"G20" ∧
    (commandOf r ws = some c!"G0" ∨ commandOf r ws = some c!"G1" → ∀ n, some ('x', n) ∉ ws ∧ some ('y', n) ∉ ws)

/-- The texts of a line of a program and of the same program at another place: X/Y moves are shifted, other lines have the
same text. -/
def Elsewhere (dx dy : α) (r r' : Str) : Prop :=
  MovedMove dx dy r r' ∨ r' = r ∧ Placeless r ∧ ¬ Nested r ∧ '\n' ∉ r

/-- The results: the same command with the same Z, E and F; X and Y shifted, up to `tol`; or the same text. -/
def ElsewhereUpTo (tol dx dy : α) (l l' : PyLine α) : Prop :=
  (l'.raw = l.raw ∧ ¬ XYMove l) ∨
    (XYMove l ∧ l'.command = l.command ∧ l'.z = l.z ∧ l'.e = l.e ∧ l'.f = l.f ∧
      ∃ x y x' y', l.x = some x ∧ l.y = some y ∧ l'.x = some x' ∧ l'.y = some y' ∧ |x' - (x + dx)| ≤ tol ∧ |y' - (y + dy)| ≤ tol)

end GCodeUtils.Spec
