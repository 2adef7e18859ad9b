import Verif.Spec.Text
import Mathlib.Data.List.Basic

/-
  Lines written as a command word followed by argument words, with any spacing.
-/

namespace GCodeUtils.Spec

open GCodeUtils

/-- The Latin letters. -/
def latin : List Char := c!"abcdefghijklmnopqrstuvwxyzABCDEFGHIJKLMNOPQRSTUVWXYZ"

/-- A letter with digits, points and signs behind it. -/
def WordText (w : Str) : Prop := ∃ c n, w = c :: n ∧ c ∈ latin ∧ ∀ d ∈ n, d ∈ c!"0123456789.+-"

/-- The word has this letter, in either case. -/
def hasLetter (k : Char) (w : Str) : Bool := w.head?.map Char.toLower = some k

/-- Letter by letter, the same words in the same order. -/
def SameWords (ws ws' : List Str) : Prop := ∀ k : Char, ws.filter (hasLetter k) = ws'.filter (hasLetter k)

/-- A command word and further words, each with the text of the gap before it. -/
def written (w : Str) (gs : List (Str × Str)) : Str := w ++ gs.flatMap (fun g => g.1 ++ g.2)

/-- A line that consists of these words and blanks between them. -/
def SpacedAs (w : Str) (ws : List Str) (t : Str) : Prop :=
  ∃ gs : List (Str × Str), (∀ g ∈ gs, ∀ b ∈ g.1, b ∈ blanks) ∧ gs.map Prod.snd = ws ∧ t = written w gs

end GCodeUtils.Spec
