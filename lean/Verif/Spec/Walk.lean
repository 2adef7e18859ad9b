import Verif.Spec.Stretch

/-
  Walking along loops, looking for the neighbours of a point.
-/

set_option linter.unusedSectionVars false

namespace GCodeUtils.Spec

open GCodeUtils

variable {α : Type} [Field α] [LinearOrder α] [IsStrictOrderedRing α] [FloorRing α]

/-- The `i`-th line has a mark. -/
def HasMark (m : Str) (ls : List (PyLine α)) (i : ℕ) : Prop := ∃ l, ls[i]? = some l ∧ m <:+: l.raw

/-- The `i`-th line is a linear X/Y move and does not switch extrusion off. -/
def IsPoint (ls : List (PyLine α)) (i : ℕ) : Prop := ∃ l, ls[i]? = some l ∧ XYMove l ∧ ¬ c!"stretch-extrusion-off" <:+: l.raw

/-- Asking for the next line gives an answer, the same whatever the time allowed, if that is long enough. -/
def Answers (kind : ItKind) (ls : List (PyLine α)) (st : ItSt) : Prop :=
  ∃ r, r ≠ .error .outOfFuel ∧ ∀ fuel, 2 * ls.length + 3 ≤ fuel → getNext fuel kind ls st = r

/-- Asking for the next line never gives an answer. -/
def Hangs (kind : ItKind) (ls : List (PyLine α)) (st : ItSt) : Prop := ∀ fuel, getNext fuel kind ls st = .error .outOfFuel

/-- From every line with the mark `start` on, a point comes before extrusion is switched off. -/
def PointsAfter (start : Str) (ls : List (PyLine α)) : Prop :=
  ∀ p q, p < q → HasMark start ls p → HasMark c!"stretch-extrusion-off" ls q → (∀ r, p < r → r < q → ¬ HasMark start ls r) →
    ∃ m, p < m ∧ m < q ∧ IsPoint ls m

/-- Between two lines that switch extrusion off, and that do not follow each other directly, a point comes two lines before the
second one or earlier. -/
def PointsBetween (ls : List (PyLine α)) : Prop :=
  ∀ p q, p + 2 ≤ q → HasMark c!"stretch-extrusion-off" ls p → HasMark c!"stretch-extrusion-off" ls q →
    (∀ r, p < r → r < q → ¬ HasMark c!"stretch-extrusion-off" ls r) → ∃ m, p < m ∧ m + 2 ≤ q ∧ IsPoint ls m

/-! ### Cura loops -/

/-- The layer does not end with a linear X/Y move. -/
def QuietEnd (lines : List (PyLine α)) : Prop := ∀ l, lines.getLast? = some l → ¬ XYMove l

/-- A comment that announces a loop. -/
def OpensType (l : PyLine α) : Prop := c!"TYPE:WALL-OUTER" <:+: l.raw ∨ c!"TYPE:WALL-INNER" <:+: l.raw ∨ c!"TYPE:SKIN" <:+: l.raw

/-- A comment that announces a loop or the filling. -/
def AnyType (l : PyLine α) : Prop := OpensType l ∨ c!"TYPE:FILL" <:+: l.raw

/-- After a comment that announces a loop come, in the same layer, nothing, or a line that is not such a comment and at least one
more line. -/
def Spaced (ls : List (PyLine α)) : Prop :=
  ∀ i l l', ls[i]? = some l → ls[i + 1]? = some l' → OpensType l → ¬ AnyType l' ∧ i + 2 < ls.length

/-- No line has the filter's loop marks already. -/
def Unmarked (ls : List (PyLine α)) : Prop := ∀ l ∈ ls, ¬ c!"stretch-loop-start" <:+: l.raw ∧ ¬ c!"stretch-loop-stop" <:+: l.raw

end GCodeUtils.Spec
