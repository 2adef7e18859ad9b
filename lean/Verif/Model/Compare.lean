import Verif.Model.GCode

/-
  gcodeutils/gcoder.py:792-850: program comparison.
-/

namespace GCodeUtils

variable {α : Type} [Field α] [LinearOrder α] [IsStrictOrderedRing α] [FloorRing α]

/-- gcoder.py:845-850 `comment_stripper_generator`: the lines with a command, in layer order.
(For light lines `command` is never set, gcoder.py:97-104, so nothing is yielded.) -/
def GCode.meaningful (g : GCode α) : List (PyLine α) := g.allLines.filter (·.command.isSome)

/-- gcoder.py:826-843: the `zip` loop over the two generators followed by the exhaustion checks.  When the
second generator ends first, `zip` has already consumed one more line of the first. -/
def eqLoop : List (PyLine α) → List (PyLine α) → Bool
  | a :: as, b :: bs => if a.ne b then false else eqLoop as bs
  | [], bs => bs.isEmpty
  | _ :: as, [] => as.isEmpty

/-- gcoder.py:819-843 `GCode.__eq__` on two `GCode`s. -/
def GCode.eq (g h : GCode α) : Bool := eqLoop g.meaningful h.meaningful

/-- gcoder.py:792-817: the three messages `diff` can return. -/
inductive DiffResult (α : Type) where
  | first (n : ℕ) (l1 l2 : PyLine α)
  | remainingSelf (l : PyLine α)
  | remainingOther (l : PyLine α)
  deriving DecidableEq, Repr

/-- gcoder.py:799-817: as `eqLoop`, with the line counter of `enumerate`. -/
def diffLoop (n : ℕ) : List (PyLine α) → List (PyLine α) → Option (DiffResult α)
  | a :: as, b :: bs => if a.ne b then some (.first n a b) else diffLoop (n + 1) as bs
  | [], [] => none
  | [], b :: _ => some (.remainingOther b)
  | [_], [] => none
  | _ :: a :: _, [] => some (.remainingSelf a)

/-- gcoder.py:792-817 `GCode.diff`; `none` is the returned `None`. -/
def GCode.diff (g h : GCode α) : Option (DiffResult α) := diffLoop 0 g.meaningful h.meaningful

end GCodeUtils
