import Verif.Model.Track

/-
  Streaming commands some of which are not stored.
-/

set_option linter.unusedSectionVars false

namespace GCodeUtils.Spec

open GCodeUtils

variable {α : Type} [Field α] [LinearOrder α] [IsStrictOrderedRing α] [FloorRing α]

/-- Call `append` once per text, with its `store` argument, stopping at the first exception. -/
def appendEach (g : GCode α) : List (Str × Bool) → Except Err (GCode α)
  | [] => .ok g
  | (c, b) :: cs =>
    match g.appendWith c b with
    | .error e => .error e
    | .ok (g', _) => appendEach g' cs

/-- The elements whose flag is set. -/
def pick {β : Type} : List Bool → List β → List β
  | b :: bs, x :: xs => if b then x :: pick bs xs else pick bs xs
  | _, _ => []

/-- The `store` arguments of the calls whose text is not blank. -/
def flags (cs : List (Str × Bool)) : List Bool := (cs.filter fun c => decide (strip c.1 ≠ [])).map (·.2)

/-- What is written for the stored calls: one line for each text that is not blank. -/
def storedText (cs : List (Str × Bool)) : Str :=
  cs.flatMap fun c => if c.2 ∧ strip c.1 ≠ [] then strip c.1 ++ ['\n'] else []

end GCodeUtils.Spec
