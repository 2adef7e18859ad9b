import Verif.Spec.Runs

/-
  The options of the command line tool given in one run or in several (specification of C137).
-/

set_option linter.unusedSectionVars false

namespace GCodeUtils.Spec

open GCodeUtils

variable {α : Type} [Field α] [LinearOrder α] [IsStrictOrderedRing α] [FloorRing α]

/-- The options `-x`, `-y` and `-e` of a run of `gcode_mod`. -/
structure ModOptions (α : Type) where
  x : Option α := none
  y : Option α := none
  e : Bool := false

/-- Running `gcode_mod` on its own output, with one group of options after another. -/
def optionRuns (env : Env α) : Str → List (ModOptions α) → Except Err Str
  | text, [] => .ok text
  | text, o :: os => do
    let t ← modPipeline env o.x o.y o.e none (readlines text)
    optionRuns env t os

/-- The filters of a group of options. -/
def ModOptions.filter (o : ModOptions α) (g : GCode α) : Except Err (GCode α) :=
  match (if o.x.isSome || o.y.isSome then g.translate o.x o.y else .ok g) with
  | .error er => .error er
  | .ok g => if o.e then g.toRelativeE else .ok g

/-- The filters of all the groups applied to a program one after the other, without writing it in between. -/
def inMemory : GCode α → List (ModOptions α) → Except Err (GCode α)
  | g, [] => .ok g
  | g, o :: os => do
    let g ← o.filter g
    inMemory g os

end GCodeUtils.Spec
