import Verif.Spec.OptionRuns
import Verif.Model.TempCal

/-
  A temperature tower and the options of the command line tool (specification of C138).
-/

set_option linter.unusedSectionVars false

namespace GCodeUtils.Spec

open GCodeUtils

variable {α : Type} [Field α] [LinearOrder α] [IsStrictOrderedRing α] [FloorRing α]

/-- Reading a text and writing it as a temperature tower, with any rule for the temperature of a layer. -/
def towerRun (env : Env α) (temp : TempFn α) (minZ : α) (text : Str) : Except Err Str := do
  let g ← GCode.load env (readlines text)
  match writeTemp env.mode temp minZ {} g with
  | (out, .ok _) => .ok (printed out)
  | (_, .error e) => .error e

end GCodeUtils.Spec
