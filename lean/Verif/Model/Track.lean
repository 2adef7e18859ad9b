import Verif.Model.GCode

/-
  gcodeutils/gcoder.py:389-400: `append` with the `store` argument.
-/

set_option linter.unusedSectionVars false

namespace GCodeUtils

variable {α : Type} [Field α] [LinearOrder α] [IsStrictOrderedRing α] [FloorRing α]

/-- gcoder.py:389-400 `append(command, store)`: without `store` the line is processed and returned, but not recorded. The returned line is
the one given to `_preprocess`; for light programs a copy is processed (gcoder.py:473-480), so it keeps only its text. -/
def GCode.appendWith (g : GCode α) (command : Str) (store : Bool) : Except Err (GCode α × Option (PyLine α)) :=
  if store then g.append command
  else
    let command := strip command
    if command.isEmpty then .ok (g, none)
    else
      match processLine g.home g.m { raw := command } with
      | .error er => .error er
      | .ok (m, l) => .ok ({ g with m := m }, some (if g.light then { raw := command } else l))

end GCodeUtils
