import Verif.Spec.Filter
import Verif.Spec.Measured
import Verif.Model.Cli

/-
  The command line tool run on its own output (specification of C116).
-/

set_option linter.unusedSectionVars false

namespace GCodeUtils.Spec

open GCodeUtils

variable {α : Type} [Field α] [LinearOrder α] [IsStrictOrderedRing α] [FloorRing α]

/-- Running `gcode_mod -x dx -y dy` on its own output, for one pair of options after another. -/
def moveRuns (env : Env α) : Str → List (Option α × Option α) → Except Err Str
  | text, [] => .ok text
  | text, d :: ds => do
    let t ← modPipeline env d.1 d.2 false none (readlines text)
    moveRuns env t ds

/-- The sum of the X options. -/
def sumX (ds : List (Option α × Option α)) : α := (ds.map (fun d => d.1.getD 0)).sum

/-- The sum of the Y options. -/
def sumY (ds : List (Option α × Option α)) : α := (ds.map (fun d => d.2.getD 0)).sum

/-- Same command, and the same of X, Y and Z named. -/
def Kin (l l' : PyLine α) : Prop :=
  l'.command = l.command ∧ l'.x.isSome = l.x.isSome ∧ l'.y.isSome = l.y.isSome ∧ l'.z.isSome = l.z.isSome

end GCodeUtils.Spec
