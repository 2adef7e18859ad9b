import Verif.Model.GCode

/-
  Streaming: feeding commands one at a time through `append`.
-/

namespace GCodeUtils.Spec

open GCodeUtils

variable {α : Type} [Field α] [LinearOrder α] [IsStrictOrderedRing α] [FloorRing α]

/-- Call `append` once per text, stopping at the first exception. -/
def appendAll (g : GCode α) : List Str → Except Err (GCode α)
  | [] => .ok g
  | c :: cs =>
    match g.append c with
    | .error e => .error e
    | .ok (g', _) => appendAll g' cs

end GCodeUtils.Spec
