import Verif.Spec.Printer
import Verif.Spec.TempCal

/-
  The heater of the extruder, and programs that differ by lines the motion ignores.
-/

set_option linter.unusedSectionVars false

namespace GCodeUtils.Spec

open GCodeUtils

variable {α : Type} [Field α] [LinearOrder α] [IsStrictOrderedRing α] [FloorRing α]

/-- The temperature a line asks for: the `S` word of `M104` and `M109`. -/
def asksFor (raw : Str) : Option α :=
  match instr raw with
  | some (cmd, _) =>
    if cmd = c!"M104" ∨ cmd = c!"M109" then
      match (findSpecificCode raw 'S' : Except Err (Option α)) with
      | .ok v => v
      | .error _ => none
    else none
  | none => none

/-- The temperature asked for last. -/
def heater (t : Option α) (texts : List Str) : Option α := texts.foldl (fun t r => (asksFor r).or t) t

/-- A printer reading `out` goes through the states it goes through reading `texts`: some lines of `out` are the lines of
`texts`, and after any number of lines it is where the lines of `texts` among them take it. -/
def SameMotion (home : Pos3 α) (p : Printer α) (texts out : List Str) : Prop :=
  ∃ marked : List (Str × Bool), marked.map (·.1) = out ∧ (marked.filter (·.2)).map (·.1) = texts ∧
    ∀ k, p.final home (out.take k) = p.final home (((marked.take k).filter (·.2)).map (·.1))

/-- The layer starts at a height where the gradient applies. -/
def InGradient (b top : α) (L : Layer α) : Prop := ∃ c, startHeight L = some c ∧ c ≠ 0 ∧ b ≤ c ∧ c ≤ top

end GCodeUtils.Spec
