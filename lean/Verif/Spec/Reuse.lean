import Verif.Spec.Filter

/-
  Programs that do not depend on what was printed before them (specification of C111).
-/

namespace GCodeUtils.Spec

variable {α : Type} [Field α] [LinearOrder α] [IsStrictOrderedRing α] [FloorRing α]

/-- Each by itself, in turn, until one fails. -/
def eachOf (f : GCode α → Except Err (GCode α)) : List (GCode α) → Except Err (List (GCode α))
  | [] => .ok []
  | g :: gs =>
    match f g with
    | .error er => .error er
    | .ok g' =>
      match eachOf f gs with
      | .error er => .error er
      | .ok out => .ok (g' :: out)

/-- Before the first move the program says whether coordinates are absolute or relative. -/
def SaysDistances (ls : List (PyLine α)) : Prop :=
  ∀ pre l post, ls = pre ++ l :: post → IsMove l → ∃ k ∈ pre, HasCmd k c!"G90" ∨ HasCmd k c!"G91"

/-- Before the first move that extrudes the program says whether E is absolute or relative, and sets it. -/
def SaysExtrusion (ls : List (PyLine α)) : Prop :=
  ∀ pre l post, ls = pre ++ l :: post → IsMove l → l.e ≠ none →
    (∃ k ∈ pre, HasCmd k c!"M82" ∨ HasCmd k c!"M83") ∧
    ∃ k ∈ pre, HasCmd k c!"G92" ∧ (k.e ≠ none ∨ (k.x = none ∧ k.y = none ∧ k.z = none))

/-- The last line is a command other than a move. -/
def EndsInCommand (ls : List (PyLine α)) : Prop := ∃ pre l, ls = pre ++ [l] ∧ l.command ≠ none ∧ ¬ IsMove l

end GCodeUtils.Spec
