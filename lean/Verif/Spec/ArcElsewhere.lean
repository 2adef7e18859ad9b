import Verif.Spec.Placed
import Verif.Spec.Arc

/-
  Arc optimisation of a program and of the same program at another place of the bed.
-/

namespace GCodeUtils.Spec

open GCodeUtils

variable {α : Type} [Field α] [LinearOrder α] [IsStrictOrderedRing α] [FloorRing α]

/-- A generated arc at two places: the same text, except that the end point is that of the other place, up to 0.001 mm. -/
def MovedArc (dx dy : α) (r r' : Str) : Prop :=
  ∃ (c nx ny nx' ny' rest : Str) (x y x' y' : α), (c = c!"G2" ∨ c = c!"G3") ∧ c!"; generated from " <:+: rest ∧
    Decimal nx x ∧ Decimal ny y ∧ Decimal nx' x' ∧ Decimal ny' y' ∧ |x' - (x + dx)| ≤ 1 / 1000 ∧ |y' - (y + dy)| ≤ 1 / 1000 ∧
    r = c ++ c!" X" ++ nx ++ c!" Y" ++ ny ++ rest ∧ r' = c ++ c!" X" ++ nx' ++ c!" Y" ++ ny' ++ rest

/-- A generated correction of the filament counter, the same at both places. -/
def SameCorrection (r r' : Str) : Prop := r' = r ∧ c!"G92" <+: r ∧ c!"; generated as arc to path relation is " <:+: r

/-- A line of the optimised program and the corresponding line of the program optimised at another place. -/
def OptimisedElsewhere (dx dy : α) (r r' : Str) : Prop := Elsewhere dx dy r r' ∨ MovedArc dx dy r r' ∨ SameCorrection r r'

/-- The text is that of a command which is no move. -/
def OtherCommand (r : Str) : Prop :=
  ∀ ws, Reads letters true (lower r) ws → ∃ k, commandOf r ws = some k ∧ k ∉ [c!"G0", c!"G1", c!"G2", c!"G3"]

/-- The texts of a program and of the same program at another place; directly before the move to that place is a command
which is no move (or nothing). -/
def SetElsewhere (dx dy : α) (rs rs' : List Str) : Prop :=
  ∃ pre mv mv' post post', rs = pre ++ mv :: post ∧ rs' = pre ++ mv' :: post' ∧ (∀ r ∈ pre, Preamble r) ∧
    (∀ r, pre.getLast? = some r → OtherCommand r) ∧ MovedMove dx dy mv mv' ∧
    List.Forall₂ (Elsewhere dx dy) post post' ∧ ∀ r ∈ post, StaysPut r

end GCodeUtils.Spec
