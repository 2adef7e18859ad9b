import Verif.Spec.Elsewhere

/-
  Programs that go to their place on the bed by an absolute move and then stay in absolute coordinates.
-/

namespace GCodeUtils.Spec

open GCodeUtils

variable {α : Type} [Field α] [LinearOrder α] [IsStrictOrderedRing α] [FloorRing α]

/-- A line before the first X/Y move: it is the same at every place, does not switch to relative coordinates, and is no move
with an E word. -/
def Preamble (r : Str) : Prop :=
  Placeless r ∧ ¬ Nested r ∧ '\n' ∉ r ∧ ∀ ws, Reads letters true (lower r) ws → commandOf r ws ≠ some c!"G91" ∧
    ((∃ c ∈ [c!"G0", c!"G1", c!"G2", c!"G3"], commandOf r ws = some c) → ∀ n, some ('e', n) ∉ ws)

/-- A line that neither switches to relative coordinates nor homes, is no arc and does not re-label X or Y. -/
def StaysPut (r : Str) : Prop :=
  ∀ ws, Reads letters true (lower r) ws →
    (∀ c ∈ [c!"G91", c!"G28", c!"G2", c!"G3"], commandOf r ws ≠ some c) ∧
    (commandOf r ws = some c!"G92" → ∀ n, some ('x', n) ∉ ws ∧ some ('y', n) ∉ ws)

/-- The texts of a program and of the same program at another place. -/
def PlacedElsewhere (dx dy : α) (rs rs' : List Str) : Prop :=
  ∃ pre mv mv' post post', rs = pre ++ mv :: post ∧ rs' = pre ++ mv' :: post' ∧ (∀ r ∈ pre, Preamble r) ∧ MovedMove dx dy mv mv' ∧
    List.Forall₂ (Elsewhere dx dy) post post' ∧ ∀ r ∈ post, StaysPut r

end GCodeUtils.Spec
