import Verif.Spec.Filter

/-
  Programs whose translation is seen by whoever reads them again (specification of C112).
-/

namespace GCodeUtils.Spec

variable {α : Type} [Field α] [LinearOrder α] [IsStrictOrderedRing α] [FloorRing α]

/-- Every E word has at most five decimals. -/
def FiveDecimals (ls : List (PyLine α)) : Prop := ∀ l ∈ ls, ∀ e, l.e = some e → ∃ k : ℤ, e = k / 10 ^ 5

/-- Filament is only pushed by moves that end where X and Y have both been named by absolute moves since the last homing. -/
def PlacedFirst (ls : List (PyLine α)) : Prop :=
  ∀ pre l post, ls = pre ++ l :: post → l.isMove = true → l.extruding = some true →
    ∃ t : TrackSt, ({} : TrackSt).run (pre ++ [l]) = some t ∧ t.x.isPlaced = true ∧ t.y.isPlaced = true

end GCodeUtils.Spec
