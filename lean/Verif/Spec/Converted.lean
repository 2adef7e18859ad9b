import Verif.Spec.Arc

/-
  Arc optimisation of a program and of the same program converted to relative extrusion.
-/

namespace GCodeUtils.Spec

open GCodeUtils

variable {α : Type} [Field α] [LinearOrder α] [IsStrictOrderedRing α] [FloorRing α]

/-- A line and the same line with another amount of filament: the same text, or `M83` for `M82`, or a move to the same place with the
same feed rate. -/
def OnlyE (l l' : PyLine α) : Prop :=
  l'.raw = l.raw ∨ (HasCmd l c!"M82" ∧ l'.raw = c!"M83") ∨
    (IsMove l ∧ l'.command = l.command ∧ l'.x = l.x ∧ l'.y = l.y ∧ l'.z = l.z ∧ l'.i = l.i ∧ l'.j = l.j ∧ l'.f = l.f ∧ l.e ≠ none ∧ l'.e ≠ none)

/-- Two generated arcs with the same text, up to the number in the E word. -/
def SameArc (r r' : Str) : Prop :=
  ∃ c xy e e' rest : Str, (c = c!"G2" ∨ c = c!"G3") ∧ c!"; generated from " <:+: rest ∧ r = c ++ xy ++ c!" E" ++ e ++ rest ∧ r' = c ++ xy ++ c!" E" ++ e' ++ rest

/-- A generated correction of the filament counter. -/
def CorrectionText (r : Str) : Prop := c!"G92 E" <+: r ∧ c!"; generated as arc to path relation is " <:+: r

/-- Two optimised programs with the same lines and the same arcs at the same places, up to the amount of filament; the first one may
correct the filament counter after an arc. -/
inductive SameArcs : List (PyLine α) → List (PyLine α) → Prop where
  | nil : SameArcs [] []
  | line {l l' o o'} : OnlyE l l' → SameArcs o o' → SameArcs (l :: o) (l' :: o')
  | arc {a a' o o'} : SameArc a.raw a'.raw → SameArcs o o' → SameArcs (a :: o) (a' :: o')
  | corrected {a k a' o o'} : SameArc a.raw a'.raw → CorrectionText k.raw → SameArcs o o' → SameArcs (a :: k :: o) (a' :: o')

/-- The command gives the extruder coordinate another value. -/
def RelabelsE (l : PyLine α) : Prop := HasCmd l c!"G92" ∧ (l.e ≠ none ∨ (l.x = none ∧ l.y = none ∧ l.z = none))

/-- The extruder coordinate is not set any more once a move has an E word. -/
def NoReset (ls : List (PyLine α)) : Prop :=
  ∀ pre l post, ls = pre ++ l :: post → IsMove l → l.e ≠ none → ∀ k ∈ post, ¬ RelabelsE k

end GCodeUtils.Spec
