import Verif.Spec.Turned
import Verif.Spec.ArcElsewhere

/-
  Arc optimisation of a program and of the same program turned by a multiple of a right angle.
-/

set_option linter.unusedSectionVars false

namespace GCodeUtils.Spec

open GCodeUtils

variable {α : Type} [Field α] [LinearOrder α] [IsStrictOrderedRing α] [FloorRing α]

/-- Lines with the positions at which they can be seen while arcs are looked for: a comment is at its own position or at that
of the line before it (given for the first line). -/
inductive Settled : Option (PyLine α) → List (PyLine α) → List (PyLine α) → Prop
  | done (p) : Settled p [] []
  | own (p) {l ls ks} : Settled (some l) ls ks → Settled p (l :: ls) (l :: ks)
  | taken (p l k : PyLine α) {ls ks} : l.command = none →
      k = { l with currentX := p.currentX, currentY := p.currentY, currentZ := p.currentZ, currentE := p.currentE, currentF := p.currentF } →
      Settled (some k) ls ks → Settled (some p) (l :: ls) (k :: ks)

/-- The centre of the circle fitted to points: the squared distance from it is not correlated with either coordinate. -/
def FittedAt (pts : List (α × α)) (c : α × α) : Prop :=
  let far (p : α × α) : α := (p.1 - c.1) ^ 2 + (p.2 - c.2) ^ 2
  let mx := (pts.map (·.1)).sum / pts.length
  let my := (pts.map (·.2)).sum / pts.length
  (pts.map (fun p => (p.1 - mx) * far p)).sum = 0 ∧ (pts.map (fun p => (p.2 - my) * far p)).sum = 0

/-- The straight line from `p` to `q` passes through `c`. -/
def Across (c p q : α × α) : Prop := ∃ s : α, 0 ≤ s ∧ s ≤ 1 ∧ c = (p.1 + s * (q.1 - p.1), p.2 + s * (q.2 - p.2))

/-- One of the moves from point to point, or the straight line from the first point to the third, passes through the centre of the
fitted circle, where the sense of rotation is undefined. -/
def ThroughCentre (pts : List (α × α)) : Prop :=
  ∃ c, FittedAt pts c ∧ ((∃ p q, [p, q] <:+: pts ∧ Across c p q) ∨ ∃ p q r rest, pts = p :: q :: r :: rest ∧ Across c p r)

/-- A generated arc and the one generated for the turned program: end point and centre are turned, the rest is the same. -/
def TurnedArc (T : Turn) (α : Type) [Field α] (r r' : Str) : Prop :=
  ∃ (c nx ny ni nj nx' ny' ni' nj' mid rest : Str) (x y i j : α), (c = c!"G2" ∨ c = c!"G3") ∧ c!"; generated from " <+: rest ∧
    Decimal nx x ∧ Decimal ny y ∧ Decimal ni i ∧ Decimal nj j ∧
    Decimal nx' (T.x x y) ∧ Decimal ny' (T.y x y) ∧ Decimal ni' (T.x i j) ∧ Decimal nj' (T.y i j) ∧
    r = c ++ c!" X" ++ nx ++ c!" Y" ++ ny ++ mid ++ c!" I" ++ ni ++ c!" J" ++ nj ++ rest ∧
    r' = c ++ c!" X" ++ nx' ++ c!" Y" ++ ny' ++ mid ++ c!" I" ++ ni' ++ c!" J" ++ nj' ++ rest

/-- A line of the optimised program and the corresponding line of the optimised turned program: lines with the texts of the input, or
generated lines. -/
def OptimisedTurned (T : Turn) (Q : Str → Str → Prop) (l l' : PyLine α) : Prop :=
  TurnedLine T l l' ∧ (Q l.raw l'.raw ∨ TurnedArc T α l.raw l'.raw ∨ SameCorrection l.raw l'.raw)

end GCodeUtils.Spec
