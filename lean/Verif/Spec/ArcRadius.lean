import Verif.Spec.Arc
import Mathlib.Analysis.SpecialFunctions.Sqrt

/-
  What a motion controller computes from an arc command: the centre from I and J, and the distances of the start and of
  the end from it, which have to agree.
-/

namespace GCodeUtils.Spec

open GCodeUtils

/-- The machine, standing at the start of an arc, finds the two radii: that of its own place and that of the place the command ends
at. -/
def Radii (home : Pos3 ℝ) (q : Printer ℝ) (arc : PyLine ℝ) (r1 r2 : ℝ) : Prop :=
  ∃ i j, arc.i = some i ∧ arc.j = some j ∧ r1 = Real.sqrt (i ^ 2 + j ^ 2) ∧
    r2 = Real.sqrt (((q.exec home arc).pos.x - (q.pos.x + i)) ^ 2 + ((q.exec home arc).pos.y - (q.pos.y + j)) ^ 2)

/-- The generated arc has radii that differ by at most `d`, and the first is at most `m`. -/
def FairArc (home : Pos3 ℝ) (d m : ℝ) (q : Printer ℝ) (gen : List (PyLine ℝ)) : Prop :=
  ∃ arc rest r1 r2, gen = arc :: rest ∧ Radii home q arc r1 r2 ∧ |r2 - r1| ≤ d ∧ r1 ≤ m

end GCodeUtils.Spec
