import Verif.Conform.Data
import Verif.Props.ArcGeometry
import Verif.Props.Compare
import Verif.Props.Stretch
import Verif.Props.Visit
import Verif.Props.Filter

/-
  The project's own tests (gcodeutils/tests/test_*.py), evaluated on the model.  They are tests of the model, not of the
  properties: the model gives the results the project's authors expect of the program.
-/

namespace GCodeUtils.Conform

open Spec

/-- gcodeutils/tests/__init__.py `gcode_eq`, in both directions and with `diff`. -/
def Alike (a b : GCode ℚ) : Prop := a.eq b = true ∧ b.eq a = true ∧ a.diff b = none

instance (a b : GCode ℚ) : Decidable (Alike a b) := by unfold Alike; infer_instance

/-- test_equality.py `test_identity_equality`, `test_trivial_difference`. -/
example : Alike (loadQ ref_simple1) (loadQ ref_simple1) ∧ (loadQ ref_simple1).eq (loadQ ref_simple2) = false := by decide +kernel

/-- test_equality.py `test_ignore_non_command`, `test_precision`. -/
example : Alike (loadQ ref_empty_for_good) (loadQ ref_empty_skeinforge_format) ∧ Alike (loadQ ref_simple1) (loadQ ref_simple1_equivalent) ∧
    (loadQ ref_simple1).eq (loadQ ref_simple1_slightly_different) = false := by decide +kernel

/-- test_modification.py `test_nop_move`, `test_trivial_move`. -/
example : Alike (loadQ ref_simple1) (transQ (loadQ ref_simple1) 0 0) ∧ Alike (loadQ ref_simple2) (transQ (loadQ ref_simple1) 1 2) := by decide +kernel

/-- test_modification.py `test_nop_relative_extrusion`, `test_trivial_relative_extrusion`. -/
example : Alike (loadQ ref_simple1) (okOr (loadQ ref_simple2) (loadQ ref_simple1).toRelativeE) ∧
    Alike (loadQ ref_simple3_relative) (okOr (loadQ ref_simple1) (loadQ ref_simple3).toRelativeE) := by decide +kernel

/-- test_arc_optimization.py `test_arc_optimization_4`. -/
example : Alike (loadQ ref_arc_ref_4) (arcsQ ref_arc_raw_4) ∧ (program (loadQ ref_arc_raw_4)).length ≠ (program (arcsQ ref_arc_raw_4)).length := by
  decide +kernel

/-- test_visitor.py `test_pause_at_layer`: the pause is the first difference. -/
example : ∃ n a b, (loadQ ref_arc_raw_1).diff (okOr (loadQ ref_arc_raw_1) ((loadQ ref_arc_raw_1).pauseAt .halfEven 3 [1])) = some (.first n a b) ∧
    b.raw = pauseCommand := by
  cases h : (loadQ ref_arc_raw_1).diff (okOr (loadQ ref_arc_raw_1) ((loadQ ref_arc_raw_1).pauseAt .halfEven 3 [1])) with
  | none => exact absurd (congrArg Option.isNone h) (by decide +kernel)
  | some d =>
    have key : ((loadQ ref_arc_raw_1).diff (okOr (loadQ ref_arc_raw_1) ((loadQ ref_arc_raw_1).pauseAt .halfEven 3 [1]))).any (fun d => match d with
        | .first _ _ b => b.raw = pauseCommand
        | _ => false) = true := by decide +kernel
    rw [h] at key
    cases d with
    | first n a b => exact ⟨n, a, b, rfl, by simpa using key⟩
    | remainingSelf a => simp at key
    | remainingOther a => simp at key

/-- test_iterator.py `layer1`. -/
def ref_layer1 : List Str :=
  [c!";stretch-extrusion-on", c!"G1 X1", c!"G1 X2", c!"G1 X3", c!"G1 X4", c!"G1 X5", c!";stretch-extrusion-off"]

/-- The X words an iterator gives, and how it ends. -/
def walkX : ℕ → ItSt → List (Option ℚ) × Option Err
  | 0, _ => ([], none)
  | n + 1, st =>
    match getNext 20 .fwdLegacy ((loadQ ref_layer1).allLayers.flatMap (·.lines)) st with
    | .error e => ([], some e)
    | .ok (l, st) => (l.x :: (walkX n st).1, (walkX n st).2)

/-- test_iterator.py `test_trivial_iteration`. -/
example : walkX 6 { idx := 0 } = ([some 1, some 2, some 3, some 4, some 5], some .stopIteration) ∧
    walkX 6 { idx := 1 } = ([some 1, some 2, some 3, some 4, some 5], some .stopIteration) ∧
    walkX 6 { idx := 2 } = ([some 2, some 3, some 4, some 5], some .stopIteration) ∧
    walkX 6 { idx := 3 } = ([some 3, some 4, some 5], some .stopIteration) ∧
    walkX 6 { idx := 4 } = ([some 4, some 5], some .stopIteration) ∧ walkX 6 { idx := 5 } = ([some 5], some .stopIteration) := by
  decide +kernel

end GCodeUtils.Conform
