import Verif.Props.ArcGeometry
import Verif.Props.Compare
import Verif.Props.Filter
import Verif.Props.Stretch
import Verif.Props.Visit

/-
  The project's own tests with reference files, on the model, reading the files.  Not part of any proof.  Run with
  `lake env lean --run Verif/Conform/Run.lean /repo/gcodeutils/tests`.
-/

namespace GCodeUtils.Conform

def loadFileQ (dir f : String) : IO (GCode ℚ) := do
  let s ← IO.FS.readFile (dir ++ "/" ++ f ++ ".gcode")
  match GCode.load qEnv (readlines s.toList) with
  | .ok g => return g
  | .error e => throw (IO.userError s!"{f}: {reprStr e}")

def expect (n : String) (a : GCode ℚ) (r : Except Err (GCode ℚ)) (alike : Bool := true) : IO Unit :=
  match r with
  | .error e => IO.println s!"FAILED {n}: {reprStr e}"
  | .ok b => IO.println (if a.eq b == alike && b.eq a == alike && (a.diff b).isNone == alike then s!"ok {n}" else s!"FAILED {n}")

def runAll (dir : String) : IO Unit := do
  let ld := loadFileQ dir
  expect "test_identity_equality" (← ld "simple1") (.ok (← ld "simple1"))
  expect "test_trivial_difference" (← ld "simple1") (.ok (← ld "simple2")) false
  expect "test_ignore_non_command" (← ld "empty_for_good") (.ok (← ld "empty_skeinforge_format"))
  expect "test_precision 1" (← ld "simple1") (.ok (← ld "simple1_equivalent"))
  expect "test_precision 2" (← ld "simple1") (.ok (← ld "simple1_slightly_different")) false
  expect "test_nop_move" (← ld "simple1") ((← ld "simple1").translate (some 0) (some 0))
  expect "test_trivial_move" (← ld "simple2") ((← ld "simple1").translate (some 1) (some 2))
  expect "test_nop_relative_extrusion" (← ld "simple1") (← ld "simple1").toRelativeE
  expect "test_trivial_relative_extrusion" (← ld "simple3-relative") (← ld "simple3").toRelativeE
  expect "test_arc_optimization_1" (← ld "arc_ref_1") ((← ld "arc_raw_1").optimizeArcs qTrig)
  expect "test_arc_optimization_2" (← ld "arc_ref_2") ((← ld "arc_raw_2").optimizeArcs qTrig)
  expect "test_arc_optimization_3" (← ld "arc_raw_3") ((← ld "arc_raw_3").optimizeArcs qTrig)
  expect "test_arc_optimization_4" (← ld "arc_ref_4") ((← ld "arc_raw_4").optimizeArcs qTrig)
  expect "test_pause_at_layer" (← ld "arc_raw_1") ((← ld "arc_raw_1").pauseAt .halfEven 3 [1]) false
  expect "test_skeinforge_formatted_stretch" (← ld "skeinforge_model1_poststretch")
    ((← ld "skeinforge_model1_prestretch").stretch rSqrt 100000 .skeinforge (StretchRepo.default 1) noProfile)

end GCodeUtils.Conform

def main (args : List String) : IO Unit := GCodeUtils.Conform.runAll (args.headD "/repo/gcodeutils/tests")
