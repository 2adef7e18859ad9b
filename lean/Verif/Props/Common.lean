import Verif.Model.GCode

/-
  A concrete runtime and a sample program for the non-vacuity examples.
-/

namespace GCodeUtils

/-- Rational runtime for computed examples (`|a|+|b|` in place of the irrational `hypot`). -/
def qEnv : Env ℚ := ⟨fun a b => |a| + |b|, .halfEven⟩

/-- A small but complete program: comments, units, modes, homing, two printed layers, an offset reset. -/
def sample : List Str :=
  [c!"; start", c!"G21\n", c!"", c!"G90", c!"M82", c!"G28", c!"G1 Z0.3 F1200",
   c!"  G1 X10 Y10 E1 \n", c!"G1 X20 Y10 E2", c!"G92 E0", c!"G1 Z0.6", c!"G1 X20 Y20 E1 ; side",
   c!"M104 S0"]

/-- The loaded value, for computed examples. -/
def okOr {β : Type} (d : β) : Except Err β → β
  | .ok b => b
  | .error _ => d

/-- The sample as a loaded object. -/
def sampleG : GCode ℚ := okOr (GCode.blank false Home.init) (GCode.load qEnv sample)

theorem sample_loads : GCode.load qEnv sample = .ok sampleG := by decide +kernel

/-- A program as a loaded object (only meaningful beside a proof that it loads). -/
def loadQ (data : List Str) : GCode ℚ := okOr (GCode.blank false Home.init) (GCode.load qEnv data)

/-- Object and line after `append`, for computed examples. -/
def appendQ (g : GCode ℚ) (c : Str) : GCode ℚ × Option (PyLine ℚ) := okOr (g, none) (g.append c)

end GCodeUtils
