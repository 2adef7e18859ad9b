import Verif.Lemmas.Duration
import Verif.Props.Common

/-
  C90: the duration estimate against the path of a printer.
-/

set_option linter.unusedSectionVars false

namespace GCodeUtils

open Spec

variable {α : Type} [Field α] [LinearOrder α] [IsStrictOrderedRing α] [FloorRing α]

/-- Whole seconds, less than one second off. -/
theorem pyInt_near (x : α) : x - 1 < (pyInt x : α) ∧ (pyInt x : α) < x + 1 := by
  unfold pyInt
  split_ifs
  · have h1 := Int.floor_le x
    have h2 := Int.lt_floor_add_one x
    constructor <;> linarith
  · have h1 := Int.floor_le (-x)
    have h2 := Int.lt_floor_add_one (-x)
    push_cast
    constructor <;> linarith

theorem load_durInv {env : Env α} (henv : ∀ a b, 0 ≤ env.hypot a b) {data : List Str} {home : Home α} {g : GCode α}
    (h : GCode.load env data false home = .ok g) {fmin fmax : α} (h0 : 0 < fmin) (hM : 0 ≤ fmax) {hm : Pos3 α} {ze : Bool}
    (hs : throughout (Steady hm fmin fmax) hm Printer.start g.lines) (hz : ze = true → throughout (SteadyZE hm) hm Printer.start g.lines)
    {n : ℤ} (hn : g.duration = some n) :
    ∃ total : α, n = pyInt total ∧
      60 * along (lengthXY env.hypot hm) hm Printer.start g.lines / fmax + (g.lines.map dwell).sum ≤ total ∧
      (ze = true → total ≤ 2 * (60 * along (lengthXYZE env.hypot hm) hm Printer.start g.lines) / fmin + (g.lines.map dwell).sum) := by
  rcases load_ok h with ⟨_, rfl⟩ | ⟨_, s, hf, rfl⟩
  · simp [GCode.blank] at hn
  · have hl : (finalize (GCode.blank false home) s).lines = s.done := rfl
    rw [hl] at hs hz ⊢
    have hI := foldDur henv h0 _ _ _ (durInv_start env hm (fmin := fmin) hM ze home) hf hs hz
    refine ⟨s.ds.total, ?_, hI.lower, hI.upper⟩
    exact (Option.some.inj hn).symm

/-- **C90** (not less than the travel).  For a program in absolute coordinates whose moves have feed rates between `fmin` and
`fmax` (millimetres per minute), the estimate, up to the rounding to whole seconds, is at least the length of the path of the
head seen from above at the highest speed, plus the dwells. -/
theorem C90_lower_partial {env : Env α} (henv : ∀ a b, 0 ≤ env.hypot a b) {data : List Str} {home : Home α} {g : GCode α}
    (h : GCode.load env data false home = .ok g) {fmin fmax : α} (h0 : 0 < fmin) (hM : 0 ≤ fmax)
    (hs : throughout (Steady ⟨home.x, home.y, home.z⟩ fmin fmax) ⟨home.x, home.y, home.z⟩ Printer.start g.lines)
    {n : ℤ} (hn : g.duration = some n) :
    along (lengthXY env.hypot ⟨home.x, home.y, home.z⟩) ⟨home.x, home.y, home.z⟩ Printer.start g.lines / (fmax / 60) +
      (g.lines.map dwell).sum < n + 1 := by
  obtain ⟨total, rfl, h1, _⟩ := load_durInv henv h h0 hM (ze := false) hs (by simp) hn
  have := (pyInt_near total).1
  have e : ∀ t : α, t / (fmax / 60) = 60 * t / fmax := by intro t; rw [div_div_eq_mul_div]; ring
  rw [e]
  linarith

/-- **C90** (not more than twice).  If moreover the program never re-labels coordinates and does not return from relative to
absolute extrusion, the estimate is at most twice the length of the path at the lowest speed, plus the dwells.  (Moves on the
spot count as the change of height, or as the filament moved.) -/
theorem C90_upper_partial {env : Env α} (henv : ∀ a b, 0 ≤ env.hypot a b) {data : List Str} {home : Home α} {g : GCode α}
    (h : GCode.load env data false home = .ok g) {fmin fmax : α} (h0 : 0 < fmin) (hM : 0 ≤ fmax)
    (hs : throughout (Steady ⟨home.x, home.y, home.z⟩ fmin fmax) ⟨home.x, home.y, home.z⟩ Printer.start g.lines)
    (hz : throughout (SteadyZE ⟨home.x, home.y, home.z⟩) ⟨home.x, home.y, home.z⟩ Printer.start g.lines)
    {n : ℤ} (hn : g.duration = some n) :
    n < 2 * (along (lengthXYZE env.hypot ⟨home.x, home.y, home.z⟩) ⟨home.x, home.y, home.z⟩ Printer.start g.lines / (fmin / 60)) +
      (g.lines.map dwell).sum + 1 := by
  obtain ⟨total, rfl, _, h1⟩ := load_durInv henv h h0 hM (ze := true) hs (fun _ => hz) hn
  have := (pyInt_near total).2
  have e : ∀ t : α, 2 * (t / (fmin / 60)) = 2 * (60 * t) / fmin := by intro t; rw [div_div_eq_mul_div]; ring
  have := h1 rfl
  rw [e]
  linarith

/-- A program of the class: homing, two speeds, a dwell, a retraction. -/
def timed : List Str :=
  [c!"G21", c!"G90", c!"G28", c!"G1 Z0.3 F600", c!"G1 X90 E9 F1200", c!"G1 Y60 E15", c!"G4 P2500", c!"G1 E13 F600",
   c!"G1 X0 Y0 F1200"]

/-- Both theorems apply, and the numbers are what they say: path 300 mm at 10 to 20 mm/s, dwell 2.5 s, estimate 17 s. -/
example : GCode.load qEnv timed = .ok (loadQ timed) ∧
    throughout (Steady ⟨0, 0, 0⟩ 600 1200) ⟨0, 0, 0⟩ (Printer.start : Printer ℚ) (loadQ timed).lines ∧
    throughout (SteadyZE ⟨0, 0, 0⟩) ⟨0, 0, 0⟩ (Printer.start : Printer ℚ) (loadQ timed).lines ∧
    (loadQ timed).duration = some 17 ∧
    along (lengthXY qEnv.hypot ⟨0, 0, 0⟩) ⟨0, 0, 0⟩ Printer.start (loadQ timed).lines = 300 ∧
    ((loadQ timed).lines.map dwell).sum = 5 / 2 := by decide +kernel

/-- **C90** (the class is needed).  The estimate is below the travel for relative coordinates (three moves of 10 mm at 10 mm/s
are estimated at one second), for arcs and without a feed rate (both count nothing), and above it after the extruder is reset
(one millimetre of filament at 1 mm/s counts as 99 mm). -/
theorem C90_refuted :
    ((loadQ [c!"G91", c!"G1 X10 F600", c!"G1 X10", c!"G1 X10"]).duration = some 1 ∧
      along (lengthXY qEnv.hypot ⟨0, 0, 0⟩) ⟨0, 0, 0⟩ Printer.start (loadQ [c!"G91", c!"G1 X10 F600", c!"G1 X10", c!"G1 X10"]).lines = 30) ∧
    ((loadQ [c!"G1 X0 F600", c!"G2 X100 Y100 I50 J50"]).duration = some 0 ∧
      along (lengthXY qEnv.hypot ⟨0, 0, 0⟩) ⟨0, 0, 0⟩ Printer.start (loadQ [c!"G1 X0 F600", c!"G2 X100 Y100 I50 J50"]).lines = 200) ∧
    ((loadQ [c!"G1 X100"]).duration = some 0 ∧
      along (lengthXY qEnv.hypot ⟨0, 0, 0⟩) ⟨0, 0, 0⟩ Printer.start (loadQ [c!"G1 X100"]).lines = 100) ∧
    ((loadQ [c!"G1 E100 F60", c!"G92 E0", c!"G1 E1"]).duration = some 199 ∧
      along (lengthXYZE qEnv.hypot ⟨0, 0, 0⟩) ⟨0, 0, 0⟩ Printer.start (loadQ [c!"G1 E100 F60", c!"G92 E0", c!"G1 E1"]).lines = 101) := by
  decide +kernel

end GCodeUtils
