import Verif.Lemmas.ArcRadius
import Verif.Props.ArcFound

/-
  C100: the two radii that a motion controller computes from a generated arc.
-/

set_option linter.unusedSectionVars false

namespace GCodeUtils

open Spec

/-- C100.  A machine that executes the optimised program stands, before each generated arc that follows a move, so that the radius it
finds from I and J and the radius at the end of the arc differ by at most 0.034 mm (twice the tolerance of 0.015 mm, and the rounding of
the seven numbers involved); the radius is at most 200.016 mm. -/
theorem C100_radii_partial (env : Env ℝ) (data : List Str) (home : Home ℝ) (g g' : GCode ℝ) (h : GCode.load env data false home = .ok g)
    (hc : ∀ l ∈ g.lines, CommandFirst l.raw ∧ HomingClear (α := ℝ) l.raw) (mode : RoundMode) (hr : g.optimizeArcs (realTrig mode) = .ok g')
    (h91 : ∀ l ∈ program g, ¬ HasCmd l c!"G91") (h92 : ∀ l ∈ program g, HasCmd l c!"G92" → l.x = none ∧ l.y = none) :
    Follows ⟨home.x, home.y, home.z⟩ (fun start w gen => ArcReplacement (realTrig mode) start w gen ∧ ∀ l ∈ w, l.e ≠ none) (fun _ _ _ => True)
      (fun _ q start _ gen => IsMove start → FairArc ⟨home.x, home.y, home.z⟩ (34 / 1000) (200 + 16 / 1000) q gen)
      Printer.start Printer.start (program g) (program g') := by
  have hn : NearXY (Printer.start : Printer ℝ) Printer.start := ⟨by rw [sub_self, abs_zero]; positivity, by rw [sub_self, abs_zero]; positivity, ⟨rfl, rfl, rfl⟩, ⟨rfl, rfl, rfl⟩⟩
  have ht := arc_tracks_xy _ (C51_extruding_moves env data home g g' h (realTrig mode) hr) Printer.start hn h91 h92 (load_stamped h hc)
  have hst := load_stampedMoves h hc
  refine tracks_follows (x0 := program g) (p0 := Printer.start) ?_ ht [] rfl rfl
  intro pre l l' w' gen post q he hk hR hq hm
  have hll : l' = l := by
    rcases hk with hk | ⟨hk, x, y, z, e, f, rfl⟩
    · exact hk
    · obtain ⟨c, _, hcm⟩ := hm
      rw [show ({ l with currentX := x, currentY := y, currentZ := z, currentE := e, currentF := f } : PyLine ℝ).command = l.command from rfl, hk] at hcm
      cases hcm
  rw [hll] at hR hm
  obtain ⟨hx, hy⟩ := hst pre l post he hm
  exact fair_window _ hR.1 hq hx hy

theorem homingClear_of_cmd {r : Str} (h : ∀ cmd ws, instr r = some (cmd, ws) → cmd ≠ c!"G28") : HomingClear (α := ℝ) r := by
  unfold HomingClear
  cases hi : instr r with
  | none => trivial
  | some p =>
    obtain ⟨cmd, ws⟩ := p
    exact fun hg => absurd hg (h cmd ws hi)

/-- The hypotheses of C100 are met by `exactCircle`, whose run becomes an arc. -/
example (mode : RoundMode) : ∃ (g g' : GCode ℝ), GCode.load ⟨fun a b => Real.sqrt (a ^ 2 + b ^ 2), mode⟩ exactCircle = .ok g ∧
    (∀ l ∈ g.lines, CommandFirst l.raw ∧ HomingClear (α := ℝ) l.raw) ∧ g.optimizeArcs (realTrig mode) = .ok g' ∧
    (∀ l ∈ program g, ¬ HasCmd l c!"G91") ∧ (∀ l ∈ program g, HasCmd l c!"G92" → l.x = none ∧ l.y = none) := by
  obtain ⟨g, hg⟩ := load_real (data := exactCircle) (by decide +kernel) mode
  have h0 : (castHome Home.init : Home ℝ) = Home.init := by simp [castHome, Home.init]
  have hp := load_cast (envQ := qEnv) (data := exactCircle) (gq := loadQ exactCircle) (home := Home.init) (by decide +kernel) (by rw [h0]; exact hg)
  obtain ⟨g', hg'⟩ := C54_safe_partial _ exactCircle Home.init g hg mode (by rw [hp]; exact safe_of_ok (by decide +kernel))
  have hall : ∀ l ∈ program g, ∃ k ∈ program (loadQ exactCircle), l = castLine k := by
    intro l hl
    rw [hp] at hl
    obtain ⟨k, hk, rfl⟩ := List.mem_map.1 hl
    exact ⟨k, hk, rfl⟩
  have hcmd : ∀ k ∈ program (loadQ exactCircle), CommandFirst k.raw ∧ k.command ≠ some c!"G91" ∧ k.command ≠ some c!"G92" ∧
      (instr k.raw).map (·.1) ≠ some c!"G28" := by decide +kernel
  refine ⟨g, g', hg, ?_, hg', ?_, ?_⟩
  · intro l hl
    rw [(load_indexed hg).flat] at hl
    obtain ⟨k, hk, rfl⟩ := hall l hl
    refine ⟨(hcmd k hk).1, homingClear_of_cmd ?_⟩
    intro cmd ws hi hcm
    have : (castLine k : PyLine ℝ).raw = k.raw := rfl
    rw [this] at hi
    exact (hcmd k hk).2.2.2 (by rw [hi, ← hcm]; rfl)
  · intro l hl hc
    obtain ⟨k, hk, rfl⟩ := hall l hl
    exact (hcmd k hk).2.1 hc
  · intro l hl hc
    obtain ⟨k, hk, rfl⟩ := hall l hl
    exact absurd hc (hcmd k hk).2.2.1

/-- Seventeen points at 2 mm around (50, 50), the first one 0.014 mm further out and the last one as much further in. -/
def ovalRun : List Str :=
  [c!"G1 X52.014 Y50.000 E1.0000 F1800", c!"G1 X51.902 Y50.618 E1.0314", c!"G1 X51.618 Y51.176 E1.0627", c!"G1 X51.176 Y51.618 E1.0940",
   c!"G1 X50.618 Y51.902 E1.1253", c!"G1 X50.000 Y52.000 E1.1566", c!"G1 X49.382 Y51.902 E1.1878", c!"G1 X48.824 Y51.618 E1.2191",
   c!"G1 X48.382 Y51.176 E1.2504", c!"G1 X48.098 Y50.618 E1.2817", c!"G1 X48.000 Y50.000 E1.3130", c!"G1 X48.098 Y49.382 E1.3443",
   c!"G1 X48.382 Y48.824 E1.3756", c!"G1 X48.824 Y48.382 E1.4068", c!"G1 X49.382 Y48.098 E1.4381", c!"G1 X50.000 Y48.000 E1.4694",
   c!"G1 X50.614 Y48.111 E1.5006", c!"M107"]

/-- C100 is false in the sense of common controllers, which refuse an arc whose radii differ by more than 0.005 mm and more than 0.1 %:
for `ovalRun` the radii are over 2.013 mm and under 1.987 mm. -/
theorem C100_refuted : ∃ g g' : GCode ℚ, GCode.load qEnv ovalRun = .ok g ∧ g.optimizeArcs qTrig = .ok g' ∧
    (program g').map (·.raw) = [c!"G1 X52.014 Y50.000 E1.0000 F1800",
      c!"G3 X50.614 Y48.111 E1.50265 F1800.000 I-2.013 J0.001; generated from 16 segments", c!"M107"] ∧
    (2.013 : ℝ) ≤ Real.sqrt ((-2.013) ^ 2 + 0.001 ^ 2) ∧
    Real.sqrt ((50.614 - (52.014 + (-2.013))) ^ 2 + (48.111 - (50.000 + 0.001)) ^ 2) ≤ (1.987 : ℝ) := by
  refine ⟨loadQ ovalRun, arcsQ ovalRun, by decide +kernel, by decide +kernel, by decide +kernel, ?_, ?_⟩
  · exact Real.le_sqrt_of_sq_le (by norm_num)
  · exact Real.sqrt_le_iff.2 ⟨by norm_num, by norm_num⟩

end GCodeUtils
