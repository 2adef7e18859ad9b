import Verif.Props.ArcCount
import Verif.Props.ArcFound
import Verif.Lemmas.ArcPath

/-
  C84: how far the extruder coordinate may fall behind when an arc is put in.
-/

set_option linter.unusedSectionVars false

namespace GCodeUtils

open Spec

/-- A zigzag run of moves beside a circle of half a millimetre. -/
def zigzagRun : List Str :=
  [c!"G1 X50.510 Y50.000 E0.5000 F1800", c!"G1 X50.486 Y50.059 E0.5064", c!"G1 X50.495 Y50.121 E0.5126", c!"G1 X50.459 Y50.173 E0.5190",
   c!"G1 X50.452 Y50.236 E0.5253", c!"G1 X50.404 Y50.277 E0.5316", c!"G1 X50.383 Y50.336 E0.5379", c!"G1 X50.327 Y50.365 E0.5442",
   c!"G1 X50.292 Y50.418 E0.5505", c!"G1 X50.231 Y50.432 E0.5568", c!"M107"]

/-- C84 is false below: the arc is shorter than the zigzag moves it replaces, so that it stops 0.00274 before the E of the last
one, nearly five per cent of what they push, and no `G92` follows. -/
theorem C84_refuted_short : ∃ g g' : GCode ℚ, GCode.load qEnv zigzagRun = .ok g ∧ g.optimizeArcs qTrig = .ok g' ∧ (∀ l ∈ program g, PlainE l) ∧
    (program g').map (·.raw) = [c!"G1 X50.510 Y50.000 E0.5000 F1800",
      c!"G3 X50.231 Y50.432 E0.55406 F1800.000 I-0.455 J0.027; generated from 9 segments", c!"M107"] ∧
    (Printer.start.final ⟨0, 0, 0⟩ ((program g).map (·.raw)) : Printer ℚ).eCoord = 5568 / 10000 ∧
    (Printer.start.final ⟨0, 0, 0⟩ ((program g').map (·.raw)) : Printer ℚ).eCoord = 55406 / 100000 ∧
    (4 / 100 : ℚ) * (5568 / 10000 - 5000 / 10000) < 5568 / 10000 - 55406 / 100000 :=
  ⟨loadQ zigzagRun, arcsQ zigzagRun, by decide +kernel, by decide +kernel, by unfold PlainE; decide +kernel, by decide +kernel, by decide +kernel, by decide +kernel,
    by norm_num⟩

/-- A move beside a circle is at most 0.03 mm longer than the arc, seen at the outer edge of the tolerance. -/
theorem move_le_arc {mode : RoundMode} {c p q : ℝ × ℝ} {r : ℝ} (hr : 0 ≤ r) (hp : |distance (realTrig mode) c p - r| ≤ 15 / 1000)
    (hq : |distance (realTrig mode) c q - r| ≤ 15 / 1000) (ha : 0 ≤ turn (realTrig mode) c p q) :
    distance (realTrig mode) q p ≤ 30 / 1000 + (r + 15 / 1000) * turn (realTrig mode) c p q := by
  have hcos := cos_turn (mode := mode) c p q
  rw [distance_norm] at hp hq
  rw [distance_norm]
  generalize turn (realTrig mode) c p q = a at *
  have hz : (⟨p.1 - q.1, p.2 - q.2⟩ : ℂ) = ⟨p.1 - c.1, p.2 - c.2⟩ - ⟨q.1 - c.1, q.2 - c.2⟩ := by
    apply Complex.ext <;> simp
  rw [hz]
  generalize (⟨p.1 - c.1, p.2 - c.2⟩ : ℂ) = u at *
  generalize (⟨q.1 - c.1, q.2 - c.2⟩ : ℂ) = v at *
  have e1 := Complex.norm_mul_cos_arg u
  have e2 := Complex.norm_mul_sin_arg u
  have e3 := Complex.norm_mul_cos_arg v
  have e4 := Complex.norm_mul_sin_arg v
  have hsq : ‖u - v‖ ^ 2 = (‖u‖ - ‖v‖) ^ 2 + 2 * (‖u‖ * ‖v‖) * (1 - Real.cos a) := by
    rw [hcos, Real.cos_sub, Complex.sq_norm, Complex.normSq_apply, Complex.sub_re, Complex.sub_im, ← e1, ← e2, ← e3, ← e4]
    have s1 := Real.sin_sq_add_cos_sq (Complex.arg u)
    have s2 := Real.sin_sq_add_cos_sq (Complex.arg v)
    linear_combination (‖u‖ ^ 2) * s1 + (‖v‖ ^ 2) * s2
  have hu := abs_le.1 hp
  have hv := abs_le.1 hq
  have h0u := norm_nonneg u
  have h0v := norm_nonneg v
  have hc1 : 1 - Real.cos a ≤ a ^ 2 / 2 := by linarith [Real.one_sub_sq_div_two_le_cos (x := a)]
  have hc0 : 0 ≤ 1 - Real.cos a := by linarith [Real.cos_le_one a]
  have hprod : ‖u‖ * ‖v‖ ≤ (r + 15 / 1000) ^ 2 := by
    rw [sq]; exact mul_le_mul (by linarith) (by linarith) h0v (by linarith)
  have hdiff : (‖u‖ - ‖v‖) ^ 2 ≤ (30 / 1000) ^ 2 := by
    apply sq_le_sq'
    · linarith
    · linarith
  refine le_of_sq_le_sq ?_ (by positivity)
  rw [hsq]
  have h2 : 2 * (‖u‖ * ‖v‖) * (1 - Real.cos a) ≤ 2 * (r + 15 / 1000) ^ 2 * (a ^ 2 / 2) :=
    mul_le_mul (by linarith) hc1 hc0 (by positivity)
  have h3 : 0 ≤ 30 / 1000 * ((r + 15 / 1000) * a) := by positivity
  nlinarith

/-- The moves beside a circle together. -/
theorem moves_le_arc {mode : RoundMode} {c : ℝ × ℝ} {r : ℝ} (hr : 0 ≤ r) (sts : List ((ℝ × ℝ) × (ℝ × ℝ))) : ∀ paths : List ℝ,
    (∀ s ∈ sts, |distance (realTrig mode) c s.1 - r| ≤ 15 / 1000 ∧ |distance (realTrig mode) c s.2 - r| ≤ 15 / 1000 ∧ 0 < cross c s.1 s.2) →
    List.Forall₂ (fun (s : (ℝ × ℝ) × (ℝ × ℝ)) v => v = pyRound mode 7 (distance (realTrig mode) s.2 s.1)) sts paths →
    paths.sum ≤ 8 / 100 * (sts.length : ℝ) + ((sts.map (fun s => turn (realTrig mode) c s.1 s.2)).map (fun a => a * r)).sum := by
  induction sts with
  | nil => intro paths _ h; cases h; simp
  | cons s sts ih =>
    intro paths hs h
    cases h with
    | cons h1 h =>
      rename_i v paths
      have hi := ih paths (fun s hs' => hs s (List.mem_cons_of_mem _ hs')) h
      obtain ⟨a1, a2, a3⟩ := hs s (by simp)
      have ht := (turn_cross (mode := mode) c s.1 s.2).1 a3
      have hb := (turn_bounds (mode := mode) c s.1 s.2).2
      have hm := move_le_arc hr a1 a2 ht.le
      have hround := (abs_le.1 (pyRound_bound mode 7 (distance (realTrig mode) s.2 s.1))).2
      rw [← h1] at hround
      have hpi := Real.pi_lt_d2
      simp only [List.sum_cons, List.length_cons, List.map_cons, Nat.cast_add, Nat.cast_one]
      norm_num at hround hpi
      generalize turn (realTrig mode) c s.1 s.2 = a at *
      nlinarith

/-- C84 from below, with the real functions: if all moves of a replaced window with absolute extrusion turn counter-clockwise, the
arc ends at most the filament of 0.08 mm of path for each replaced move before the E at which the window ends (`fils.sum` is the
filament of the window, `fils.sum / paths.sum` its filament for each millimetre). -/
theorem C84_behind_partial (env : Env ℝ) (data : List Str) (home : Home ℝ) (g g' : GCode ℝ) (h : GCode.load env data false home = .ok g)
    (mode : RoundMode) (hr : g.optimizeArcs (realTrig mode) = .ok g') :
    Rewrites (fun start w gen => ∃ pts c r paths fils arc rest last, OnArc (realTrig mode) start w pts c r paths fils ∧ gen = arc :: rest ∧
      (∀ l ∈ w, l.e ≠ none) ∧ w.getLast? = some last ∧
      (last.relativeE ≠ some true → (∀ s ∈ steps pts, 0 < cross c s.1 s.2) → ∃ e0 e, start.currentE = some e0 ∧ arc.e = some e ∧
        e0 + fils.sum - e ≤ 8 / 100 * (w.length : ℝ) * (fils.sum / paths.sum))) (program g) (program g') := by
  refine rewrites_mono ?_ (C51_extruding_moves env data home g g' h (realTrig mode) hr)
  rintro start w gen ⟨⟨hf, pts, c, r, paths, fils, arc, rest, ho, ha, _, rfl⟩, hE⟩
  obtain ⟨last, hlast, _, h2⟩ := ha.filament
  refine ⟨pts, c, r, paths, fils, arc, rest, last, ho, rfl, hE, hlast, ?_⟩
  intro hrel hcr
  obtain ⟨hne, e0, he0, hae⟩ := h2 hrel
  refine ⟨e0, _, he0, hae, ?_⟩
  have hwne : w ≠ [] := by rintro rfl; simp at hlast
  obtain ⟨_, hpos, hratio, _, _⟩ := onArc_positive ho hE hwne
  have hr0 : 0 ≤ r := by
    obtain ⟨v, _, rfl⟩ := ho.root
    exact Real.sqrt_nonneg v
  have hlen : (steps pts).length = w.length := by
    have := ho.at_points.length_eq
    unfold steps
    rw [List.length_zip, List.length_tail, ← this]
    simp
  have hmem : ∀ s ∈ steps pts, s.1 ∈ pts ∧ s.2 ∈ pts := by
    intro s hs
    unfold steps at hs
    obtain ⟨x, y⟩ := s
    exact ⟨(List.of_mem_zip hs).1, List.mem_of_mem_tail (List.of_mem_zip hs).2⟩
  have hm := moves_le_arc (mode := mode) (c := c) hr0 (steps pts) paths
    (fun s hs => ⟨ho.near _ (hmem s hs).1, ho.near _ (hmem s hs).2, hcr s hs⟩) ho.paths_eq
  have hp0 : paths.sum ≠ 0 := by
    intro h0
    rw [h0, div_zero] at hratio
    exact lt_irrefl _ hratio
  rw [hlen] at hm
  show e0 + fils.sum - (e0 + ((angles (realTrig mode) c pts).map (fun a => a * r)).sum * (fils.sum / paths.sum)) ≤ _
  have e1 : fils.sum = paths.sum * (fils.sum / paths.sum) := by field_simp
  have e2 : ((angles (realTrig mode) c pts).map (fun a => a * r)).sum = (((steps pts).map (fun s => turn (realTrig mode) c s.1 s.2)).map (fun a => a * r)).sum := rfl
  rw [← e2] at hm
  generalize ((angles (realTrig mode) c pts).map (fun a => a * r)).sum = S at *
  generalize fils.sum / paths.sum = k at *
  have := mul_le_mul_of_nonneg_right hm hratio.le
  rw [e1]
  linarith

/-- `C84_behind_partial` applies to `arcCcw`, which loads and is optimised; its moves, with absolute extrusion, go counter-clockwise
round (50, 50). -/
example (mode : RoundMode) : ∃ (g g' : GCode ℝ), GCode.load ⟨fun a b => Real.sqrt (a ^ 2 + b ^ 2), mode⟩ arcCcw = .ok g ∧
    g.optimizeArcs (realTrig mode) = .ok g' ∧ (∀ l ∈ program (loadQ arcCcw), l.relativeE ≠ some true) ∧
    (∀ s ∈ steps ((program (loadQ arcCcw)).filterMap (fun l => if l.inMoves then l.x.bind (fun x => l.y.map (fun y => (x, y))) else none)), 0 < cross ((50, 50) : ℚ × ℚ) s.1 s.2) := by
  obtain ⟨g, hg⟩ := load_real (data := arcCcw) (by decide +kernel) mode
  have h0 : (castHome Home.init : Home ℝ) = Home.init := by simp [castHome, Home.init]
  have hp := load_cast (envQ := qEnv) (data := arcCcw) (gq := loadQ arcCcw) (home := Home.init) (by decide +kernel) (by rw [h0]; exact hg)
  obtain ⟨g', hg'⟩ := C54_safe_partial _ arcCcw Home.init g hg mode (by rw [hp]; exact safe_of_ok (by decide +kernel))
  exact ⟨g, g', hg, hg', by decide +kernel, by decide +kernel⟩

end GCodeUtils
