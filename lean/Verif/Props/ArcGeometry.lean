import Verif.Props.Arc
import Verif.Lemmas.ArcTrack
import Verif.Lemmas.ArcReal
import Verif.Spec.ArcFound

/-
  C51-C53, C55, C57, C72: geometry and filament of the generated arcs.
-/

set_option linter.unusedSectionVars false

namespace GCodeUtils

open Spec

variable {α : Type} [Field α] [LinearOrder α] [IsStrictOrderedRing α] [FloorRing α]

/-! ### computed functions for the examples -/

/-- Cut off after 15 decimals. -/
def cut (x : ℚ) : ℚ := (⌊x * 10 ^ 15⌋ : ℚ) / 10 ^ 15
/-- Square root to 12 decimals. -/
def qSqrt (x : ℚ) : ℚ := (Nat.sqrt (⌊x * 10 ^ 24⌋).toNat : ℚ) / 10 ^ 12
/-- π to 15 decimals. -/
def qPi : ℚ := 3141592653589793 / 10 ^ 15
/-- Twenty terms of the arc tangent series. -/
def atanSeries (t : ℚ) : ℚ := ((List.range 20).foldl (fun (s : ℚ × ℚ) k => (s.1 + s.2 / (2 * k + 1), cut (-(s.2 * t * t)))) (0, t)).1
/-- Arc tangent on [0,1]. -/
def qAtan (t : ℚ) : ℚ := if t ≤ 414 / 1000 then atanSeries (cut t) else qPi / 4 + atanSeries (cut ((t - 1) / (t + 1)))
/-- Phase of `x + y·i`. -/
def qPhase (x y : ℚ) : ℚ :=
  let a := if |y| ≤ |x| then qAtan (|y| / |x|) else qPi / 2 - qAtan (|x| / |y|)
  let b := if x < 0 then qPi - a else a
  cut (if y < 0 then -b else b)
/-- Sixteen terms of the sine series. -/
def qSin (x : ℚ) : ℚ := cut ((List.range 16).foldl (fun (s : ℚ × ℚ) k => (s.1 + s.2, cut (-(s.2 * x * x) / ((2 * k + 2) * (2 * k + 3))))) (0, x)).1
/-- Rational functions for computed examples; they agree with square root, sine and phase to about 12 decimals. -/
def qTrig : Trig ℚ := ⟨qSqrt, qSin, qPhase, qPi, .halfEven⟩

/-- The optimised program, for computed examples. -/
def arcsQ (data : List Str) : GCode ℚ := okOr (loadQ data) ((loadQ data).optimizeArcs qTrig)

/-- A counter-clockwise arc of nine segments around (50, 50). -/
def arcCcw : List Str :=
  [c!"G1 X60.000 Y50.000 E1.0000 F1800", c!"G1 X59.659 Y52.588 E1.2611", c!"G1 X58.660 Y55.000 E1.5221", c!"G1 X57.071 Y57.071 E1.7832",
   c!"G1 X55.000 Y58.660 E2.0442", c!"G1 X52.588 Y59.659 E2.3053", c!"G1 X50.000 Y60.000 E2.5663", c!"G1 X47.412 Y59.659 E2.8274",
   c!"G1 X45.000 Y58.660 E3.0884", c!"G1 X42.929 Y57.071 E3.3495", c!"M107"]

/-- The same radius clockwise. -/
def arcCw : List Str :=
  [c!"G1 X50.000 Y60.000 E1.0000 F1800", c!"G1 X52.588 Y59.659 E1.2611", c!"G1 X55.000 Y58.660 E1.5221", c!"G1 X57.071 Y57.071 E1.7832",
   c!"G1 X58.660 Y55.000 E2.0442", c!"G1 X59.659 Y52.588 E2.3053", c!"G1 X60.000 Y50.000 E2.5663", c!"G1 X59.659 Y47.412 E2.8274",
   c!"G1 X58.660 Y45.000 E3.0884", c!"G1 X57.071 Y42.929 E3.3495", c!"M107"]

/-- Clockwise with relative extrusion. -/
def arcRel : List Str :=
  [c!"M83", c!"G1 X50.000 Y60.000 E0.2611 F1800", c!"G1 X52.588 Y59.659 E0.2611", c!"G1 X55.000 Y58.660 E0.2611", c!"G1 X57.071 Y57.071 E0.2611",
   c!"G1 X58.660 Y55.000 E0.2611", c!"G1 X59.659 Y52.588 E0.2611", c!"G1 X60.000 Y50.000 E0.2611", c!"G1 X59.659 Y47.412 E0.2611",
   c!"G1 X58.660 Y45.000 E0.2611", c!"G1 X57.071 Y42.929 E0.2611", c!"M107"]

/-- The second point rises to Z 0.4. -/
def arcRise : List Str :=
  [c!"G1 Z0.2", c!"G1 X60.000 Y50.000 E1.0000 F1800", c!"G1 X59.659 Y52.588 E1.2611 Z0.4", c!"G1 X58.660 Y55.000 E1.5221", c!"G1 X57.071 Y57.071 E1.7832",
   c!"G1 X55.000 Y58.660 E2.0442", c!"G1 X52.588 Y59.659 E2.3053", c!"G1 X50.000 Y60.000 E2.5663", c!"G1 X47.412 Y59.659 E2.8274",
   c!"G1 X45.000 Y58.660 E3.0884", c!"G1 X42.929 Y57.071 E3.3495", c!"M107"]

/-- A program with a shifted X origin. -/
def arcShift : List Str := c!"G92 X20" :: arcCcw

/-- The optimiser finds the arc. -/
theorem arcs_found : (program (arcsQ arcCcw)).map (·.raw) =
    [c!"G1 X60.000 Y50.000 E1.0000 F1800", c!"G3 X42.929 Y57.071 E3.35622 F1800.000 I-10.000 J0.000; generated from 9 segments", c!"M107"] := by
  decide +kernel

/-- The hypotheses of the theorems about replacements are met by a program in which an arc is found. -/
example : GCode.load qEnv arcCcw = .ok (loadQ arcCcw) ∧ (loadQ arcCcw).optimizeArcs qTrig = .ok (arcsQ arcCcw) := by decide +kernel

/-! ### C51 -/

/-- C51, the windows that are replaced: every line is a move with an E word (windows without filament make the optimiser
raise, see `replacement_words`), and the replacement is as described by `ArcReplacement`. -/
theorem C51_extruding_moves (env : Env α) (data : List Str) (home : Home α) (g g' : GCode α) (h : GCode.load env data false home = .ok g)
    (t : Trig α) (hr : g.optimizeArcs t = .ok g') :
    Rewrites (fun start w gen => ArcReplacement t start w gen ∧ ∀ l ∈ w, l.e ≠ none) (program g) (program g') := by
  obtain ⟨s, hs⟩ := optimizeArcs_run hr
  exact arcRun_extruding h (load_layers_ne h) hs

/-! ### C52 -/

/-- C52, direction, with the real phase function: the arc is `G3` if the third point of the window lies counter-clockwise of
the start point as seen from the centre, and `G2` if it lies clockwise. -/
theorem C52_direction (env : Env ℝ) (data : List Str) (home : Home ℝ) (g g' : GCode ℝ) (h : GCode.load env data false home = .ok g)
    (mode : RoundMode) (hr : g.optimizeArcs (realTrig mode) = .ok g') :
    Rewrites (fun start w gen => ∃ pts c r paths fils p0 p2 arc rest, OnArc (realTrig mode) start w pts c r paths fils ∧ pts[0]? = some p0 ∧ pts[2]? = some p2 ∧ gen = arc :: rest ∧
      (0 < (p0.1 - c.1) * (p2.2 - c.2) - (p0.2 - c.2) * (p2.1 - c.1) → HasCmd arc c!"G3") ∧
      ((p0.1 - c.1) * (p2.2 - c.2) - (p0.2 - c.2) * (p2.1 - c.1) < 0 → HasCmd arc c!"G2") ∧
      arc.i = some (pyRound mode 3 (c.1 - p0.1)) ∧ arc.j = some (pyRound mode 3 (c.2 - p0.2))) (program g) (program g') := by
  refine rewrites_mono ?_ (C49_C51_C52_replacement env data home g g' h (realTrig mode) hr)
  rintro start w gen ⟨_, pts, c, r, paths, fils, arc, rest, ho, ha, _, rfl⟩
  obtain ⟨p0, p2, h0, h2, hcmd⟩ := ha.command
  obtain ⟨p, hp, hi, hj⟩ := ha.centre
  rw [List.head?_eq_getElem?, h0] at hp
  obtain rfl := Option.some.inj hp
  obtain ⟨k1, k2⟩ := turn_cross (mode := mode) c p0 p2
  refine ⟨pts, c, r, paths, fils, p0, p2, arc, rest, ho, h0, h2, rfl, ?_, ?_, hi, hj⟩
  · intro hc
    rw [if_pos (k1 hc)] at hcmd; exact hcmd
  · intro hc
    rw [if_neg (not_lt.2 (k2 hc).le)] at hcmd; exact hcmd

/-! ### C53 -/

/-- C53 is false: a clockwise arc with absolute extrusion pulls the filament back.  The window takes E from 1 to 3.3495, the
arc takes it from 1 to -1.35622. -/
theorem C53_refuted : ∃ g g' : GCode ℚ, GCode.load qEnv arcCw = .ok g ∧ g.optimizeArcs qTrig = .ok g' ∧
    (program g').map (·.raw) = [c!"G1 X50.000 Y60.000 E1.0000 F1800",
      c!"G2 X57.071 Y42.929 E-1.35622 F1800.000 I0.000 J-10.000; generated from 9 segments", c!"M107"] ∧
    (Printer.start.run ⟨0, 0, 0⟩ (program g) : Printer ℚ).pushed = 33495 / 10000 ∧ (Printer.start.run ⟨0, 0, 0⟩ (program g') : Printer ℚ).pushed < 0 :=
  ⟨loadQ arcCw, arcsQ arcCw, by decide +kernel, by decide +kernel, by decide +kernel, by decide +kernel, by decide +kernel⟩

/-- C53, absolute extrusion: the E of the arc is above that of the start point if all segments turn counter-clockwise, and
below it (the arc pulls filament back) if all turn clockwise. -/
theorem C53_absolute_partial (env : Env ℝ) (data : List Str) (home : Home ℝ) (g g' : GCode ℝ) (h : GCode.load env data false home = .ok g)
    (mode : RoundMode) (hr : g.optimizeArcs (realTrig mode) = .ok g') :
    Rewrites (fun start w gen => ∃ pts c r paths fils arc rest last, OnArc (realTrig mode) start w pts c r paths fils ∧ gen = arc :: rest ∧ w.getLast? = some last ∧
      (last.relativeE ≠ some true → ∃ e0 e, start.currentE = some e0 ∧ arc.e = some e ∧
        ((∀ s ∈ steps pts, 0 < (s.1.1 - c.1) * (s.2.2 - c.2) - (s.1.2 - c.2) * (s.2.1 - c.1)) → e0 < e) ∧
        ((∀ s ∈ steps pts, (s.1.1 - c.1) * (s.2.2 - c.2) - (s.1.2 - c.2) * (s.2.1 - c.1) < 0) → e < e0))) (program g) (program g') := by
  refine rewrites_mono ?_ (C51_extruding_moves env data home g g' h (realTrig mode) hr)
  rintro start w gen ⟨⟨hw, pts, c, r, paths, fils, arc, rest, ho, ha, _, rfl⟩, hE⟩
  obtain ⟨last, hlast, _, h2⟩ := ha.filament
  have hne : w ≠ [] := by rintro rfl; simp at hlast
  obtain ⟨_, _, havg, _, hang⟩ := onArc_positive ho hE hne
  obtain ⟨v, hv, hrad⟩ := ho.root
  have hr0 : 0 < r := by rw [hrad]; exact Real.sqrt_pos.2 hv
  refine ⟨pts, c, r, paths, fils, arc, rest, last, ho, rfl, hlast, ?_⟩
  intro hrel
  obtain ⟨_, e0, he0, he⟩ := h2 hrel
  refine ⟨e0, _, he0, he, ?_, ?_⟩
  · intro hs
    have : 0 < ((angles (realTrig mode) c pts).map (fun a => a * r)).sum := by
      apply sum_pos_of
      · intro hc; exact hang (List.map_eq_nil_iff.1 hc)
      · intro v hv
        obtain ⟨a, ha, rfl⟩ := List.mem_map.1 hv
        obtain ⟨s, hs', rfl⟩ := List.mem_map.1 ha
        exact mul_pos ((turn_cross c s.1 s.2).1 (hs s hs')) hr0
    have := mul_pos this havg
    linarith
  · intro hs
    have : 0 < ((angles (realTrig mode) c pts).map (fun a => -(a * r))).sum := by
      apply sum_pos_of
      · intro hc; exact hang (List.map_eq_nil_iff.1 hc)
      · intro v hv
        obtain ⟨a, ha, rfl⟩ := List.mem_map.1 hv
        obtain ⟨s, hs', rfl⟩ := List.mem_map.1 ha
        have := mul_pos (neg_pos.2 ((turn_cross (mode := mode) c s.1 s.2).2 (hs s hs'))) hr0
        linarith
    have hneg : ∀ l : List ℝ, (l.map (fun a => -(a * r))).sum = -(l.map (fun a => a * r)).sum := by
      intro l
      induction l with
      | nil => simp
      | cons a l ih => simp only [List.map_cons, List.sum_cons, ih]; ring
    rw [hneg] at this
    have := mul_pos this havg
    linarith

/-- C53, relative extrusion: the arc pushes a positive amount, at least as much as the moves it replaces together. -/
theorem C53_relative_partial (env : Env ℝ) (data : List Str) (home : Home ℝ) (g g' : GCode ℝ) (h : GCode.load env data false home = .ok g)
    (mode : RoundMode) (hr : g.optimizeArcs (realTrig mode) = .ok g') :
    Rewrites (fun _ w gen => (∀ l ∈ w, l.relativeE = some true) → ∃ arc rest e, gen = arc :: rest ∧ arc.e = some e ∧
      0 < (w.map (fun l => l.e.getD 0)).sum ∧ (w.map (fun l => l.e.getD 0)).sum ≤ e) (program g) (program g') := by
  refine rewrites_mono ?_ (C51_extruding_moves env data home g g' h (realTrig mode) hr)
  rintro start w gen ⟨⟨hw, pts, c, r, paths, fils, arc, rest, ho, ha, _, rfl⟩, hE⟩ hrel
  obtain ⟨last, hlast, h1, _⟩ := ha.filament
  have hne : w ≠ [] := by rintro rfl; simp at hlast
  obtain ⟨hfp, hfs, _, hlen, _⟩ := onArc_positive ho hE hne
  obtain ⟨hn, he⟩ := h1 (hrel last (List.mem_of_getLast? hlast))
  have hfils : w.map (fun l => l.e.getD 0) = fils := by
    have key : ∀ (w : List (PyLine ℝ)) (start : PyLine ℝ) (fils : List ℝ), (∀ l ∈ w, l.relativeE = some true) →
        List.Forall₂ (fun (s : PyLine ℝ × PyLine ℝ) v => Pushes s.1 s.2 v) (steps (start :: w)) fils → w.map (fun l => l.e.getD 0) = fils := by
      intro w
      induction w with
      | nil => intro start fils _ hf; simp only [steps, List.tail_cons, List.zip_nil_right] at hf; cases hf; rfl
      | cons a w ih =>
        intro start fils hrel hf
        rw [steps_cons] at hf
        cases hf with
        | cons hp hf =>
          simp only [Pushes, if_pos (hrel a (by simp))] at hp
          rw [List.map_cons, hp, ih a _ (fun l hl => hrel l (List.mem_cons_of_mem _ hl)) hf]
          rfl
    exact key w start fils hrel ho.fils_eq
  rw [hfils]
  refine ⟨arc, rest, _, rfl, he, hfs, ?_⟩
  unfold arcFilament
  apply sum_zipWith_ge _ _ hlen
  intro s hs a ha'
  obtain ⟨st, _, rfl⟩ := List.mem_map.1 ha'
  obtain ⟨b1, b2⟩ := turn_bounds (mode := mode) c st.1 st.2
  exact arc_ge_chord b1 b2 (hn _ ha') (hfp s hs).le

/-- The hypotheses of the relative case are met. -/
example : (loadQ arcRel).optimizeArcs qTrig = .ok (arcsQ arcRel) ∧ (program (arcsQ arcRel)).map (·.raw) =
    [c!"M83", c!"G1 X50.000 Y60.000 E0.2611 F1800", c!"G2 X57.071 Y42.929 E2.35662 F1800.000 I0.000 J-10.000; generated from 9 segments", c!"M107"] := by
  decide +kernel

/-! ### C55 -/

/-- C55 is false: if the second point of the window changes Z, the arc loses that change.  The original ends at Z 0.4, the
output at Z 0.2. -/
theorem C55_refuted : ∃ g g' : GCode ℚ, GCode.load qEnv arcRise = .ok g ∧ g.optimizeArcs qTrig = .ok g' ∧
    (Printer.start.final ⟨0, 0, 0⟩ ((program g).map (·.raw)) : Printer ℚ).pos.z = 4 / 10 ∧
    (Printer.start.final ⟨0, 0, 0⟩ ((program g').map (·.raw)) : Printer ℚ).pos.z = 2 / 10 :=
  ⟨loadQ arcRise, arcsQ arcRise, by decide +kernel, by decide +kernel, by decide +kernel, by decide +kernel⟩

/-- C55 for programs in which no line has both an E and a Z word: a printer executing the output is at the same height as
one executing the input, after every retained line and after every replaced window. -/
theorem C55_height_partial (env : Env α) (data : List Str) (home : Home α) (g g' : GCode α) (h : GCode.load env data false home = .ok g)
    (t : Trig α) (hr : g.optimizeArcs t = .ok g') (hz : ∀ l ∈ program g, l.e ≠ none → l.z = none) (hp : Pos3 α) (p : Printer α) :
    Tracks hp (fun start w gen => ArcReplacement t start w gen ∧ ∀ l ∈ w, l.e ≠ none)
      (fun a b => a.pos.z = b.pos.z ∧ a.org.z = b.org.z ∧ a.rel = b.rel) p p (program g) (program g') :=
  arc_tracks_z hp (C51_extruding_moves env data home g g' h t hr) hz p

example : ∀ l ∈ program (loadQ arcCcw), l.e ≠ none → l.z = none := by decide +kernel

/-! ### C72 -/

/-- C72 is false after `G92` on X: the arc is given in machine coordinates.  The head should end at X 22.929, it ends at
2.929. -/
theorem C72_refuted : ∃ g g' : GCode ℚ, GCode.load qEnv arcShift = .ok g ∧ g.optimizeArcs qTrig = .ok g' ∧
    (Printer.start.final ⟨0, 0, 0⟩ ((program g).map (·.raw)) : Printer ℚ).pos.x = 22929 / 1000 ∧
    (Printer.start.final ⟨0, 0, 0⟩ ((program g').map (·.raw)) : Printer ℚ).pos.x = 2929 / 1000 :=
  ⟨loadQ arcShift, arcsQ arcShift, by decide +kernel, by decide +kernel, by decide +kernel, by decide +kernel⟩

/-- C72 for programs without relative mode and without `G92` on X or Y: a printer executing the output is within 0.0005 mm
in X and in Y of one executing the input, after every retained line and after every replaced window. -/
theorem C72_position_partial (env : Env α) (data : List Str) (home : Home α) (g g' : GCode α) (h : GCode.load env data false home = .ok g)
    (hc : ∀ l ∈ g.lines, CommandFirst l.raw ∧ HomingClear (α := α) l.raw)
    (t : Trig α) (hr : g.optimizeArcs t = .ok g') (h91 : ∀ l ∈ program g, ¬ HasCmd l c!"G91")
    (h92 : ∀ l ∈ program g, HasCmd l c!"G92" → l.x = none ∧ l.y = none) :
    Tracks ⟨home.x, home.y, home.z⟩ (fun start w gen => ArcReplacement t start w gen ∧ ∀ l ∈ w, l.e ≠ none)
      (fun a b => |b.pos.x - a.pos.x| ≤ 5 / 10 ^ 4 ∧ |b.pos.y - a.pos.y| ≤ 5 / 10 ^ 4) Printer.start Printer.start (program g) (program g') := by
  have hn : NearXY (Printer.start : Printer α) Printer.start := ⟨by rw [sub_self, abs_zero]; positivity, by rw [sub_self, abs_zero]; positivity, ⟨rfl, rfl, rfl⟩, ⟨rfl, rfl, rfl⟩⟩
  have := arc_tracks_xy _ (C51_extruding_moves env data home g g' h t hr) Printer.start hn h91 h92 (load_stamped h hc)
  exact tracks_mono (fun a b hab => ⟨hab.x, hab.y⟩) this

example : (∀ l ∈ (loadQ arcCcw).lines, CommandFirst l.raw ∧ HomingClear (α := ℚ) l.raw) ∧ (∀ l ∈ program (loadQ arcCcw), ¬ HasCmd l c!"G91") ∧
    ∀ l ∈ program (loadQ arcCcw), HasCmd l c!"G92" → l.x = none ∧ l.y = none := by decide +kernel

/-! ### C57 -/

theorem spread_sumOf (pts : List (α × α)) :
    spread (pts.map (·.1)) = sumOf pts (fun x _ => (x - sumOf pts (fun x _ => x) / (pts.length : α)) * (x - sumOf pts (fun x _ => x) / (pts.length : α))) ∧
    spread (pts.map (·.2)) = sumOf pts (fun _ y => (y - sumOf pts (fun _ y => y) / (pts.length : α)) * (y - sumOf pts (fun _ y => y) / (pts.length : α))) := by
  unfold spread mean sumOf
  simp only [List.map_map, List.length_map, pow_two]
  exact ⟨rfl, rfl⟩

/-- C57. If all points lie on one circle, at least three of them are different, and the points are not degenerate in the sense of
the code (sum of squared deviations at least 1e-6 in both coordinates), the fit succeeds; its centre is the centre of the
circle and its radius the (machine's) square root of the squared radius. -/
theorem C57_fit (t : Trig α) (pts : List (α × α)) (a b r : α) (h : ∀ p ∈ pts, (p.1 - a) ^ 2 + (p.2 - b) ^ 2 = r ^ 2)
    (h3 : ∃ p ∈ pts, ∃ q ∈ pts, ∃ s ∈ pts, p ≠ q ∧ p ≠ s ∧ q ≠ s)
    (hx : 1 / 1000000 ≤ spread (pts.map (·.1))) (hy : 1 / 1000000 ≤ spread (pts.map (·.2))) :
    ∃ c, leastSquares t pts = .ok (some c) ∧ c.cx = a ∧ c.cy = b ∧ c.radius = t.sqrt (r ^ 2) := by
  obtain ⟨p, hp, q, hq, s, hs, h1, h2, h4⟩ := h3
  rw [(spread_sumOf pts).1] at hx
  rw [(spread_sumOf pts).2] at hy
  rw [pow_two]
  exact leastSquares_exact t pts a b r h hx hy hp hq hs h1 h2 h4

/-- C57, degenerate points: no circle is returned exactly when the deviations in one coordinate are below 1e-6. -/
theorem C57_degenerate (t : Trig α) (pts : List (α × α)) (hne : pts ≠ []) :
    leastSquares t pts = .ok none ↔ spread (pts.map (·.1)) < 1 / 1000000 ∨ spread (pts.map (·.2)) < 1 / 1000000 := by
  have hn : (pts.length : α) ≠ 0 := by
    have : pts.length ≠ 0 := fun hc => hne (List.length_eq_zero_iff.1 hc)
    exact_mod_cast this
  rw [(spread_sumOf pts).1, (spread_sumOf pts).2]
  unfold leastSquares divE arcEpsilon
  simp only [if_neg hn]
  constructor
  · intro h
    by_contra hc
    rw [if_neg hc] at h
    split at h
    · simp at h
    · split at h <;> simp at h
  · intro h
    rw [if_pos h]

/-- Eight points on a circle of radius 65 around (100, 100). -/
example : ∃ c, leastSquares qTrig [(100, 165), (116, 163), (125, 160), (133, 156), (139, 152), (152, 139), (156, 133), (160, 125)] = .ok (some c) ∧
    c.cx = 100 ∧ c.cy = 100 ∧ c.radius = 65 := by
  obtain ⟨c, h1, h2, h3, h4⟩ := C57_fit qTrig [(100, 165), (116, 163), (125, 160), (133, 156), (139, 152), (152, 139), (156, 133), (160, 125)] 100 100 65
    (by decide +kernel) ⟨(100, 165), by decide +kernel, (116, 163), by decide +kernel, (125, 160), by decide +kernel, by decide +kernel⟩ (by decide +kernel) (by decide +kernel)
  exact ⟨c, h1, h2, h3, by rw [h4]; decide +kernel⟩

/-- C57 with the real functions, and what follows for the decision: points on a circle of radius at most 200 whose steps are
not more than 5 degrees above the average step are accepted, with that circle. -/
theorem C57_accepted (mode : RoundMode) (pts : List (ℝ × ℝ)) (a b r : ℝ) (hr : 0 ≤ r) (hr2 : r ≤ 200)
    (h : ∀ p ∈ pts, (p.1 - a) ^ 2 + (p.2 - b) ^ 2 = r ^ 2)
    (h3 : ∃ p ∈ pts, ∃ q ∈ pts, ∃ s ∈ pts, p ≠ q ∧ p ≠ s ∧ q ≠ s)
    (hx : 1 / 1000000 ≤ spread (pts.map (·.1))) (hy : 1 / 1000000 ≤ spread (pts.map (·.2)))
    (hang : ∀ v ∈ angles (realTrig mode) (a, b) pts, v - mean (angles (realTrig mode) (a, b) pts) ≤ 5 * Real.pi / 180) :
    ∃ c, getCircle (realTrig mode) pts = .ok (false, some c) ∧ c.cx = a ∧ c.cy = b ∧ c.radius = r := by
  obtain ⟨c, h1, h2, h4, h5⟩ := C57_fit (realTrig mode) pts a b r h h3 hx hy
  have h5' : c.radius = r := by
    rw [h5]; exact Real.sqrt_sq hr
  refine ⟨c, ?_, h2, h4, h5'⟩
  unfold getCircle
  rw [h1]
  simp only
  rw [if_neg (by rw [h5']; unfold maxRadius; exact not_lt.2 hr2)]
  have herr : (radiusErrors (realTrig mode) c pts).any (fun e => decide (alignmentError < e)) = false := by
    rw [List.any_eq_false]
    intro e he
    unfold radiusErrors at he
    obtain ⟨p, hp, rfl⟩ := List.mem_map.1 he
    have hd : amplitude (realTrig mode) (c.cx - p.1) (c.cy - p.2) = r := by
      unfold amplitude
      rw [h2, h4, show (a - p.1) * (a - p.1) + (b - p.2) * (b - p.2) = r ^ 2 by rw [← h p hp]; ring]
      exact Real.sqrt_sq hr
    rw [hd, h5', sub_self, abs_zero]
    unfold alignmentError
    norm_num
  rw [if_neg (by rw [herr]; simp)]
  have hlen : (angles (realTrig mode) (a, b) pts).length ≠ 0 := by
    obtain ⟨p, hp, q, hq, s, hs, e1, e2, e3⟩ := h3
    have : [p, q, s].Nodup := by simp [e1, e2, e3]
    have hsub : [p, q, s].Subperm pts := (List.subperm_of_subset this (by intro x hx; simp at hx; rcases hx with rfl | rfl | rfl <;> assumption))
    have := hsub.length_le
    unfold angles steps
    simp only [List.length_map, List.length_zip, List.length_tail, List.length_cons, List.length_nil] at this ⊢
    omega
  have hcast : ((angles (realTrig mode) (a, b) pts).length : ℝ) ≠ 0 := by exact_mod_cast hlen
  unfold angleErrors
  rw [phaseDiffs_spec, h2, h4]
  unfold divE
  simp only [if_neg hcast]
  congr 2
  rw [List.any_eq_false]
  intro e he
  obtain ⟨v, hv, rfl⟩ := List.mem_map.1 he
  have := hang v hv
  unfold mean at this
  simp only [decide_eq_true_eq, not_lt]
  exact this

end GCodeUtils
