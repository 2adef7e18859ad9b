import Verif.Props.ArcGeometry
import Verif.Lemmas.ArcCount

/-
  C83, C84: feed rate and extruder coordinate after the arcs have been put in.
-/

set_option linter.unusedSectionVars false

namespace GCodeUtils

open Spec

variable {α : Type} [Field α] [LinearOrder α] [IsStrictOrderedRing α] [FloorRing α]

/-- The counter-clockwise arc without feed rate. -/
def arcNoFeed : List Str :=
  [c!"G1 X60.000 Y50.000 E1.0000", c!"G1 X59.659 Y52.588 E1.2611", c!"G1 X58.660 Y55.000 E1.5221", c!"G1 X57.071 Y57.071 E1.7832",
   c!"G1 X55.000 Y58.660 E2.0442", c!"G1 X52.588 Y59.659 E2.3053", c!"G1 X50.000 Y60.000 E2.5663", c!"G1 X47.412 Y59.659 E2.8274",
   c!"G1 X45.000 Y58.660 E3.0884", c!"G1 X42.929 Y57.071 E3.3495", c!"M107"]

/-- The clockwise arc and one more move. -/
def arcCwMore : List Str := arcCw ++ [c!"G1 X40.000 Y40.000 E3.5000"]
/-- The counter-clockwise arc and one more move. -/
def arcCcwMore : List Str := c!"G92 E0" :: arcCcw ++ [c!"G1 X40.000 Y40.000 E3.5000"]

/-- The counter-clockwise arc with the extruder coordinate set to 5 first. -/
def arcFive : List Str :=
  [c!"G92 E5", c!"G1 X60.000 Y50.000 E6.0000 F1800", c!"G1 X59.659 Y52.588 E6.2611", c!"G1 X58.660 Y55.000 E6.5221", c!"G1 X57.071 Y57.071 E6.7832",
   c!"G1 X55.000 Y58.660 E7.0442", c!"G1 X52.588 Y59.659 E7.3053", c!"G1 X50.000 Y60.000 E7.5663", c!"G1 X47.412 Y59.659 E7.8274",
   c!"G1 X45.000 Y58.660 E8.0884", c!"G1 X42.929 Y57.071 E8.3495", c!"M107"]

/-- Nine segments of 30 degrees and one more move. -/
def arcCoarse : List Str :=
  [c!"G1 X60.000 Y50.000 E1.0 F1800", c!"G1 X58.660 Y55.000 E1.5", c!"G1 X55.000 Y58.660 E2.0", c!"G1 X50.000 Y60.000 E2.5",
   c!"G1 X45.000 Y58.660 E3.0", c!"G1 X41.340 Y55.000 E3.5", c!"G1 X40.000 Y50.000 E4.0", c!"G1 X41.340 Y45.000 E4.5",
   c!"G1 X45.000 Y41.340 E5.0", c!"G1 X50.000 Y40.000 E5.5", c!"M107", c!"G1 X40.000 Y40.000 E6.0"]

/-! ### C83 -/

/-- C83 is false for a printer that has a feed rate before the program starts (here 3000): if the program has no F word before
the arc, the arc gets `F0.000` and stops it. -/
theorem C83_refuted : ∃ g g' : GCode ℚ, GCode.load qEnv arcNoFeed = .ok g ∧ g.optimizeArcs qTrig = .ok g' ∧
    (program g').map (·.raw) = [c!"G1 X60.000 Y50.000 E1.0000",
      c!"G3 X42.929 Y57.071 E3.35622 F0.000 I-10.000 J0.000; generated from 9 segments", c!"M107"] ∧
    (Printer.final ⟨0, 0, 0⟩ ({ (Printer.start : Printer ℚ) with feed := 3000 }) ((program g).map (·.raw))).feed = 3000 ∧
    (Printer.final ⟨0, 0, 0⟩ ({ (Printer.start : Printer ℚ) with feed := 3000 }) ((program g').map (·.raw))).feed = 0 :=
  ⟨loadQ arcNoFeed, arcsQ arcNoFeed, by decide +kernel, by decide +kernel, by decide +kernel, by decide +kernel, by decide +kernel⟩

/-- C83, for printers without feed rate at the start, or programs in which a move with an F word stands before or at every move
with an E word: after every retained line and after every replaced window a printer executing the output has the feed rate
of one executing the input. -/
theorem C83_feed_partial (env : Env α) (data : List Str) (home : Home α) (g g' : GCode α) (h : GCode.load env data false home = .ok g)
    (t : Trig α) (hr : g.optimizeArcs t = .ok g') (hp : Pos3 α) (p : Printer α)
    (hset : p.feed = 0 ∨ ∀ pre l post, program g = pre ++ l :: post → IsMove l → l.e ≠ none → ∃ k ∈ pre ++ [l], IsMove k ∧ k.f ≠ none) :
    Tracks hp (fun start w gen => ArcReplacement t start w gen ∧ ∀ l ∈ w, l.e ≠ none) (fun a b => a.feed = b.feed) p p (program g) (program g') :=
  arc_tracks_feed hp (C51_extruding_moves env data home g g' h t hr) p (load_comment h) (load_feeds h) hset

/-- The hypothesis about F words is met: the first line has one. -/
example : GCode.load qEnv arcCcw = .ok (loadQ arcCcw) ∧ (loadQ arcCcw).optimizeArcs qTrig = .ok (arcsQ arcCcw) ∧
    ∀ pre l post, program (loadQ arcCcw) = pre ++ l :: post → IsMove l → l.e ≠ none → ∃ k ∈ pre ++ [l], IsMove k ∧ k.f ≠ none := by
  refine ⟨by decide +kernel, by decide +kernel, ?_⟩
  intro pre l post he _ _
  have h0 : ∃ k, (program (loadQ arcCcw)).head? = some k ∧ IsMove k ∧ k.f ≠ none := by
    cases hk : (program (loadQ arcCcw)).head? with
    | none => exact absurd hk (by decide +kernel)
    | some k =>
      have : ∀ k ∈ (program (loadQ arcCcw)).head?, IsMove k ∧ k.f ≠ none := by decide +kernel
      exact ⟨k, rfl, this k hk⟩
  obtain ⟨k, hk, h1, h2⟩ := h0
  refine ⟨k, ?_, h1, h2⟩
  rw [he] at hk
  cases pre with
  | nil =>
    simp only [List.nil_append, List.head?_cons, Option.some.injEq] at hk
    subst hk; simp
  | cons a pre =>
    simp only [List.cons_append, List.head?_cons, Option.some.injEq] at hk
    subst hk; simp

/-! ### C84 -/

/-- C84 is false after a clockwise arc: the following retained move pushes 4.85622 instead of 0.1505. -/
theorem C84_refuted_clockwise : ∃ g g' : GCode ℚ, GCode.load qEnv arcCwMore = .ok g ∧ g.optimizeArcs qTrig = .ok g' ∧
    (program g').map (·.raw) = [c!"G1 X50.000 Y60.000 E1.0000 F1800",
      c!"G2 X57.071 Y42.929 E-1.35622 F1800.000 I0.000 J-10.000; generated from 9 segments", c!"M107", c!"G1 X40.000 Y40.000 E3.5000"] ∧
    (Printer.start.final ⟨0, 0, 0⟩ ((program g).map (·.raw)) : Printer ℚ).e - (Printer.start.final ⟨0, 0, 0⟩ ((program g).map (·.raw)).dropLast : Printer ℚ).e = 1505 / 10000 ∧
    (Printer.start.final ⟨0, 0, 0⟩ ((program g').map (·.raw)) : Printer ℚ).e - (Printer.start.final ⟨0, 0, 0⟩ ((program g').map (·.raw)).dropLast : Printer ℚ).e = 485622 / 100000 :=
  ⟨loadQ arcCwMore, arcsQ arcCwMore, by decide +kernel, by decide +kernel, by decide +kernel, by decide +kernel, by decide +kernel⟩

/-- C84 is false if the program sets the extruder coordinate to something other than 0: after `G92 E5` the recorded coordinates
are 5 too high, and the arc ends at E 13.35622 where the program ends at 8.3495. -/
theorem C84_refuted_offset : ∃ g g' : GCode ℚ, GCode.load qEnv arcFive = .ok g ∧ g.optimizeArcs qTrig = .ok g' ∧
    (program g').map (·.raw) = [c!"G92 E5", c!"G1 X60.000 Y50.000 E6.0000 F1800",
      c!"G3 X42.929 Y57.071 E13.35622 F1800.000 I-10.000 J0.000; generated from 9 segments", c!"M107"] ∧
    (Printer.start.final ⟨0, 0, 0⟩ ((program g).map (·.raw)) : Printer ℚ).eCoord = 83495 / 10000 ∧
    (Printer.start.final ⟨0, 0, 0⟩ ((program g').map (·.raw)) : Printer ℚ).eCoord = 1335622 / 100000 :=
  ⟨loadQ arcFive, arcsQ arcFive, by decide +kernel, by decide +kernel, by decide +kernel, by decide +kernel, by decide +kernel⟩

/-- C84, for programs with absolute extrusion throughout that set the extruder coordinate only to 0: every retained line that
sets it leaves both printers with the same extruder coordinate, other retained lines do not change the difference, and
after a replaced window the difference is none (if a `G92` follows the arc) or else the second printer is ahead by at most
1 % of the filament of the window.  How far it may be behind is `C84_behind_partial` (for clockwise arcs it is, see above). -/
theorem C84_count_partial (env : Env α) (data : List Str) (home : Home α) (g g' : GCode α) (h : GCode.load env data false home = .ok g)
    (t : Trig α) (hr : g.optimizeArcs t = .ok g') (hpl : ∀ l ∈ program g, PlainE l) (hp : Pos3 α) :
    Follows hp (fun start w gen => ArcReplacement t start w gen ∧ ∀ l ∈ w, l.e ≠ none) (SameCount hp) (WindowCount hp)
      Printer.start Printer.start (program g) (program g') :=
  follows_count hp ⟨hpl, load_comment h, load_plainE h hpl⟩ (C51_extruding_moves env data home g g' h t hr) (fun _ h => h) _ _ rfl rfl

/-- The hypothesis is met by a program whose arc is followed by a correction. -/
example : GCode.load qEnv arcCoarse = .ok (loadQ arcCoarse) ∧ (loadQ arcCoarse).optimizeArcs qTrig = .ok (arcsQ arcCoarse) ∧
    (∀ l ∈ program (loadQ arcCoarse), PlainE l) ∧ (program (arcsQ arcCoarse)).map (·.raw) =
    [c!"G1 X60.000 Y50.000 E1.0 F1800", c!"G3 X50.000 Y40.000 E5.55182 F1800.000 I-10.000 J0.000; generated from 9 segments",
      c!"G92 E5.50000; generated as arc to path relation is 1.011516", c!"M107", c!"G1 X40.000 Y40.000 E6.0"] := by
  refine ⟨by decide +kernel, by decide +kernel, ?_, by decide +kernel⟩
  unfold PlainE
  decide +kernel

/-- The hypothesis is met by a program with `G92 E0`, an arc without correction and a move after it. -/
example : GCode.load qEnv arcCcwMore = .ok (loadQ arcCcwMore) ∧ (loadQ arcCcwMore).optimizeArcs qTrig = .ok (arcsQ arcCcwMore) ∧
    (∀ l ∈ program (loadQ arcCcwMore), PlainE l) ∧ (program (arcsQ arcCcwMore)).map (·.raw) =
    [c!"G92 E0", c!"G1 X60.000 Y50.000 E1.0000 F1800", c!"G3 X42.929 Y57.071 E3.35622 F1800.000 I-10.000 J0.000; generated from 9 segments",
      c!"M107", c!"G1 X40.000 Y40.000 E3.5000"] := by
  refine ⟨by decide +kernel, by decide +kernel, ?_, by decide +kernel⟩
  unfold PlainE
  decide +kernel

end GCodeUtils
