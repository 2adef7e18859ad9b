import Verif.Lemmas.Survive
import Verif.Props.ArcCount

/-
  C104, C105: what arc optimisation never touches.
-/

set_option linter.unusedSectionVars false

namespace GCodeUtils

open Spec

variable {α : Type} [Field α] [LinearOrder α] [IsStrictOrderedRing α] [FloorRing α]

/-! ### C104 -/

/-- C104.  Only drawing moves are ever replaced: every line of a replaced window is a move with an E word that goes somewhere and pushes
filament forward.  All other lines are retained, in order. -/
theorem C104_only_drawing (env : Env α) (data : List Str) (home : Home α) (g g' : GCode α) (h : GCode.load env data false home = .ok g)
    (t : Trig α) (ht : t.sqrt 0 = 0) (hr : g.optimizeArcs t = .ok g') : Rewrites DrawnWindow (program g) (program g') := by
  refine rewrites_change (x0 := program g) ?_ (C51_extruding_moves env data home g g' h t hr) (fun _ h => h)
  rintro l' w w' gen hw hk ⟨hR, hE⟩
  obtain ⟨rfl, hm⟩ := window_same (load_comment h) hw hk hR.1.2.1 hE
  exact replacement_drawn ht hR hE hm

/-- C104.  The lines without E word (comments, travel moves, commands that do not set E) have the same texts in the same order in the
output as in the input. -/
theorem C104_unfed (env : Env α) (data : List Str) (home : Home α) (g g' : GCode α) (h : GCode.load env data false home = .ok g)
    (t : Trig α) (ht : t.sqrt 0 = 0) (hr : g.optimizeArcs t = .ok g') : unfedTexts (program g') = unfedTexts (program g) :=
  rewrites_unfed (C104_only_drawing env data home g g' h t ht hr)

/-- An arc with a comment, a retraction, a travel move and a push forward in place around it. -/
def arcAround : List Str :=
  [c!"; loop", c!"G1 E0.5 F1800", c!"G1 X60.000 Y50.000", c!"; wall", c!"G1 E1.0"] ++ arcCcw.tail ++
  [c!"G1 E2.3495", c!"; away", c!"G0 X10 Y10"]

/-- The hypotheses are met by a program in which an arc is found between comments, travel moves and retractions. -/
example : GCode.load qEnv arcAround = .ok (loadQ arcAround) ∧ (loadQ arcAround).optimizeArcs qTrig = .ok (arcsQ arcAround) ∧ qTrig.sqrt 0 = 0 ∧
    (program (arcsQ arcAround)).map (·.raw) = [c!"; loop", c!"G1 E0.5 F1800", c!"G1 X60.000 Y50.000", c!"; wall", c!"G1 E1.0",
      c!"G3 X42.929 Y57.071 E3.35622 F1800.000 I-10.000 J0.000; generated from 9 segments", c!"M107", c!"G1 E2.3495", c!"; away", c!"G0 X10 Y10"] := by
  decide +kernel

/-! ### C105 -/

/-- Nine small half circles, whose ends lie on a circle. -/
def scallops : List Str :=
  [c!"G1 X60.000 Y50.000 E1.0000 F1800", c!"G2 X59.659 Y52.588 I-0.171 J1.294 E1.2611", c!"G2 X58.660 Y55.000 I-0.500 J1.206 E1.5221",
   c!"G2 X57.071 Y57.071 I-0.795 J1.036 E1.7832", c!"G2 X55.000 Y58.660 I-1.036 J0.795 E2.0442", c!"G2 X52.588 Y59.659 I-1.206 J0.500 E2.3053",
   c!"G2 X50.000 Y60.000 I-1.294 J0.171 E2.5663", c!"G2 X47.412 Y59.659 I-1.294 J-0.171 E2.8274", c!"G2 X45.000 Y58.660 I-1.206 J-0.500 E3.0884",
   c!"G2 X42.929 Y57.071 I-1.036 J-0.795 E3.3495", c!"M107"]

/-- C105 is false: nine half circles that extrude and end on a common circle are replaced by one arc along that circle. -/
theorem C105_refuted : ∃ g g' : GCode ℚ, GCode.load qEnv scallops = .ok g ∧ g.optimizeArcs qTrig = .ok g' ∧
    (ownCurves (program g)).length = 9 ∧ ownCurves (program g') = [] ∧
    (program g').map (·.raw) = [c!"G1 X60.000 Y50.000 E1.0000 F1800",
      c!"G3 X42.929 Y57.071 E3.35622 F1800.000 I-10.000 J0.000; generated from 9 segments", c!"M107"] :=
  ⟨loadQ scallops, arcsQ scallops, by decide +kernel, by decide +kernel, by decide +kernel, by decide +kernel, by decide +kernel⟩

/-- C105, for programs in which eight or more extruding moves in a row are never circular: the circular moves of the output, apart from
the generated ones, are those of the input.  (Circular moves without E word are always kept, by C104.)  Missing: longer runs of extruding
arcs, for which it is false. -/
theorem C105_curves_partial (env : Env α) (data : List Str) (home : Home α) (g g' : GCode α) (h : GCode.load env data false home = .ok g)
    (t : Trig α) (ht : t.sqrt 0 = 0) (hr : g.optimizeArcs t = .ok g') (ha : CurvesApart (program g)) : ownCurves (program g') = ownCurves (program g) :=
  rewrites_curves ha (C104_only_drawing env data home g g' h t ht hr) [] rfl

/-- Two arcs and a straight run that becomes an arc. -/
def arcPair : List Str := [c!"G2 X55 Y50 I-2 J0 E0.5 F1800", c!"G3 X60 Y50 I2 J0", c!"G92 E0"] ++ arcCcw ++ [c!"G2 X40 Y57 I-2 J0 E3.5"]

theorem curvesApart_of {ls : List (PyLine α)} (h : ∀ n < ls.length, ∀ l ∈ (ls.drop n).take 8, (∀ k ∈ (ls.drop n).take 8, IsMove k ∧ k.e ≠ none) →
    8 ≤ ((ls.drop n).take 8).length → ¬ IsCurve l) : CurvesApart ls := by
  intro pre w post he h8 hw l hl
  obtain ⟨u, v, rfl⟩ := List.append_of_mem hl
  -- a window of eight lines around `l`
  have key : ∃ a b c, u ++ l :: v = a ++ (b ++ c) ∧ b.length = 8 ∧ l ∈ b := by
    by_cases hu : 8 ≤ (u ++ [l]).length
    · refine ⟨(u ++ [l]).take ((u ++ [l]).length - 8), (u ++ [l]).drop ((u ++ [l]).length - 8), v, ?_, ?_, ?_⟩
      · rw [← List.append_assoc, List.take_append_drop]; simp
      · rw [List.length_drop]; omega
      · rw [List.drop_append_of_le_length (by simp at hu ⊢)]; simp
    · refine ⟨[], (u ++ l :: v).take 8, (u ++ l :: v).drop 8, ?_, ?_, ?_⟩
      · rw [List.nil_append, List.take_append_drop]
      · rw [List.length_take]; omega
      · rw [show u ++ l :: v = (u ++ [l]) ++ v by simp, List.take_append, List.take_of_length_le (by omega)]
        simp
  obtain ⟨a, b, c, hab, hb, hlb⟩ := key
  have hd : (ls.drop (pre ++ a).length).take 8 = b := by
    rw [he, hab, show pre ++ (a ++ (b ++ c) ++ post) = (pre ++ a) ++ (b ++ (c ++ post)) by simp, List.drop_left, ← hb, List.take_left]
  have := h (pre ++ a).length (by rw [he, hab]; simp only [List.length_append, hb]; omega) l
  rw [hd] at this
  exact this hlb (fun k hk => hw k (by rw [hab]; simp [hk])) (by rw [hb])

/-- The hypotheses are met by a program with arcs of its own, in which another one is found. -/
example : GCode.load qEnv arcPair = .ok (loadQ arcPair) ∧ (loadQ arcPair).optimizeArcs qTrig = .ok (arcsQ arcPair) ∧
    CurvesApart (program (loadQ arcPair)) ∧ (ownCurves (program (loadQ arcPair))).length = 3 ∧
    (program (arcsQ arcPair)).length < (program (loadQ arcPair)).length :=
  ⟨by decide +kernel, by decide +kernel, curvesApart_of (by decide +kernel), by decide +kernel, by decide +kernel⟩

end GCodeUtils
