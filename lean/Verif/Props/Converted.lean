import Verif.Lemmas.Converted
import Verif.Props.ArcRelative

/-
  C109: the arcs found do not depend on the extrusion mode.
-/

set_option linter.unusedSectionVars false

namespace GCodeUtils

open Spec

variable {α : Type} [Field α] [LinearOrder α] [IsStrictOrderedRing α] [FloorRing α]

/-- Eight moves on an arc, after the extruder coordinate has been reset to 0 and the head has travelled to the start of the arc. -/
def resetArc : List Str :=
  [c!"M82", c!"G1 X0 Y0 E5 F1800", c!"G92 E0", c!"G1 X60.000 Y50.000 F1800", c!"G1 X59.659 Y52.588 E0.2611", c!"G1 X58.660 Y55.000 E0.5221",
   c!"G1 X57.071 Y57.071 E0.7832", c!"G1 X55.000 Y58.660 E1.0442", c!"G1 X52.588 Y59.659 E1.3053", c!"G1 X50.000 Y60.000 E1.5663",
   c!"G1 X47.412 Y59.659 E1.8274", c!"G1 X45.000 Y58.660 E2.0884", c!"M107"]

/-- **C109, refuted.**  With absolute extrusion the arc is not found: loading does not take notice of `G92 E0`, the travel move after
it counts as 5 mm of filament ahead of the arc.  Converted to relative extrusion, the same program gets its arc. -/
theorem C109_refuted : ∃ g c : GCode ℚ, GCode.load qEnv resetArc = .ok g ∧ g.toRelativeE = .ok c ∧
    (g.optimizeArcs qTrig).map texts = .ok resetArc ∧
    (c.optimizeArcs qTrig).map texts = .ok [c!"M83", c!"G1 X0.000 Y0.000 E5.00000 F1800.000", c!"G92 E0", c!"G1 X60.000 Y50.000 F1800",
      c!"G3 X45.000 Y58.660 E2.09438 F1800.000 I-10.000 J0.000; generated from 8 segments", c!"M107"] :=
  ⟨loadQ resetArc, relQ (loadQ resetArc), by decide +kernel, by decide +kernel, by decide +kernel, by decide +kernel⟩

/-- **C109 (partial).**  For programs with absolute extrusion in which the extruder coordinate is not set after the first E word of a
move: if the converted program can be optimised, so can the original, and both have the same lines and the same arcs at the same
places, up to filament; if the original can be optimised, so can the converted one, unless a generated arc needs a division by zero;
and if the original fails, the converted one fails.  Missing: programs with `G92 E0` between moves, where the claim is false. -/
theorem C109_same_arcs_partial (t : Trig α) {env : Env α} {data : List Str} {home : Home α} {g c : GCode α} (h : GCode.load env data false home = .ok g)
    (hc : g.toRelativeE = .ok c) (hp : ∀ l ∈ program g, PlainE l) (hn : NoReset (program g)) :
    (∀ o', c.optimizeArcs t = .ok o' → ∃ o, g.optimizeArcs t = .ok o ∧ SameArcs (program o) (program o')) ∧
    (∀ o, g.optimizeArcs t = .ok o → (∃ o', c.optimizeArcs t = .ok o' ∧ SameArcs (program o) (program o')) ∨ c.optimizeArcs t = .error .zeroDivision) ∧
    (∀ e, g.optimizeArcs t = .error e → c.optimizeArcs t = .error e ∨ c.optimizeArcs t = .error .zeroDivision) := by
  rcases optimizeArcs_conv t h hc hp hn with k | ⟨er, k1, k2⟩ | ⟨o, o', k1, k2, hs⟩
  · rw [k]
    exact ⟨fun o' h => by simp at h, fun o _ => .inr rfl, fun e _ => .inr rfl⟩
  · rw [k1, k2]
    exact ⟨fun o' h => by simp at h, fun o h => by simp at h, fun e h => .inl h⟩
  · rw [k1, k2]
    refine ⟨fun u hu => ?_, fun u hu => ?_, fun e he => by simp at he⟩
    · cases hu; exact ⟨o, rfl, hs⟩
    · cases hu; exact .inl ⟨o', rfl, hs⟩

/-- The hypotheses are met by a program whose optimiser writes a correction of the filament counter; it begins with `G92 E0`. -/
example : let data := c!"G92 E0" :: arcCoarse
    GCode.load qEnv data = .ok (loadQ data) ∧ (loadQ data).toRelativeE = .ok (relQ (loadQ data)) ∧
    (∀ l ∈ program (loadQ data), PlainE l) ∧ NoReset (program (loadQ data)) ∧
    ((loadQ data).optimizeArcs qTrig).map texts = .ok [c!"G92 E0", c!"G1 X60.000 Y50.000 E1.0 F1800",
      c!"G3 X50.000 Y40.000 E5.55182 F1800.000 I-10.000 J0.000; generated from 9 segments",
      c!"G92 E5.50000; generated as arc to path relation is 1.011516", c!"M107", c!"G1 X40.000 Y40.000 E6.0"] ∧
    ((relQ (loadQ data)).optimizeArcs qTrig).map texts = .ok [c!"G92 E0", c!"G1 X60.000 Y50.000 E1.00000 F1800.000",
      c!"G3 X50.000 Y40.000 E4.55182 F1800.000 I-10.000 J0.000; generated from 9 segments", c!"M107", c!"G1 X40.000 Y40.000 E0.50000"] := by
  refine ⟨by decide +kernel, by decide +kernel, by unfold PlainE HasCmd; decide +kernel, ?_, by decide +kernel, by decide +kernel⟩
  intro pre l post e hm he k hk
  have h1 : ∀ l ∈ (program (loadQ (c!"G92 E0" :: arcCoarse))).tail, ¬ RelabelsE l := by unfold RelabelsE HasCmd; decide +kernel
  apply h1 k
  cases pre with
  | nil => rw [e]; exact hk
  | cons a pre => rw [e]; simp [hk]

end GCodeUtils
