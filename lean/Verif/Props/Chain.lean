import Verif.Props.Commute
import Verif.Props.ArcCount

/-
  C107: filters applied one after the other to the same program.
-/

set_option linter.unusedSectionVars false

namespace GCodeUtils

open Spec

variable {α : Type} [Field α] [LinearOrder α] [IsStrictOrderedRing α] [FloorRing α]

/-- The circle of the examples, with its modes stated. -/
def chainCircle : List Str := c!"G90" :: c!"M82" :: arcCcw

/-- Translated, then optimised. -/
def chainQ (g : GCode ℚ) (x y : ℚ) : GCode ℚ := okOr g ((transQ g x y).optimizeArcs qTrig)

/-- **C107, refuted** for optimising a program that has just been translated.  The circle is to be 10 mm further right.  The
translated program ends at X 52.929, as it should; optimised, it begins at X 70 and ends at X 42.929, where the circle was
before the translation.  In the other order it ends at the right place. -/
theorem C107_refuted : ∃ g a b c d : GCode ℚ, GCode.load qEnv chainCircle = .ok g ∧
    g.translate (some 10) (some 0) = .ok a ∧ a.optimizeArcs qTrig = .ok b ∧
    g.optimizeArcs qTrig = .ok c ∧ c.translate (some 10) (some 0) = .ok d ∧
    headAfter (texts a) = (52929 / 1000, 57071 / 1000, 0) ∧ headAfter (texts b) = (42929 / 1000, 57071 / 1000, 0) ∧
    headAfter (texts d) = (52929 / 1000, 57071 / 1000, 0) :=
  ⟨loadQ chainCircle, transQ (loadQ chainCircle) 10 0, chainQ (loadQ chainCircle) 10 0, arcsQ chainCircle, transQ (arcsQ chainCircle) 10 0,
    by decide +kernel, by decide +kernel, by decide +kernel, by decide +kernel, by decide +kernel, by decide +kernel, by decide +kernel,
    by decide +kernel⟩

/-- A coarse circle, with its modes stated, and a move after it. -/
def chainCoarse : List Str := c!"G90" :: c!"M82" :: arcCoarse ++ [c!"G1 X42 Y50"]

/-- **C107, refuted** for translating an optimised program in which the optimiser has written a `G92 E` to correct the
filament counter.  The original program can be translated by 10 mm: it ends at X 52 instead of X 42.  The optimised program
ends at X 42 as well; optimised and then translated, it ends at X 112, Y 90, because translation writes X and Y words to that
`G92`. -/
theorem C107_correction_refuted : ∃ g a c d : GCode ℚ, GCode.load qEnv chainCoarse = .ok g ∧ g.translate (some 10) (some 0) = .ok a ∧
    g.optimizeArcs qTrig = .ok c ∧ c.translate (some 10) (some 0) = .ok d ∧
    headAfter (texts g) = (42, 50, 0) ∧ headAfter (texts a) = (52, 50, 0) ∧ headAfter (texts c) = (42, 50, 0) ∧
    headAfter (texts d) = (112, 90, 0) :=
  ⟨loadQ chainCoarse, transQ (loadQ chainCoarse) 10 0, arcsQ chainCoarse, transQ (arcsQ chainCoarse) 10 0,
    by decide +kernel, by decide +kernel, by decide +kernel, by decide +kernel, by decide +kernel, by decide +kernel, by decide +kernel,
    by decide +kernel⟩

/-- **C107 (partial).**  Arc optimisation first: the optimised program can then be translated and converted to relative
extrusion, and neither fails.  Compared with the optimised program, as long as the lines executed so far are in the classes
of C27 and C31, the head is displaced by exactly the requested amount on the axes placed since homing, and the same filament
is pushed with the same feed rate, on the arcs as on the lines.  Missing: optimising last, and optimised programs
with a correction of the filament counter (which are not in the class of C27), where the claim is false. -/
theorem C107_arcs_first_partial {env : Env α} {t : Trig α} {data : List Str} {g o : GCode α} (_hg : GCode.load env data = .ok g)
    (_ho : g.optimizeArcs t = .ok o) (x y : Option α) (home : Pos3 α) (p : Printer α) (hp : p.e = p.eOrg) :
    ∃ a c, o.translate x y = .ok a ∧ a.toRelativeE = .ok c ∧ (program c).length = (program o).length ∧
      ∀ n s u, ({} : TrackSt).run ((program o).take n) = some s → ({} : EModeSt).run ((program o).take n) = some u →
        let b := p.run home ((program o).take n)
        let q := p.run home ((program c).take n)
        q.pos.x = b.pos.x + (if s.x.isPlaced then x.getD 0 else 0) ∧
        q.pos.y = b.pos.y + (if s.y.isPlaced then y.getD 0 else 0) ∧
        q.pos.z = b.pos.z ∧ q.pushed = b.pushed ∧ q.feed = b.feed ∧ q.rel = b.rel ∧ q.tool = b.tool :=
  C88_both_partial o x y home p hp

/-- The hypotheses are met by a program with an arc. -/
example : GCode.load qEnv chainCircle = .ok (loadQ chainCircle) ∧ (loadQ chainCircle).optimizeArcs qTrig = .ok (arcsQ chainCircle) ∧
    (({} : TrackSt).run (program (arcsQ chainCircle))).isSome = true ∧ (({} : EModeSt).run (program (arcsQ chainCircle))).isSome = true ∧
    texts (bothQ (arcsQ chainCircle) 10 0).1 =
      [c!"G90", c!"M83", c!"G1 X70.000 Y50.000 E1.00000 F1800.000", c!"G3 X52.929 Y57.071 E2.35622 F1800.000 I-10.000 J0.000", c!"M107"] := by
  decide +kernel

end GCodeUtils
