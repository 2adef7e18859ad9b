import Verif.Lemmas.Commute

/-
  C88: translation and conversion to relative extrusion together.
-/

set_option linter.unusedSectionVars false

namespace GCodeUtils

open Spec

variable {α : Type} [Field α] [LinearOrder α] [IsStrictOrderedRing α] [FloorRing α]

/-- C88.  Translating and converting to relative extrusion give the same program in either order, text included, for all
programs without a `G92` that has none of X, Y, Z, E.  Missing: programs with such a `G92`, where it is false, see
`C88_refuted`. -/
theorem C88_commute_partial (g : GCode α) (x y : Option α)
    (h : ∀ l ∈ program g, HasCmd l c!"G92" → ¬ (l.x = none ∧ l.y = none ∧ l.z = none ∧ l.e = none)) :
    ∃ a b c, g.translate x y = .ok a ∧ a.toRelativeE = .ok c ∧ g.toRelativeE = .ok b ∧ b.translate x y = .ok c := by
  rw [program_def] at h
  refine ⟨_, _, _, translate_eq g x y, toRelativeE_eq _, toRelativeE_eq g, ?_⟩
  rw [translate_eq]
  simp only
  rw [filters_commute_layers _ _ _ h]

/-- C88, what the printer does with the program that went through both filters.  As long as the lines executed so far are in
the classes of C27 and C31, the head is displaced by exactly the requested amount on the axes placed since homing, and
the same filament has been pushed with the same feed rate; in either order of the filters. -/
theorem C88_both_partial (g : GCode α) (x y : Option α) (home : Pos3 α) (p : Printer α) (hp : p.e = p.eOrg) :
    ∃ a c, g.translate x y = .ok a ∧ a.toRelativeE = .ok c ∧ (program c).length = (program g).length ∧
      ∀ n t u, ({} : TrackSt).run ((program g).take n) = some t → ({} : EModeSt).run ((program g).take n) = some u →
        let o := p.run home ((program g).take n)
        let b := p.run home ((program c).take n)
        b.pos.x = o.pos.x + (if t.x.isPlaced then x.getD 0 else 0) ∧
        b.pos.y = o.pos.y + (if t.y.isPlaced then y.getD 0 else 0) ∧
        b.pos.z = o.pos.z ∧ b.pushed = o.pushed ∧ b.feed = o.feed ∧ b.rel = o.rel ∧ b.tool = o.tool := by
  obtain ⟨a, h1, h2, h3⟩ := C27_translation_partial g x y home p
  obtain ⟨a', h1', _, hprog⟩ := translate_program g x y
  rw [h1] at h1'
  obtain rfl := Except.ok.inj h1'
  obtain ⟨c, k1, k2, k3⟩ := C31_conversion_partial a home p hp
  refine ⟨a, c, h1, k1, by rw [k2, h2], ?_⟩
  intro n t u ht hu o b
  obtain ⟨e1, e2, e3, e4, e5⟩ := h3 n t ht
  have hu' : ({} : EModeSt).run ((program a).take n) = some u := by
    rw [hprog, ← scan_take, emode_run_trans _ _ _ (track_no_bare _ _ _ ht)]
    exact hu
  obtain ⟨f1, f2, f3, f4⟩ := k3 n u hu'
  have hb : b = { p.run home ((program a).take n) with relE := b.relE } := f1
  have ho : p.run home ((program a).take n) = { o with pos := (p.run home ((program a).take n)).pos, org := (p.run home ((program a).take n)).org } := e4
  refine ⟨?_, ?_, ?_, ?_, ?_, ?_, ?_⟩
  · show b.pos.x = _; rw [show b.pos = _ from f3]; exact e1
  · show b.pos.y = _; rw [show b.pos = _ from f3]; exact e2
  · show b.pos.z = _; rw [show b.pos = _ from f3]; exact e3
  · rw [show b.pushed = _ from f2]; have := congrArg Printer.pushed ho; exact this
  · rw [show b.feed = _ from f4]; have := congrArg Printer.feed ho; exact this
  · rw [show b.rel = _ from congrArg Printer.rel hb]; have := congrArg Printer.rel ho; exact this
  · rw [show b.tool = _ from congrArg Printer.tool hb]; have := congrArg Printer.tool ho; exact this

/-- A program with all the commands either filter looks at. -/
def bothSample : List Str :=
  [c!"G28", c!"G90", c!"M82", c!"G92 Z0 E0", c!"G1 X10 Y10 E1 ; draw", c!"G1 Y20 E2.5", c!"G92 Z1 E0", c!"G1 X0 Z2 E1", c!"G1 E0.5", c!"G28"]

/-- Both filters, in the order of the command line and in the other order. -/
def bothQ (g : GCode ℚ) (x y : ℚ) : GCode ℚ × GCode ℚ := (relQ (transQ g x y), transQ (relQ g) x y)

example : GCode.load qEnv bothSample = .ok (loadQ bothSample) ∧
    (∀ l ∈ program (loadQ bothSample), HasCmd l c!"G92" → ¬ (l.x = none ∧ l.y = none ∧ l.z = none ∧ l.e = none)) ∧
    (({} : TrackSt).run (program (loadQ bothSample))).isSome = true ∧ (({} : EModeSt).run (program (loadQ bothSample))).isSome = true ∧
    texts (bothQ (loadQ bothSample) 5 (-2)).1 = texts (bothQ (loadQ bothSample) 5 (-2)).2 ∧
    texts (bothQ (loadQ bothSample) 5 (-2)).1 =
      [c!"G28", c!"G90", c!"M83", c!"G92 Z0.000 E0.00000", c!"G1 X15.000 Y8.000 E1.00000", c!"G1 Y18.000 E1.50000", c!"G92 Z1.000 E0.00000",
       c!"G1 X5.000 Z2.000 E1.00000", c!"G1 E-0.50000", c!"G28"] := by decide +kernel

/-- C88 is false for a `G92` without words: translation adds X and Y to it, and the conversion then no longer knows that
the filament counter is at zero.  Converting first pushes 7 mm after the `G92`, converting second 2 mm. -/
theorem C88_refuted : ∃ g : GCode ℚ, GCode.load qEnv [c!"G90", c!"M82", c!"G1 X1 E5", c!"G92", c!"G1 X2 E7"] = .ok g ∧
    (texts (bothQ g 5 0).1)[4]? = some c!"G1 X2.000 E2.00000" ∧ (texts (bothQ g 5 0).2)[4]? = some c!"G1 X2.000 E7.00000" ∧
    g.translate (some 5) (some 0) = .ok (transQ g 5 0) ∧ (transQ g 5 0).toRelativeE = .ok (bothQ g 5 0).1 ∧
    g.toRelativeE = .ok (relQ g) ∧ (relQ g).translate (some 5) (some 0) = .ok (bothQ g 5 0).2 :=
  ⟨loadQ [c!"G90", c!"M82", c!"G1 X1 E5", c!"G92", c!"G1 X2 E7"], by decide +kernel⟩

end GCodeUtils
