import Verif.Lemmas.Reuse
import Verif.Props.ArcGeometry

/-
  C111: one filter object used for several programs.
-/

set_option linter.unusedSectionVars false

namespace GCodeUtils

open Spec

variable {α : Type} [Field α] [LinearOrder α] [IsStrictOrderedRing α] [FloorRing α]

/-- C111, translation: programs filtered one after the other with the same object come out as each of them by itself, if all
but the last are without `G92` and all but the first say their distance mode before they move. -/
theorem C111_translate_partial (x y : Option α) (gs : List (GCode α)) (h1 : ∀ g ∈ gs.tail, SaysDistances (program g))
    (h2 : ∀ g ∈ gs.dropLast, ∀ l ∈ program g, ¬ HasCmd l c!"G92") : translateAll x y gs = eachOf (fun g => g.translate x y) gs :=
  translateAll_each x y gs h1 h2

/-- C111, relative extrusion: the same, if all but the first say their extrusion mode and set E before they extrude. -/
theorem C111_relative_partial (gs : List (GCode α)) (h : ∀ g ∈ gs.tail, SaysExtrusion (program g)) :
    toRelativeEAll gs = eachOf (fun g => g.toRelativeE) gs := toRelativeEAll_each gs h

/-- C111, arcs: the same, including which program fails first and how, if all but the last end in a command other than a
move. -/
theorem C111_arcs_partial (t : Trig α) (gs : List (GCode α)) (h : ∀ g ∈ gs.dropLast, EndsInCommand (program g)) :
    optimizeArcsAll t gs = eachOf (fun g => g.optimizeArcs t) gs := optimizeArcsAll_each t gs h

/-! ### what the second program becomes -/

def reuseA : List Str := [c!"G90", c!"M82", c!"G1 X1 Y1 E5", c!"G92 X0 Y0", c!"G1 X5 Y5"]
def reuseB : List Str := [c!"G90", c!"M82", c!"G1 X1 Y1 E1", c!"G1 X2 Y1 E2"]

/-- The texts of what comes out, for computed examples. -/
def textsAll (r : Except Err (List (GCode ℚ))) : List (List Str) := (okOr [] r).map texts

/-- **C111, refuted** for the three filters.  Translation: after a program with `G92 X0 Y0` the second program is not moved.
Relative extrusion: the first move of the second program pulls back what the first had pushed.  Arcs: the last move of the
first program is put in front of the second. -/
theorem C111_refuted :
    GCode.load qEnv reuseA = .ok (loadQ reuseA) ∧ GCode.load qEnv reuseB = .ok (loadQ reuseB) ∧
    (textsAll (translateAll (some 10) (some 10) [loadQ reuseA, loadQ reuseB]))[1]? = some reuseB ∧
    textsAll (eachOf (fun g => g.translate (some 10) (some 10)) [loadQ reuseB]) =
      [[c!"G90", c!"M82", c!"G1 X11.000 Y11.000 E1.00000", c!"G1 X12.000 Y11.000 E2.00000"]] ∧
    (textsAll (toRelativeEAll [loadQ reuseA, loadQ reuseB]))[1]? =
      some [c!"G90", c!"M83", c!"G1 X1.000 Y1.000 E-4.00000", c!"G1 X2.000 Y1.000 E1.00000"] ∧
    textsAll (eachOf (fun g => g.toRelativeE) [loadQ reuseB]) =
      [[c!"G90", c!"M83", c!"G1 X1.000 Y1.000 E1.00000", c!"G1 X2.000 Y1.000 E1.00000"]] ∧
    (textsAll (optimizeArcsAll qTrig [loadQ reuseA, loadQ reuseB]))[1]? = some (c!"G1 X5 Y5" :: reuseB) ∧
    textsAll (eachOf (fun g => g.optimizeArcs qTrig) [loadQ reuseB]) = [reuseB] := by
  refine ⟨?_, ?_, ?_, ?_, ?_, ?_, ?_, ?_⟩ <;> decide +kernel

/-! ### programs that meet the hypotheses -/

theorem saysDistances_of {ls pre rest : List (PyLine α)} {k : PyLine α} (he : ls = pre ++ k :: rest) (hk : HasCmd k c!"G90" ∨ HasCmd k c!"G91")
    (hp : ∀ l ∈ pre, ¬ IsMove l) : SaysDistances ls := by
  intro a l b hab hm
  rw [he] at hab
  rcases List.append_eq_append_iff.1 hab with ⟨c, h1, h2⟩ | ⟨c, h1, h2⟩
  · cases c with
    | nil =>
      simp only [List.nil_append, List.cons.injEq] at h2
      obtain ⟨rfl, _⟩ := h2
      exfalso
      obtain ⟨c, hc, hl⟩ := hm
      rcases hk with hk | hk <;>
      · unfold HasCmd at hk
        rw [hk] at hl
        obtain rfl := Option.some.inj hl
        exact absurd hc (by decide)
    | cons w c =>
      simp only [List.cons_append, List.cons.injEq] at h2
      exact ⟨k, by rw [h1, h2.1]; simp, hk⟩
  · exfalso
    cases c with
    | nil =>
      simp only [List.nil_append, List.cons.injEq] at h2
      obtain ⟨rfl, _⟩ := h2
      obtain ⟨c, hc, hl⟩ := hm
      rcases hk with hk | hk <;>
      · unfold HasCmd at hk
        rw [hk] at hl
        obtain rfl := Option.some.inj hl
        exact absurd hc (by decide)
    | cons w c =>
      simp only [List.cons_append, List.cons.injEq] at h2
      exact hp l (by rw [h1, ← h2.1]; simp) hm

def reuseC : List Str := [c!"; start", c!"G90", c!"M82", c!"G92 E0", c!"G1 X1 Y1 E1", c!"G1 X2 Y1 E2", c!"M84"]
def reuseD : List Str := [c!"G90", c!"M83", c!"G1 X1 Y1 E1", c!"G1 X2 Y1 E1", c!"M84"]

/-- Two programs translated with one object. -/
example : (∀ g ∈ [loadQ reuseD, loadQ reuseC].tail, SaysDistances (program g)) ∧
    (∀ g ∈ [loadQ reuseD, loadQ reuseC].dropLast, ∀ l ∈ program g, ¬ HasCmd l c!"G92") ∧
    textsAll (translateAll (some 10) (some 10) [loadQ reuseD, loadQ reuseC]) =
      [[c!"G90", c!"M83", c!"G1 X11.000 Y11.000 E1.00000", c!"G1 X12.000 Y11.000 E1.00000", c!"M84"],
       [c!"; start", c!"G90", c!"M82", c!"G92 X-10.000 Y-10.000 E0.00000", c!"G1 X1 Y1 E1", c!"G1 X2 Y1 E2", c!"M84"]] := by
  refine ⟨?_, by unfold HasCmd; decide +kernel, by decide +kernel⟩
  intro g hg
  simp only [List.tail_cons, List.mem_singleton] at hg
  subst hg
  refine saysDistances_of (pre := (program (loadQ reuseC)).take 1) (k := (program (loadQ reuseC))[1]'(by decide +kernel)) (rest := (program (loadQ reuseC)).drop 2) ?_ ?_ ?_
  · decide +kernel
  · unfold HasCmd; decide +kernel
  · have : ∀ l ∈ (program (loadQ reuseC)).take 1, l.inMoves = false := by decide +kernel
    intro l hl hm
    have := this l hl
    rw [(inMoves_iff l).2 hm] at this
    exact absurd this (by decide)

/-- Two programs optimised with one object. -/
example : (∀ g ∈ [loadQ reuseD, loadQ reuseC].dropLast, EndsInCommand (program g)) ∧
    textsAll (optimizeArcsAll qTrig [loadQ reuseD, loadQ reuseC]) = [reuseD, reuseC] := by
  refine ⟨?_, by decide +kernel⟩
  intro g hg
  simp only [List.dropLast, List.mem_singleton] at hg
  subst hg
  refine ⟨(program (loadQ reuseD)).take 4, (program (loadQ reuseD))[4]'(by decide +kernel), by decide +kernel, by decide +kernel, ?_⟩
  rw [← inMoves_iff]
  decide +kernel

theorem saysExtrusion_of {ls pre rest : List (PyLine α)} (he : ls = pre ++ rest) (h1 : ∃ k ∈ pre, HasCmd k c!"M82" ∨ HasCmd k c!"M83")
    (h2 : ∃ k ∈ pre, HasCmd k c!"G92" ∧ (k.e ≠ none ∨ (k.x = none ∧ k.y = none ∧ k.z = none))) (hp : ∀ l ∈ pre, ¬ IsMove l) : SaysExtrusion ls := by
  intro a l b hab hm _
  rw [he] at hab
  rcases List.append_eq_append_iff.1 hab with ⟨c, h3, _⟩ | ⟨c, h3, h4⟩
  · obtain ⟨k1, m1, p1⟩ := h1
    obtain ⟨k2, m2, p2⟩ := h2
    exact ⟨⟨k1, by rw [h3]; simp [m1], p1⟩, ⟨k2, by rw [h3]; simp [m2], p2⟩⟩
  · cases c with
    | nil =>
      rw [List.append_nil] at h3
      subst h3
      exact ⟨h1, h2⟩
    | cons w c =>
      simp only [List.cons_append, List.cons.injEq] at h4
      exact absurd hm (hp l (by rw [h3, ← h4.1]; simp))

/-- Two programs converted with one object. -/
example : (∀ g ∈ [loadQ reuseB, loadQ reuseC].tail, SaysExtrusion (program g)) ∧
    textsAll (toRelativeEAll [loadQ reuseB, loadQ reuseC]) =
      [[c!"G90", c!"M83", c!"G1 X1.000 Y1.000 E1.00000", c!"G1 X2.000 Y1.000 E1.00000"],
       [c!"; start", c!"G90", c!"M83", c!"G92 E0", c!"G1 X1.000 Y1.000 E1.00000", c!"G1 X2.000 Y1.000 E1.00000", c!"M84"]] := by
  refine ⟨?_, by decide +kernel⟩
  intro g hg
  simp only [List.tail_cons, List.mem_singleton] at hg
  subst hg
  refine saysExtrusion_of (pre := (program (loadQ reuseC)).take 4) (rest := (program (loadQ reuseC)).drop 4) ?_ ?_ ?_ ?_
  · decide +kernel
  · unfold HasCmd; decide +kernel
  · unfold HasCmd; decide +kernel
  · have : ∀ l ∈ (program (loadQ reuseC)).take 4, l.inMoves = false := by decide +kernel
    intro l hl hm
    have := this l hl
    rw [(inMoves_iff l).2 hm] at this
    exact absurd this (by decide)

end GCodeUtils
