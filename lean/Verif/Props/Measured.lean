import Verif.Lemmas.MeasuredRel
import Verif.Props.RelExt
import Verif.Props.Saved

/-
  C114: converting a program to relative extrusion does not change what the analysis says about it.
-/

set_option linter.unusedSectionVars false

namespace GCodeUtils

open Spec

variable {α : Type} [Field α] [LinearOrder α] [IsStrictOrderedRing α] [FloorRing α]

/-- **C114 (partial).**  Load a program, convert it to relative extrusion, write it and load what was written: this works, and the
analysis of the second program is the analysis of the first: filament, bounding box, heights, layer height, and as many lines in the
same layers.  The durations agree too unless an arc has an E word.  The program is in millimetres, is in the class of programs for
which the conversion works at all (`EModeSt`, C31), sets the extruder coordinate only to 0 and only before the first move with an E
word, and the numbers of its moves with an E word have no more decimals than are written.  Missing: the other programs; without the
hypotheses on `G92`, on the class and on the arcs the claim is false, see `C114_reset_refuted`, `C114_mode_refuted` and
`C114_arc_refuted`. -/
theorem C114_analysis_partial {env : Env α} {data : List Str} {home : Home α} {g : GCode α} (h : GCode.load env data false home = .ok g)
    (hne : g.lines ≠ []) (hn : ∀ l ∈ g.lines, '\n' ∉ l.raw) (h20 : ∀ l ∈ g.lines, ¬ HasCmd l c!"G20")
    (hmode : (({} : EModeSt).run g.lines).isSome = true) (hreset : NoReset g.lines)
    (hzero : ∀ l ∈ g.lines, HasCmd l c!"G92" → l.e = none ∨ l.e = some 0)
    (hshort : ∀ l ∈ g.lines, IsMove l → l.e ≠ none → ShortNumbers l) :
    ∃ g' g2, g.toRelativeE = .ok g' ∧ GCode.load env (readlines g'.write) false home = .ok g2 ∧ SameAnalysis g g2 ∧
      ((∀ l ∈ g.lines, HasCmd l c!"G2" ∨ HasCmd l c!"G3" → l.e = none) → SameDuration g g2) := by
  obtain ⟨g', hc, _, hprog⟩ := toRelativeE_program g
  have hfl : g.lines = program g := (load_indexed h).flat
  rw [← hfl] at hprog
  have hsv : ∀ l ∈ program g', Saves l := by
    rw [hprog]
    exact scan_inv (relLine_inv saves_stable) g.lines _ (saves_loaded h h20 hn)
  have hwr : g'.write = ((program g').map (·.raw)).flatMap (fun t => t ++ ['\n']) := by
    unfold GCode.write GCode.allLines; rw [program_def, List.flatMap_map]
  have hread : (readLines (readlines g'.write) : List (PyLine α)) = bare ((program g').map (·.raw)) := by
    rw [hwr, readLines_readlines]
    · rfl
    · intro t ht
      obtain ⟨l, hl, rfl⟩ := List.mem_map.1 ht
      exact (hsv l hl).text
  obtain ⟨t1, ht1⟩ := Option.isSome_iff_exists.1 hmode
  obtain ⟨out, hrun, ho⟩ := load_run' h
  rw [← ho rfl] at hrun
  rcases load_ok h with ⟨rfl, rfl⟩ | ⟨hd, s, hs, hg⟩
  · exact absurd rfl hne
  have hbare : (readLines data : List (PyLine α)) = bare (g.lines.map (·.raw)) := by
    rw [load_raws h]; rfl
  rw [hbare] at hs
  have hm : g.m = s.m := by rw [hg]; rfl
  rw [hm] at hrun
  obtain ⟨bN', k1, fresh', s', C⟩ := conv_fold (A := ∀ l ∈ g.lines, HasCmd l c!"G2" ∨ HasCmd l c!"G3" → l.e = none) (fresh := True) (s := RelSt.init)
    (b' := BuildSt.start (GCode.blank false home)) g.lines
    ⟨⟨rfl, rfl, rfl, rfl, rfl, rfl, rfl, rfl, rfl⟩, rfl, rfl, rfl, fun k => (by cases k), rfl, fun _ => rfl, ⟨0, by simp [RelSt.init]⟩, rfl, rfl,
      ⟨rfl, fun _ => rfl, rfl, rfl, rfl, rfl, rfl, rfl, rfl, rfl, rfl, rfl, rfl, rfl⟩, ⟨rfl, rfl, rfl, rfl, rfl, rfl, fun _ => ⟨rfl, rfl⟩⟩, rfl, fun _ _ => rfl, fun _ => ⟨rfl, rfl⟩⟩
    hs hrun ht1 h20 hshort hzero (fun l hl a => a l hl) hreset (.inl trivial)
  rw [← hprog, ← hread] at k1
  have hne2 : readlines g'.write ≠ [] := by
    intro e
    have : (bare ((program g').map (·.raw)) : List (PyLine α)).length = 0 := by rw [← hread, e]; rfl
    rw [bare, List.length_map, List.length_map, hprog, scan_length] at this
    exact hne (List.length_eq_zero_iff.1 this)
  have hl2 : GCode.load env (readlines g'.write) false home = .ok (finalize (GCode.blank false home) bN') := by
    unfold GCode.load prepare preprocessAll
    rw [if_neg (by simpa [List.isEmpty_iff] using hne2)]
    have k1' := k1
    simp only [GCode.blank] at k1' ⊢
    rw [k1']
  refine ⟨g', _, hc, hl2, ?_⟩
  have fin := conv_finalize (GCode.blank false home) C
  rw [← hg] at fin
  exact fin

theorem noReset_of {pre post : List (PyLine α)} (h1 : ∀ l ∈ pre, IsMove l → l.e = none) (h2 : ∀ k ∈ post, ¬ RelabelsE k) : NoReset (pre ++ post) := by
  intro a l b e hm he k hk
  rcases List.append_eq_append_iff.1 e with ⟨u, rfl, hu⟩ | ⟨u, hp, hu⟩
  · exact h2 k (by rw [hu]; simp [hk])
  · cases u with
    | nil => exact h2 k (by rw [← List.nil_append post, ← hu]; simp [hk])
    | cons c u =>
      simp only [List.cons_append, List.cons.injEq] at hu
      exact absurd (h1 l (by rw [hp, ← hu.1]; simp) hm) he

/-- A program in absolute extrusion with a reset before the first extrusion, a retraction, two layers and a relative tail. -/
def measured : List Str :=
  [c!"G21", c!"M82", c!"G28", c!"G1 Z0.2 F600", c!"G92 E0", c!"G1 X10 Y10 F3000", c!"G1 X20 E1.5 F1500", c!"G4 P20", c!"G1 E0.5 F2400", c!"G1 Z0.4", c!"G1 E1.5",
    c!"G1 X20 Y20 E2.25", c!"M83", c!"G1 X10 E0.75"]

/-- The written conversion of a program, as a list of texts. -/
def relTexts (data : List Str) : List Str := texts (relQ (loadQ data))

/-- The program meets the conditions; filament, box and times before and after. -/
example : GCode.load qEnv measured = .ok (loadQ measured) ∧ (loadQ measured).lines ≠ [] ∧ (∀ l ∈ (loadQ measured).lines, '\n' ∉ l.raw) ∧
    (∀ l ∈ (loadQ measured).lines, ¬ HasCmd l c!"G20") ∧ (({} : EModeSt).run (loadQ measured).lines).isSome = true ∧ NoReset (loadQ measured).lines ∧
    (∀ l ∈ (loadQ measured).lines, HasCmd l c!"G92" → l.e = none ∨ l.e = some 0) ∧ (∀ l ∈ (loadQ measured).lines, HasCmd l c!"G2" ∨ HasCmd l c!"G3" → l.e = none) ∧
    (loadQ measured).filamentLength = some 3 ∧ (againQ (relQ (loadQ measured))).filamentLength = some 3 ∧
    (againQ (relQ (loadQ measured))).allLayers.map (fun L => (L.z, L.lines.length, L.duration)) =
      [(none, 3, some (1 / 40)), (some (1 / 5), 6, some (71 / 80)), (some (2 / 5), 5, some (117 / 200)), (none, 0, some 0)] ∧
    relTexts measured = [c!"G21", c!"M83", c!"G28", c!"G1 Z0.2 F600", c!"G92 E0", c!"G1 X10 Y10 F3000", c!"G1 X20.000 E1.50000 F1500.000", c!"G4 P20", c!"G1 E-1.00000 F2400.000",
      c!"G1 Z0.4", c!"G1 E1.00000", c!"G1 X20.000 Y20.000 E0.75000", c!"M83", c!"G1 X10 E0.75"] := by
  refine ⟨by decide +kernel, by decide +kernel, by decide +kernel, by unfold HasCmd; decide +kernel, by decide +kernel, ?_, by unfold HasCmd; decide +kernel,
    by unfold HasCmd; decide +kernel, by decide +kernel, by decide +kernel, by decide +kernel, by decide +kernel⟩
  rw [← List.take_append_drop 5 (loadQ measured).lines]
  exact noReset_of (by decide +kernel) (by unfold RelabelsE HasCmd; decide +kernel)

/-- Its numbers are short. -/
example : ∀ l ∈ (loadQ measured).lines, IsMove l → l.e ≠ none → ShortNumbers l := by
  have hk : ∀ l ∈ (loadQ measured).lines, (∀ o ∈ [l.x, l.y, l.z, l.f, l.i, l.j], ∀ v ∈ o.toList, v * 10 ^ 3 = ((⌊v * 10 ^ 3⌋ : ℤ) : ℚ)) ∧
      ∀ v ∈ l.e.toList, v * 10 ^ 5 = ((⌊v * 10 ^ 5⌋ : ℤ) : ℚ) := by decide +kernel
  intro l hl _ _
  obtain ⟨h1, h2⟩ := hk l hl
  refine ⟨fun o ho v hv => ⟨⌊v * 10 ^ 3⌋, ?_⟩, fun v hv => ⟨⌊v * 10 ^ 5⌋, ?_⟩⟩
  · rw [← h1 o ho v (by simp [hv])]; field_simp
  · rw [← h2 v (by simp [hv])]; field_simp

/-- The usual reset of the extruder coordinate between two extrusions. -/
def resetBetween : List Str := [c!"M82", c!"G1 X10 Y0 F600", c!"G1 X20 E5", c!"G92 E0", c!"G1 X30 E4", c!"G1 X40 E5"]

/-- **C114 is false** for programs that reset the extruder coordinate after an extrusion: the analysis of the original counts 5 mm of
filament, that of the conversion the 10 mm actually used. -/
theorem C114_reset_refuted :
    GCode.load qEnv resetBetween = .ok (loadQ resetBetween) ∧ (loadQ resetBetween).toRelativeE = .ok (relQ (loadQ resetBetween)) ∧
    GCode.load qEnv (readlines (relQ (loadQ resetBetween)).write) = .ok (againQ (relQ (loadQ resetBetween))) ∧
    (({} : EModeSt).run (loadQ resetBetween).lines).isSome = true ∧ (∀ l ∈ (loadQ resetBetween).lines, ¬ HasCmd l c!"G20") ∧
    (∀ l ∈ (loadQ resetBetween).lines, HasCmd l c!"G92" → l.e = none ∨ l.e = some 0) ∧
    (loadQ resetBetween).filamentLength = some 5 ∧ (againQ (relQ (loadQ resetBetween))).filamentLength = some 10 ∧ pushedBy resetBetween = 10 ∧
    ¬ SameAnalysis (loadQ resetBetween) (againQ (relQ (loadQ resetBetween))) := by
  have h1 : (loadQ resetBetween).filamentLength = some 5 := by decide +kernel
  have h2 : (againQ (relQ (loadQ resetBetween))).filamentLength = some 10 := by decide +kernel
  refine ⟨by decide +kernel, by decide +kernel, by decide +kernel, by decide +kernel, by unfold HasCmd; decide +kernel, by unfold HasCmd; decide +kernel, h1, h2, by decide +kernel, ?_⟩
  intro h
  have := h.filament
  rw [h1, h2] at this
  exact absurd this (by decide)

/-- `G90` after `M82`. -/
def modeAgain : List Str := [c!"M82", c!"G90", c!"G1 X10 Y0 F600", c!"G1 X20 E5", c!"G1 X30 E9"]

/-- **C114 is false** for programs with a `G90` after the `M82`: the loader takes `G90` as a change of the extrusion mode too, and so
reads the converted amounts as positions. -/
theorem C114_mode_refuted :
    GCode.load qEnv modeAgain = .ok (loadQ modeAgain) ∧ (loadQ modeAgain).toRelativeE = .ok (relQ (loadQ modeAgain)) ∧
    GCode.load qEnv (readlines (relQ (loadQ modeAgain)).write) = .ok (againQ (relQ (loadQ modeAgain))) ∧
    (({} : EModeSt).run (loadQ modeAgain).lines).isSome = false ∧ (∀ l ∈ (loadQ modeAgain).lines, ¬ HasCmd l c!"G92" ∧ ¬ HasCmd l c!"G20") ∧
    (loadQ modeAgain).filamentLength = some 9 ∧ (againQ (relQ (loadQ modeAgain))).filamentLength = some 5 ∧
    (loadQ modeAgain).xmax = some 30 ∧ (againQ (relQ (loadQ modeAgain))).xmax = some 20 ∧
    ¬ SameAnalysis (loadQ modeAgain) (againQ (relQ (loadQ modeAgain))) := by
  have h1 : (loadQ modeAgain).filamentLength = some 9 := by decide +kernel
  have h2 : (againQ (relQ (loadQ modeAgain))).filamentLength = some 5 := by decide +kernel
  refine ⟨by decide +kernel, by decide +kernel, by decide +kernel, by decide +kernel, by unfold HasCmd; decide +kernel, h1, h2, by decide +kernel, by decide +kernel, ?_⟩
  intro h
  have := h.filament
  rw [h1, h2] at this
  exact absurd this (by decide)

/-- A retraction after an arc that extrudes. -/
def arcRetract : List Str := [c!"M82", c!"G1 X10 Y0 F600", c!"G2 X20 I5 E5", c!"G1 E4"]

/-- **The durations differ** if an arc has an E word: the estimate ignores arcs, and takes the retraction of 1 mm in the original for an
extrusion of 4 mm. -/
theorem C114_arc_refuted :
    GCode.load qEnv arcRetract = .ok (loadQ arcRetract) ∧ (loadQ arcRetract).toRelativeE = .ok (relQ (loadQ arcRetract)) ∧
    GCode.load qEnv (readlines (relQ (loadQ arcRetract)).write) = .ok (againQ (relQ (loadQ arcRetract))) ∧
    (({} : EModeSt).run (loadQ arcRetract).lines).isSome = true ∧ (∀ l ∈ (loadQ arcRetract).lines, ¬ HasCmd l c!"G92" ∧ ¬ HasCmd l c!"G20") ∧
    (loadQ arcRetract).allLayers.map (·.duration) = [some (141 / 100), some 0] ∧
    (againQ (relQ (loadQ arcRetract))).allLayers.map (·.duration) = [some (111 / 100), some 0] ∧
    ¬ SameDuration (loadQ arcRetract) (againQ (relQ (loadQ arcRetract))) := by
  have h1 : (loadQ arcRetract).allLayers.map (·.duration) = [some (141 / 100), some 0] := by decide +kernel
  have h2 : (againQ (relQ (loadQ arcRetract))).allLayers.map (·.duration) = [some (111 / 100), some 0] := by decide +kernel
  refine ⟨by decide +kernel, by decide +kernel, by decide +kernel, by decide +kernel, by unfold HasCmd; decide +kernel, h1, h2, ?_⟩
  intro h
  have := h.2
  rw [h1, h2] at this
  revert this
  decide +kernel

end GCodeUtils
