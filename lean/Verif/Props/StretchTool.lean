import Verif.Lemmas.StretchTool
import Verif.Props.StretchTrack

/-
  C92: the command line `gcode_stretch` displaces the loops that the slicer announces.
-/

set_option linter.unusedSectionVars false

namespace GCodeUtils

open Spec

variable {α : Type} [Field α] [LinearOrder α] [IsStrictOrderedRing α] [FloorRing α]

/-- The steps of the command line. -/
theorem pipeline_steps {sqrt : α → α} {fuel : ℕ} {repo : StretchRepo α} {profile : ProfileOracle α} {env : Env α} {data : List Str} {g : GCode α}
    {text : Str} (hg : GCode.load env data = .ok g) (h : stretchPipeline env sqrt fuel repo profile data = .ok text) :
    ∃ g1 g2 d ann, g.toRelativeE = .ok g1 ∧ program g1 = (scan relLine RelSt.init (program g)).2 ∧
      setupFilter (if ∃ l ∈ program g1, c!"CURA_PROFILE_STRING" <:+: l.raw then Slicer.cura else Slicer.slic3r) repo profile g1.allLayers = .ok (d, ann) ∧
      g1.stretch sqrt fuel (if ∃ l ∈ program g1, c!"CURA_PROFILE_STRING" <:+: l.raw then Slicer.cura else Slicer.slic3r) repo profile = .ok g2 ∧
      text = g2.write := by
  obtain ⟨g1, hr, -, hp1⟩ := toRelativeE_program g
  unfold stretchPipeline at h
  rw [hg] at h
  simp only [bind, Except.bind] at h
  rw [hr] at h
  simp only at h
  have hsl : (if isCuraGcode g1 then Slicer.cura else Slicer.slic3r) =
      (if ∃ l ∈ program g1, c!"CURA_PROFILE_STRING" <:+: l.raw then Slicer.cura else Slicer.slic3r) := by
    have : isCuraGcode g1 = true ↔ ∃ l ∈ program g1, c!"CURA_PROFILE_STRING" <:+: l.raw := by
      rw [isCuraGcode, GCode.allLines, ← program_def, List.any_eq_true]
      simp only [hasSub_iff]
    by_cases hc : isCuraGcode g1 = true
    · rw [if_pos hc, if_pos (this.1 hc)]
    · rw [if_neg hc, if_neg (fun h => hc (this.2 h))]
  rw [hsl] at h
  cases hst : g1.stretch sqrt fuel (if ∃ l ∈ program g1, c!"CURA_PROFILE_STRING" <:+: l.raw then Slicer.cura else Slicer.slic3r) repo profile with
  | error er => rw [hst] at h; cases h
  | ok g2 =>
    rw [hst] at h
    simp only [Except.ok.injEq] at h
    obtain ⟨d, ann, ha⟩ := stretch_setup hst
    exact ⟨g1, g2, d, ann, hr, hp1, ha, hst, h.symm⟩

theorem nthLayer_of {Ls : List (Layer α)} {i : ℕ} {L : Layer α} (h : Ls[i]? = some L) : nthLayer Ls i = L.lines := by
  unfold nthLayer; rw [h]; rfl

/-- **C92** (partial), Cura.  In the output of the command line, each move of an announced wall or skin is displaced, by no more than the
stretch distance of its kind of loop; each other line is the converted line, apart from marks at its end.  The announcements are those of the original
program.  Missing: programs with announcements in lines that the conversion writes anew, and those of C82. -/
theorem C92_cura_partial {ε : α} {sqrt : α → α} (hs : IsSqrt ε sqrt) {fuel : ℕ} {cross loop inside outside dist strength : α}
    {profile : ProfileOracle α} {env : Env α} {data : List Str} {g : GCode α} {text : Str}
    (hg : GCode.load env data = .ok g)
    (h : stretchPipeline env sqrt fuel (StretchRepo.make cross loop inside outside dist strength) profile data = .ok text)
    (hc : ∃ l ∈ program g, c!"CURA_PROFILE_STRING" <:+: l.raw)
    (hT : ∀ l ∈ program g, Silent c!"TYPE:" l ∧ Silent c!"CURA_PROFILE_STRING" l) (hu : ∀ L ∈ g.allLayers, Unmarked L.lines) :
    ∃ (g1 g2 : GCode α) (d : Option (StretchDist α)) (ann : List (Layer α)) (w : α), g.toRelativeE = .ok g1 ∧
      setupFilter .cura (StretchRepo.make cross loop inside outside dist strength) profile g1.allLayers = .ok (d, ann) ∧ text = g2.write ∧
      WidthUsed .cura profile (program g1) (linesOf ann) w ∧
      ∀ (i n : ℕ) (L : Layer α) (l : PyLine α), Followable .cura g.allLayers i → g.allLayers[i]? = some L → L.lines[n]? = some l →
        ∃ l1 l', (nthLayer g1.allLayers i)[n]? = some l1 ∧ (nthLayer g2.allLayers i)[n]? = some l' ∧
          (∀ k, Spec.announced .cura g.allLayers i n = some k → XYMove l → 0 < w * (ratio loop inside outside k * strength) →
            Pushed ε (w * (ratio loop inside outside k * strength)) l l') ∧
          ((∀ k, Spec.announced .cura g.allLayers i n = some k → XYMove l → ¬ 0 < w * (ratio loop inside outside k * strength)) → OnlyMarked l1 l') := by
  obtain ⟨g1, g2, d, ann, hr, hp1, ha, hst, ht⟩ := pipeline_steps hg h
  have hconv := toRelativeE_conv hr
  have hc1 : ∃ l ∈ program g1, c!"CURA_PROFILE_STRING" <:+: l.raw := by
    obtain ⟨l, hl, hl'⟩ := hc
    obtain ⟨i, hi⟩ := List.mem_iff_getElem?.1 hl
    have hf := scan_conv (program g) RelSt.init
    rw [← hp1] at hf
    obtain ⟨b, hb, hcb⟩ := forall₂_get hf hi
    exact ⟨b, List.mem_of_getElem? hb, (conv_infix (List.infix_refl _) (by decide) hcb (hT l hl).2).2 hl'⟩
  rw [if_pos hc1] at ha hst
  have hmem : ∀ L ∈ g.allLayers, ∀ l ∈ L.lines, l ∈ program g := by
    intro L hL l hl
    rw [program_def]
    exact List.mem_flatMap.2 ⟨L, hL, hl⟩
  have hu1 : ∀ L ∈ g1.allLayers, Unmarked L.lines := by
    intro L hL
    obtain ⟨i, hi⟩ := List.mem_iff_getElem?.1 hL
    obtain ⟨hi1, hb'⟩ := List.getElem?_eq_some_iff.1 hi
    have hi' : i < g.allLayers.length := by rw [hconv.length_eq]; exact hi1
    have hcv := hconv.get hi' hi1
    simp only [List.get_eq_getElem, hb'] at hcv
    exact conv_unmarked hcv.2 (hu _ (List.getElem_mem _))
  obtain ⟨w, hw, hall⟩ := C82_announced_partial hs ha hst hu1
  rw [show linesOf g1.allLayers = program g1 from (program_def g1).symm] at hw
  refine ⟨g1, g2, d, ann, w, hr, ha, ht, hw, ?_⟩
  intro i n L l hf hL hl
  obtain ⟨L1, hL1, hcv⟩ := forall₂_get hconv hL
  obtain ⟨l1, hl1, hcl⟩ := forall₂_get hcv.2 hl
  have hf1 : Followable .cura g1.allLayers i := by
    intro M hM
    obtain ⟨j, hj⟩ := List.mem_iff_getElem?.1 hM
    rw [List.getElem?_take] at hj
    split_ifs at hj with hji
    obtain ⟨hj1, hb'⟩ := List.getElem?_eq_some_iff.1 hj
    have hj' : j < g.allLayers.length := by rw [hconv.length_eq]; exact hj1
    have hcv := hconv.get hj' hj1
    simp only [List.get_eq_getElem, hb'] at hcv
    have hmm : g.allLayers[j] ∈ g.allLayers := List.getElem_mem _
    refine conv_followable hcv.2 (fun a ha => (hT a (hmem _ hmm a ha)).1) (hf _ ?_)
    exact List.mem_iff_getElem?.2 ⟨j, by rw [List.getElem?_take, if_pos hji]; exact List.getElem?_eq_getElem hj'⟩
  obtain ⟨L', l', hL', hl', hpush, hkeep⟩ := hall i n L1 l1 hf1 hL1 hl1
  have hann : Spec.announced .cura g1.allLayers i n = Spec.announced .cura g.allLayers i n := by
    show curaKind (nthLayer g1.allLayers i) n = curaKind (nthLayer g.allLayers i) n
    rw [nthLayer_of hL, nthLayer_of hL1]
    refine curaKind_congr (forall₂_map_eq (P := Silent c!"TYPE:") (fun a b hab hs => conv_curaSaid hab hs) hcv.2 ?_) n
    exact fun a ha => (hT a (hmem L (List.mem_of_getElem? hL) a ha)).1
  have hxy : XYMove l1 ↔ XYMove l := by
    rcases hcl with rfl | ⟨-, -, e, -⟩
    · exact Iff.rfl
    · exact e
  refine ⟨l1, l', by rw [nthLayer_of hL1]; exact hl1, by rw [nthLayer_of hL']; exact hl', ?_, ?_⟩
  · intro k hk hx hpos
    obtain ⟨m, dx, dy, e1, e2, e3, e4, e5⟩ := hpush k (by rw [hann]; exact hk) (hxy.2 hx) hpos
    have hsame : l1.command = l.command ∧ l1.x = l.x ∧ l1.y = l.y := by
      rcases hcl with rfl | ⟨-, -, -, e⟩
      · exact ⟨rfl, rfl, rfl⟩
      · exact e hx
    exact ⟨m, dx, dy, e1, e2.trans hsame.1, fun x hx => e3 x (by rw [hsame.2.1]; exact hx), fun y hy => e4 y (by rw [hsame.2.2]; exact hy), e5⟩
  · intro hno
    exact hkeep (fun k hk hx => hno k (by rw [← hann]; exact hk) (hxy.1 hx))

/-- **C92** (partial), Slic3r with relative extrusion from the beginning: as for Cura. -/
theorem C92_slic3r_partial {ε : α} {sqrt : α → α} (hs : IsSqrt ε sqrt) {fuel : ℕ} {cross loop inside outside dist strength : α}
    {profile : ProfileOracle α} {env : Env α} {data : List Str} {g : GCode α} {text : Str}
    (hg : GCode.load env data = .ok g)
    (h : stretchPipeline env sqrt fuel (StretchRepo.make cross loop inside outside dist strength) profile data = .ok text)
    (hc : ∀ l ∈ program g, ¬ c!"CURA_PROFILE_STRING" <:+: l.raw) (h82 : ∀ l ∈ program g, ¬ HasCmd l c!"M82")
    (h83 : ∀ pre l post, program g = pre ++ l :: post → IsMove l → l.e ≠ none → ∃ m ∈ pre, HasCmd m c!"M83")
    (hu : ∀ L ∈ g.allLayers, Unmarked L.lines) :
    ∃ (g2 : GCode α) (d : Option (StretchDist α)) (ann : List (Layer α)) (w : α), setupFilter .slic3r (StretchRepo.make cross loop inside outside dist strength) profile g.allLayers = .ok (d, ann) ∧
      text = g2.write ∧ WidthUsed .slic3r profile (program g) (linesOf ann) w ∧
      ∀ (i n : ℕ) (L : Layer α) (l : PyLine α), Followable .slic3r g.allLayers i → g.allLayers[i]? = some L → L.lines[n]? = some l →
        ∃ l', (nthLayer g2.allLayers i)[n]? = some l' ∧
          (∀ k, Spec.announced .slic3r g.allLayers i n = some k → XYMove l → 0 < w * (ratio loop inside outside k * strength) →
            Pushed ε (w * (ratio loop inside outside k * strength)) l l') ∧
          ((∀ k, Spec.announced .slic3r g.allLayers i n = some k → XYMove l → ¬ 0 < w * (ratio loop inside outside k * strength)) → OnlyMarked l l') := by
  obtain ⟨g1, g2, d, ann, hr, hp1, ha, hst, ht⟩ := pipeline_steps hg h
  rw [scan_relative (program g) h82 _ (.inr h83)] at hp1
  have hg1 : g1 = g := by
    rw [toRelativeE_eq, Except.ok.injEq] at hr
    rw [← hr, scanLayers_id g.allLayers _ (by rw [← program_def]; exact scan_relative (program g) h82 _ (.inr h83))]
  subst hg1
  rw [if_neg (by push Not; exact hc)] at ha hst
  obtain ⟨w, hw, hall⟩ := C82_announced_partial hs ha hst hu
  rw [show linesOf g1.allLayers = program g1 from (program_def g1).symm] at hw
  refine ⟨g2, d, ann, w, ha, ht, hw, ?_⟩
  intro i n L l hf hL hl
  obtain ⟨L', l', hL', hl', hpush, hkeep⟩ := hall i n L l hf hL hl
  exact ⟨l', by rw [nthLayer_of hL']; exact hl', hpush, hkeep⟩

theorem marked_flat {A B : List (Layer α)} (h : List.Forall₂ (fun L L' => List.Forall₂ OnlyMarked L.lines L'.lines) A B) :
    List.Forall₂ OnlyMarked (A.flatMap (·.lines)) (B.flatMap (·.lines)) := by
  induction h with
  | nil => exact .nil
  | cons h1 _ ih => rw [List.flatMap_cons, List.flatMap_cons]; exact List.rel_append h1 ih

/-- **C92** is refuted for every Slic3r program with absolute extrusion throughout: if the perimeter comments stand on moves with E word, as Slic3r writes them,
the conversion to relative extrusion removes them before the stretch filter looks for them, and the command line displaces nothing at all. -/
theorem C92_refuted_absolute {ε : α} {sqrt : α → α} (hs : IsSqrt ε sqrt) {fuel : ℕ} {cross loop inside outside dist strength : α}
    {profile : ProfileOracle α} {env : Env α} {data : List Str} {g : GCode α} {text : Str}
    (hg : GCode.load env data = .ok g)
    (h : stretchPipeline env sqrt fuel (StretchRepo.make cross loop inside outside dist strength) profile data = .ok text)
    (hc : ∀ l ∈ program g, ¬ c!"CURA_PROFILE_STRING" <:+: l.raw) (h83 : ∀ l ∈ program g, ¬ HasCmd l c!"M83")
    (hp : ∀ l ∈ program g, c!"; perimeter" <:+: l.raw → IsMove l ∧ l.e ≠ none) (hu : ∀ L ∈ g.allLayers, Unmarked L.lines) :
    ∃ g1 g2, g.toRelativeE = .ok g1 ∧ text = g2.write ∧ List.Forall₂ OnlyMarked (program g1) (program g2) := by
  obtain ⟨g1, g2, d, ann, hr, hp1, ha, hst, ht⟩ := pipeline_steps hg h
  have hconv := toRelativeE_conv hr
  have hno : ∀ l ∈ program g1, ¬ c!"; perimeter" <:+: l.raw := by
    rw [hp1]
    exact scan_loses (by decide) (program g) h83 hp _ rfl
  have hc1 : ¬ ∃ l ∈ program g1, c!"CURA_PROFILE_STRING" <:+: l.raw := by
    rintro ⟨l, hl, hl'⟩
    obtain ⟨i, hi⟩ := List.mem_iff_getElem?.1 hl
    have hf := (scan_conv (program g) RelSt.init)
    rw [← hp1] at hf
    obtain ⟨hi1, hb'⟩ := List.getElem?_eq_some_iff.1 hi
    have hi' : i < (program g).length := by rw [hf.length_eq]; exact hi1
    have hcv := hf.get hi' hi1
    simp only [List.get_eq_getElem, hb'] at hcv
    rcases hcv with e | ⟨-, e, -⟩
    · exact hc _ (List.getElem_mem hi') (e ▸ hl')
    · exact e.not_infix (by decide) hl'
  rw [if_neg hc1] at ha hst
  have hu1 : ∀ L ∈ g1.allLayers, Unmarked L.lines := by
    intro L hL
    obtain ⟨i, hi⟩ := List.mem_iff_getElem?.1 hL
    obtain ⟨hi1, hb'⟩ := List.getElem?_eq_some_iff.1 hi
    have hi' : i < g.allLayers.length := by rw [hconv.length_eq]; exact hi1
    have hcv := hconv.get hi' hi1
    simp only [List.get_eq_getElem, hb'] at hcv
    exact conv_unmarked hcv.2 (hu _ (List.getElem_mem _))
  obtain ⟨w, hw, hall⟩ := C82_announced_partial hs ha hst hu1
  refine ⟨g1, g2, hr, ht, ?_⟩
  obtain ⟨-, -, -, hsh, -⟩ := stretch_lines hs ha hst
  have hsh' := layer_shape (setupFilter_marked ha) hsh
  have hlay : List.Forall₂ (fun L L' => List.Forall₂ OnlyMarked L.lines L'.lines) g1.allLayers g2.allLayers := by
    rw [List.forall₂_iff_get]
    refine ⟨hsh'.length_eq, fun i h1 h2 => ?_⟩
    have hlen := hsh'.get h1 h2
    simp only [List.get_eq_getElem] at hlen ⊢
    rw [List.forall₂_iff_get]
    refine ⟨hlen.2.2.symm, fun n k1 k2 => ?_⟩
    have hnone : ∀ (j : ℕ) (M : Layer α), g1.allLayers[j]? = some M → ∀ k ∈ slic3rKinds none 0 M.lines, k = none := by
      intro j M hM
      refine slic3r_nothing _ (fun l hl => hno l ?_) 0
      rw [program_def]
      exact List.mem_flatMap.2 ⟨M, List.mem_of_getElem? hM, hl⟩
    have hf : Followable .slic3r g1.allLayers i := by
      intro M hM
      obtain ⟨j, hj⟩ := List.mem_iff_getElem?.1 hM
      rw [List.getElem?_take] at hj
      split_ifs at hj with hji
      unfold Finished
      cases hq : (slic3rKinds none 0 M.lines).getLast? with
      | none => rfl
      | some k => exact hnone j M hj k (List.mem_of_getLast? hq)
    have hL1 : g1.allLayers[i]? = some g1.allLayers[i] := List.getElem?_eq_getElem h1
    have hn : Spec.announced .slic3r g1.allLayers i n = none := by
      show (slic3rKinds none 0 (nthLayer g1.allLayers i))[n]?.join = none
      rw [nthLayer_of hL1]
      cases hq : (slic3rKinds none 0 g1.allLayers[i].lines)[n]? with
      | none => rfl
      | some k => exact hnone i _ hL1 k (List.mem_of_getElem? hq)
    obtain ⟨L', l', hL', hl', -, hkeep⟩ := hall i n _ g1.allLayers[i].lines[n] hf hL1 (List.getElem?_eq_getElem k1)
    rw [List.getElem?_eq_getElem h2, Option.some.injEq] at hL'
    subst hL'
    rw [List.getElem?_eq_getElem k2, Option.some.injEq] at hl'
    simp only [List.get_eq_getElem]
    rw [hl']
    exact hkeep (fun k hk => by rw [hn] at hk; cases hk)
  rw [program_def, program_def]
  exact marked_flat hlay

/-- A Slic3r program with absolute extrusion. -/
def absoluteS : List Str :=
  [c!"M82", c!"G92 E0", c!"G1 Z0.3 F7800", c!"G1 X0 Y0 F7800 ; move to first perimeter point",
   c!"G1 X1 Y0 E1 F1200 ; perimeter external", c!"G1 X1 Y1 E2 ; perimeter external", c!"G1 X0 Y1 E3 ; perimeter external",
   c!"G1 X0 Y0 E4 ; perimeter external", c!"G1 X20 Y20 F7800 ; move to first infill point", c!"G1 X30 Y20 E5 ; infill"]

/-- The same with relative extrusion. -/
def relativeS : List Str :=
  [c!"M83", c!"G92 E0", c!"G1 Z0.3 F7800", c!"G1 X0 Y0 F7800 ; move to first perimeter point",
   c!"G1 X1 Y0 E1 F1200 ; perimeter external", c!"G1 X1 Y1 E1 ; perimeter external", c!"G1 X0 Y1 E1 ; perimeter external",
   c!"G1 X0 Y0 E1 ; perimeter external", c!"G1 X20 Y20 F7800 ; move to first infill point", c!"G1 X30 Y20 E1 ; infill"]

/-- The output of the command line. -/
def toolQ (data : List Str) : Str := okOr [] (stretchPipeline qEnv rSqrt 100 (StretchRepo.default 1) noProfile data)

/-- The hypotheses of `C92_refuted_absolute`, and four announced perimeter moves that are not displaced. -/
example : GCode.load qEnv absoluteS = .ok (loadQ absoluteS) ∧
    stretchPipeline qEnv rSqrt 100 (StretchRepo.default 1) noProfile absoluteS = .ok (toolQ absoluteS) ∧
    (∀ l ∈ program (loadQ absoluteS), ¬ c!"CURA_PROFILE_STRING" <:+: l.raw) ∧ (∀ l ∈ program (loadQ absoluteS), ¬ HasCmd l c!"M83") ∧
    (∀ l ∈ program (loadQ absoluteS), c!"; perimeter" <:+: l.raw → IsMove l ∧ l.e ≠ none) ∧
    (∀ L ∈ (loadQ absoluteS).allLayers, Unmarked L.lines) ∧
    Spec.announced .slic3r (loadQ absoluteS).allLayers 1 2 = some .outer ∧
    (nthLayer (loadQ absoluteS).allLayers 1)[2]?.map (·.raw) = some c!"G1 X1 Y0 E1 F1200 ; perimeter external" ∧
    (readlines (toolQ absoluteS)).take 6 = [c!"M83\n", c!"G92 E0\n", c!"G1 Z0.3 F7800\n", c!"G1 X0 Y0 F7800 ; move to first perimeter point\n",
      c!"G1 X1.000 Y0.000 E1.00000 F1200.000 ; stretch-extrusion-on\n", c!"G1 X1.000 Y1.000 E1.00000\n"] := by
  refine ⟨by decide +kernel, by decide +kernel, by decide +kernel, by decide +kernel, by decide +kernel, by unfold Unmarked; decide +kernel,
    by decide +kernel, by decide +kernel, by decide +kernel⟩

/-- The hypotheses of `C92_slic3r_partial`: the same perimeter is displaced. -/
example : GCode.load qEnv relativeS = .ok (loadQ relativeS) ∧
    stretchPipeline qEnv rSqrt 100 (StretchRepo.default 1) noProfile relativeS = .ok (toolQ relativeS) ∧
    (∀ l ∈ program (loadQ relativeS), ¬ c!"CURA_PROFILE_STRING" <:+: l.raw) ∧ (∀ l ∈ program (loadQ relativeS), ¬ HasCmd l c!"M82") ∧
    (∀ pre l post, program (loadQ relativeS) = pre ++ l :: post → IsMove l → l.e ≠ none → ∃ m ∈ pre, HasCmd m c!"M83") ∧
    (∀ L ∈ (loadQ relativeS).allLayers, Unmarked L.lines) ∧ Followable .slic3r (loadQ relativeS).allLayers 1 ∧
    Spec.announced .slic3r (loadQ relativeS).allLayers 1 3 = some .outer ∧
    (readlines (toolQ relativeS))[5]? = some c!"G1 X1.024 Y1.024 E0.96606 F1200.000\n" := by
  have h : ∃ a as, program (loadQ relativeS) = a :: as ∧ HasCmd a c!"M83" := by
    cases hq : program (loadQ relativeS) with
    | nil => exact absurd hq (by decide +kernel)
    | cons a as =>
      refine ⟨a, as, rfl, ?_⟩
      have : ∀ a ∈ (program (loadQ relativeS)).head?, HasCmd a c!"M83" := by decide +kernel
      exact this a (by rw [hq]; rfl)
  refine ⟨by decide +kernel, by decide +kernel, by decide +kernel, by decide +kernel, ?_, by unfold Unmarked; decide +kernel,
    ?_, by decide +kernel, by decide +kernel⟩
  · intro pre l post he hm hE
    obtain ⟨a, as, h1, h2⟩ := h
    cases pre with
    | nil =>
      rw [he, List.nil_append, List.cons.injEq] at h1
      rw [h1.1] at hm
      obtain ⟨c, hc, hcc⟩ := hm
      rw [HasCmd, hcc, Option.some.injEq] at h2
      rw [h2] at hc
      simp at hc
    | cons b pre =>
      rw [he, List.cons_append, List.cons.injEq] at h1
      exact ⟨b, by simp, by rw [h1.1]; exact h2⟩
  · have : ∀ L ∈ (loadQ relativeS).allLayers.take 1, (slic3rKinds none 0 L.lines).getLast?.join = none := by decide +kernel
    exact this

/-- The hypotheses of `C92_cura_partial` on the program of C91. -/
example : GCode.load qEnv followC = .ok (loadQ followC) ∧
    stretchPipeline qEnv rSqrt 100 (StretchRepo.default 1) noProfile followC = .ok (toolQ followC) ∧
    (∃ l ∈ program (loadQ followC), c!"CURA_PROFILE_STRING" <:+: l.raw) ∧
    (∀ l ∈ program (loadQ followC), Silent c!"TYPE:" l ∧ Silent c!"CURA_PROFILE_STRING" l) ∧
    (∀ L ∈ (loadQ followC).allLayers, Unmarked L.lines) ∧ Followable .cura (loadQ followC).allLayers 1 ∧
    Spec.announced .cura (loadQ followC).allLayers 1 4 = some .outer ∧ Spec.announced .cura (loadQ followC).allLayers 1 9 = none := by
  refine ⟨by decide +kernel, by decide +kernel, by decide +kernel, by decide +kernel, by unfold Unmarked; decide +kernel, ?_,
    by decide +kernel, by decide +kernel⟩
  have h : ∀ L ∈ (loadQ followC).allLayers.take 2, ∀ i ∈ List.range L.lines.length, ∀ l ∈ L.lines[i]?, ∀ l' ∈ L.lines[i + 1]?, OpensType l →
      ¬ AnyType l' ∧ i + 2 < L.lines.length := by unfold AnyType OpensType; decide +kernel
  have h2 : ∀ L ∈ (loadQ followC).allLayers.take 2, ∀ l ∈ L.lines.getLast?, ¬ XYMove l := by decide +kernel
  have h3 : ∀ L ∈ (loadQ followC).allLayers.take 2, ∀ l ∈ L.lines, c!";TYPE:" <+: l.raw → AnyType l := by unfold AnyType OpensType; decide +kernel
  intro L hL
  exact ⟨fun i l l' hl hl' => h L hL i (List.mem_range.2 (List.getElem?_eq_some_iff.1 hl).1) l hl l' hl', fun l hl => h2 L hL l hl, h3 L hL⟩

end GCodeUtils
