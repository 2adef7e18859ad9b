import Verif.Model.Alias
import Verif.Props.RelExt
import Verif.Props.Stretch
import Verif.Props.ArcGeometry
import Verif.Lemmas.StretchTool

set_option linter.unusedSectionVars false

/-
  C93: what a caller who goes on iterating over the program object sees after a filter.
-/

namespace GCodeUtils

open Spec

variable {α : Type} [Field α] [LinearOrder α] [IsStrictOrderedRing α] [FloorRing α]

theorem objectsAfter_scan {σ : Type} {P : σ → Prop} {F : OpFilter σ α} {f : σ → PyLine α → σ × PyLine α} {obj : σ → PyLine α → PyLine α}
    (h : OneToOne P F f) (Q : PyLine α → Prop) (ho : ∀ s l, P s → Q l → obj s l = (f s l).2) (ls : List (PyLine α)) :
    ∀ s, P s → (∀ l ∈ ls, Q l) → objectsAfter F obj s ls = .ok (scan f s ls).2 := by
  induction ls with
  | nil => intro s _ _; rfl
  | cons l ls ih =>
    intro s hs hq
    obtain ⟨h1, r, h2, _⟩ := h s l hs
    unfold objectsAfter
    rw [h2]
    simp only [ih _ h1 (fun l hl => hq l (List.mem_cons_of_mem _ hl)), ho s l hs (hq l List.mem_cons_self)]
    rfl

theorem translateObject_eq (s : TransSt α) (l : PyLine α) (hs : s.firstMoveAfterHome = false) : translateObject s l = (transLine s l).2 := by
  obtain ⟨_, r, h2, h3⟩ := translate_oneToOne s l hs
  unfold translateObject
  rw [h2]
  cases r with
  | keep => simpa [replacement] using h3
  | one r => simpa [replacement] using h3
  | many rs =>
    exfalso
    unfold translateFilter at h2
    revert h2
    rw [hs]
    simp only [Bool.false_eq_true, if_false]
    split_ifs <;> first | (simp; done) | (rcases s.absMode with _ | _ | _ <;> simp)

theorem relExtObject_eq (s : RelSt α) (l : PyLine α) (hl : ¬ HasCmd l c!"M82") : relExtObject s l = (relLine s l).2 := by
  obtain ⟨_, r, h2, h3⟩ := rel_oneToOne s l trivial
  unfold relExtObject
  rw [if_neg (fun h => hl ((isCmd_iff l _).1 h)), h2]
  cases r with
  | keep => simpa [replacement] using h3
  | one r => simpa [replacement] using h3
  | many rs =>
    exfalso
    unfold relExtFilter at h2
    revert h2
    rcases l.e with _ | e <;> simp only <;> split_ifs <;> simp

/-- **C93**, translation.  After the translation filter, iterating over the program object of a loaded program gives exactly the lines that are written. -/
theorem C93_translate {env : Env α} {data : List Str} {g : GCode α} (hg : GCode.load env data = .ok g) (x y : Option α) :
    ∃ g' ls, g.translate x y = .ok g' ∧ g.iterTranslate x y = .ok ls ∧ ls = program g' := by
  obtain ⟨g', h1, _, h3⟩ := translate_program g x y
  refine ⟨g', program g', h1, ?_, rfl⟩
  have hflat : g.lines = program g := (load_indexed hg).flat
  unfold GCode.iterTranslate
  rw [hflat, h3]
  exact objectsAfter_scan translate_oneToOne (fun _ => True) (fun s l hs _ => translateObject_eq s l hs) _ _ rfl (fun _ _ => trivial)

example : GCode.load qEnv sample = .ok (loadQ sample) ∧
    okOr [] (((loadQ sample).iterTranslate (some 5) (some 6)).map (·.map (·.raw))) =
      [c!"; start", c!"G21", c!"G90", c!"M82", c!"G28", c!"G1 Z0.3 F1200", c!"G1 X15.000 Y16.000 E1.00000", c!"G1 X25.000 Y16.000 E2.00000",
       c!"G92 X-5.000 Y-6.000 E0.00000", c!"G1 Z0.6", c!"G1 X20 Y20 E1 ; side", c!"M104 S0"] := by
  decide +kernel

/-! ### relative extrusion -/

/-- A loaded line whose command is `M82` does not read `M83`. -/
theorem m82_raw {env : Env α} {data : List Str} {home : Home α} {g : GCode α} (hg : GCode.load env data false home = .ok g) :
    ∀ l ∈ program g, HasCmd l c!"M82" → l.raw ≠ c!"M83" := by
  obtain ⟨out, hr, hout⟩ := load_run' hg
  have e : out = program g := by rw [← hout rfl, (load_indexed hg).flat]; rfl
  rw [← e]
  have key : ∀ (ls : List (PyLine α)) (rs : List Str) (m m' : Machine α), Run home m (bare rs) m' ls → ∀ l ∈ ls, HasCmd l c!"M82" → l.raw ≠ c!"M83" := by
    intro ls
    induction ls with
    | nil => intro _ _ _ _ l hl; simp at hl
    | cons a ls ih =>
      intro rs m m' h l hl hm hraw
      cases rs with
      | nil => cases h
      | cons r rs =>
        cases h with
        | cons hp h' =>
          rcases List.mem_cons.1 hl with rfl | hl
          · obtain ⟨k1, k2, _⟩ := processLine_keeps hp
            rw [hraw] at k1
            simp only at k1
            subst k1
            have : (split ({ raw := c!"M83" } : PyLine α)).1.command = some c!"M83" := by rfl
            rw [this, show l.command = some c!"M82" from hm] at k2
            exact absurd k2 (by decide)
          · exact ih rs _ _ h' l hl hm hraw
  exact key _ _ _ _ hr

theorem relExt_objects (ls : List (PyLine α)) (hr : ∀ l ∈ ls, HasCmd l c!"M82" → l.raw ≠ c!"M83") : ∀ s,
    ∃ out, objectsAfter relExtFilter relExtObject s ls = .ok out ∧
      List.Forall₂ (fun l p => p.1 = p.2 ∨ HasCmd l c!"M82" ∧ p.1 = l ∧ p.2 = rawToLine c!"M83") ls (out.zip (scan relLine s ls).2) ∧
      out.length = ls.length ∧
      (out.map (·.raw) = (scan relLine s ls).2.map (·.raw) ↔ ∀ l ∈ ls, ¬ HasCmd l c!"M82") := by
  induction ls with
  | nil => intro s; exact ⟨[], rfl, .nil, rfl, by simp [scan]⟩
  | cons l ls ih =>
    intro s
    obtain ⟨_, r, h2, _⟩ := rel_oneToOne s l trivial
    obtain ⟨out, i1, i2, i3, i4⟩ := ih (fun l hl => hr l (List.mem_cons_of_mem _ hl)) (relLine s l).1
    refine ⟨relExtObject s l :: out, ?_, ?_, by simp [i3], ?_⟩
    · unfold objectsAfter
      rw [h2]
      simp only [i1]
    · refine .cons ?_ i2
      by_cases hm : HasCmd l c!"M82"
      · refine .inr ⟨hm, ?_, ?_⟩
        · simp only [relExtObject, (isCmd_iff l _).2 hm, if_true]
        · simp only [relLine]
          rw [if_neg (by unfold HasCmd at hm ⊢; rw [hm]; decide), if_pos hm]
      · exact .inl (relExtObject_eq s l hm)
    · rw [scan]
      simp only [List.map_cons, List.cons.injEq, i4, List.forall_mem_cons]
      refine and_congr_left (fun _ => ?_)
      by_cases hm : HasCmd l c!"M82"
      · refine iff_of_false ?_ (fun h => h hm)
        have e1 : relExtObject s l = l := by simp only [relExtObject, (isCmd_iff l _).2 hm, if_true]
        have e2 : (relLine s l).2 = rawToLine c!"M83" := by
          simp only [relLine]
          rw [if_neg (by unfold HasCmd at hm ⊢; rw [hm]; decide), if_pos hm]
        rw [e1, e2]
        exact hr l List.mem_cons_self hm
      · exact iff_of_true (by rw [relExtObject_eq s l hm]) hm

/-- **C93** (partial), relative extrusion.  For a loaded program, iterating over the program object after the conversion gives the written texts exactly when the
program has no `M82` line; an `M82` line is the only kind that can differ, and there the iteration still shows `M82` while `M83` is written.  What is missing is
the agreement for programs with `M82`, which does not hold: see `C93_refuted_relative`. -/
theorem C93_relative_partial {env : Env α} {data : List Str} {g : GCode α} (hg : GCode.load env data = .ok g) :
    ∃ g' ls, g.toRelativeE = .ok g' ∧ g.iterToRelativeE = .ok ls ∧ ls.length = (program g).length ∧
      List.Forall₂ (fun l p => p.1 = p.2 ∨ HasCmd l c!"M82" ∧ p.1 = l ∧ p.2.raw = c!"M83") (program g) (ls.zip (program g')) ∧
      (ls.map (·.raw) = (program g').map (·.raw) ↔ ∀ l ∈ program g, ¬ HasCmd l c!"M82") := by
  have hflat : g.lines = program g := (load_indexed hg).flat
  obtain ⟨out, h1, h2, h3, h4⟩ := relExt_objects (program g) (m82_raw hg) RelSt.init
  have hp : program { g with allLayers := (scanLayers relLine RelSt.init g.allLayers).2 } = (scan relLine RelSt.init (program g)).2 := by
    rw [program_def, program_def]
    exact (scanLayers_flat relLine g.allLayers _).1
  refine ⟨_, out, toRelativeE_eq g, ?_, h3, ?_, ?_⟩
  · unfold GCode.iterToRelativeE
    rw [hflat]
    exact h1
  · rw [hp]
    refine h2.imp (fun l p h => ?_)
    rcases h with h | ⟨a, b, c⟩
    · exact .inl h
    · exact .inr ⟨a, b, by rw [c]; rfl⟩
  · rw [hp]
    exact h4

/-- The texts of `list(gcode)` after the conversion. -/
def iterRelQ (data : List Str) : List Str := okOr [] (((loadQ data).iterToRelativeE).map (·.map (·.raw)))

/-- **C93** refuted for relative extrusion: on ordinary slicer output the iteration gives `M82` followed by relative amounts, and a printer following it pushes 2 mm
of filament instead of 4.5 mm. -/
theorem C93_refuted_relative : GCode.load qEnv rSample = .ok (loadQ rSample) ∧
    iterRelQ rSample = [c!"G90", c!"M82", c!"G92 E0", c!"G1 X10.000 E1.00000", c!"G1 X20.000 E1.50000", c!"G1 E-1.00000", c!"G92 E0", c!"G1 X30.000 E2.00000",
      c!"M83", c!"G1 X40 E1"] ∧
    pushedBy (texts (loadQ rSample)) = 9 / 2 ∧ pushedBy (texts (relQ (loadQ rSample))) = 9 / 2 ∧ pushedBy (iterRelQ rSample) = 2 := by
  decide +kernel

example : (∃ l ∈ program (loadQ rSample), HasCmd l c!"M82") ∧
    (∀ l ∈ program (loadQ [c!"G92 E0", c!"G1 X10 E1", c!"G1 X20 E3"]), ¬ HasCmd l c!"M82") ∧
    iterRelQ [c!"G92 E0", c!"G1 X10 E1", c!"G1 X20 E3"] = [c!"G92 E0", c!"G1 X10.000 E1.00000", c!"G1 X20.000 E2.00000"] := by
  decide +kernel

/-! ### stretching -/

/-- **C93** (partial), stretching.  After the stretch filter the iteration shows the original texts, each with marks appended, so a printer following it does what
the original program does: none of the displacements that are written show up.  See `C93_refuted_stretch`. -/
theorem C93_stretch_partial {env : Env α} {data : List Str} {g g' : GCode α} (_hg : GCode.load env data = .ok g)
    {sqrt : α → α} {fuel : ℕ} {slicer : Slicer} {repo : StretchRepo α} {profile : ProfileOracle α}
    (h : g.stretch sqrt fuel slicer repo profile = .ok g') :
    ∃ ts, g.iterStretch sqrt fuel slicer repo profile = .ok ts ∧
      List.Forall₂ (fun l t => ∃ s, Marks s ∧ t = l.raw ++ s) (program g) ts ∧
      ((∀ l ∈ program g, ¬ Nested l.raw ∧ '\n' ∉ l.raw) → ∀ (home : Pos3 α) (p : Printer α),
        p.trace home ts = p.trace home ((program g).map (·.raw))) := by
  unfold GCode.stretch at h
  unfold GCode.iterStretch
  cases hs : setupFilter slicer repo profile g.allLayers with
  | error er => rw [hs] at h; cases h
  | ok q =>
    obtain ⟨d, Ls⟩ := q
    rw [hs] at h
    simp only at h ⊢
    cases hl : stretchLayers sqrt fuel slicer.forward slicer.backward { StretchSt.init with dist := d } Ls with
    | error er => rw [hl] at h; cases h
    | ok q =>
      refine ⟨_, rfl, ?_, ?_⟩
      · have hm := flat_marked (setupFilter_marked hs)
        rw [program_def]
        have : List.Forall₂ (fun l l' : PyLine α => ∃ s, Marks s ∧ l'.raw = l.raw ++ s) (g.allLayers.flatMap (·.lines)) (Ls.flatMap (·.lines)) := by
          refine hm.imp ?_
          rintro l l' ⟨s, h1, rfl⟩
          exact ⟨s, h1, rfl⟩
        rw [List.forall₂_map_right_iff]
        exact this
      · intro hn home p
        exact C66_program_partial hs hn home p

/-- **C93** refuted for stretching and for arcs: the written program differs from what the iteration shows. -/
theorem C93_refuted_stretch :
    GCode.load qEnv squareS = .ok (loadQ squareS) ∧
    (loadQ squareS).stretch rSqrt 100 .slic3r (StretchRepo.default 1) noProfile = .ok (stretchQ .slic3r 1 squareS) ∧
    (okOr [] ((loadQ squareS).iterStretch rSqrt 100 .slic3r (StretchRepo.default 1) noProfile))[4]? = some c!"G1 X1 Y1 E2 ; perimeter external" ∧
    (texts (stretchQ .slic3r 1 squareS))[4]? = some c!"G1 X1.035 Y1.035 E1.90000 F1200.000" ∧
    (∀ l ∈ program (loadQ squareS), ¬ Nested l.raw ∧ '\n' ∉ l.raw) := by
  refine ⟨by decide +kernel, by decide +kernel, by decide +kernel, by decide +kernel, ?_⟩
  have h : ∀ l ∈ program (loadQ squareS), l.raw.head? ≠ some '(' ∧ '\n' ∉ l.raw := by decide +kernel
  exact fun l hl => ⟨fun hn => (h l hl).1 hn.1, (h l hl).2⟩

/-- **C93** refuted for arcs. -/
theorem C93_refuted_arcs :
    GCode.load qEnv arcCcw = .ok (loadQ arcCcw) ∧ (loadQ arcCcw).optimizeArcs qTrig = .ok (arcsQ arcCcw) ∧
    (loadQ arcCcw).iterArcs qTrig = .ok arcCcw ∧ (texts (arcsQ arcCcw)).length < arcCcw.length := by
  decide +kernel

end GCodeUtils
