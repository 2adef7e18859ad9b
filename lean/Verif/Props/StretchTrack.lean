import Verif.Lemmas.StretchTrack
import Verif.Props.Announce
import Verif.Props.Cli

/-
  C91: a printer following the stretched program stays beside one following the original.
-/

set_option linter.unusedSectionVars false

namespace GCodeUtils

open Spec

variable {α : Type} [Field α] [LinearOrder α] [IsStrictOrderedRing α] [FloorRing α]

theorem beside_self {t : α} (ht : 0 ≤ t) (p : Printer α) (h1 : p.inch = false) (h2 : p.rel = false) (h3 : p.org.x = 0) (h4 : p.org.y = 0) :
    Beside t p p := by
  refine ⟨⟨h1, h1⟩, ⟨h2, h2⟩, rfl, rfl, ⟨rfl, h3, h4⟩, ?_, ?_, ?_⟩
  · simp only [sub_self, abs_zero]; positivity
  · simp only [sub_self, abs_zero]; positivity
  · simp only [sub_self, abs_zero]; positivity

/-- **C91** (partial), the filter alone.  A program in millimetres, absolute coordinates and relative extrusion, without `G92` on X, Y
or Z, is stretched.  Two printers follow the original and the written result line by line.  Then at every moment they are
in the same modes, at the same height, and along X and Y within `t`, the largest stretch distance; each line pushes
between `1 - t` and `1` times as much filament as the original line (positions up to half a thousandth of a millimetre,
filament per line up to half a hundred-thousandth).  Missing: X/Y moves in loops that do not name both axes and absolute extrusion, where it
is false (`C91_refuted_axis`, `C91_refuted_absolute`), and imperial or relative programs. -/
theorem C91_filter_partial {ε : α} {sqrt : α → α} (hs : IsSqrt ε sqrt) {fuel : ℕ} {slicer : Slicer} {repo : StretchRepo α}
    {profile : ProfileOracle α} {env : Env α} {data : List Str} {g g' : GCode α} {d : Option (StretchDist α)} {ann : List (Layer α)}
    (hg : GCode.load env data = .ok g)
    (ha : setupFilter slicer repo profile g.allLayers = .ok (d, ann)) (h : g.stretch sqrt fuel slicer repo profile = .ok g')
    (hl : ∀ l ∈ program g, Straight l ∧ CommandFirst l.raw ∧ HomingClear (α := α) l.raw ∧ ¬ Nested l.raw ∧ '\n' ∉ l.raw)
    (he : ∀ k l, (program g)[k]? = some l → IsMove l → l.e ≠ none →
      (Printer.start.final ⟨0, 0, 0⟩ (((program g).take k).map (·.raw)) : Printer α).relE = true)
    (hxy : ∀ k l0 l, (program g)[k]? = some l0 → (linesOf ann)[k]? = some l → loopAt ((linesOf ann).take k ++ [l]) ≠ none →
      XYMove l0 → l0.x ≠ none ∧ l0.y ≠ none) :
    (program g').length = (program g).length ∧
    ∃ w, WidthUsed slicer profile (program g) (linesOf ann) w ∧ ∀ t, 0 ≤ t → (∀ k, (1 + ε) * reach repo w k ≤ t) → ∀ n,
      let a : Printer α := Printer.start.final ⟨0, 0, 0⟩ (((program g).take n).map (·.raw))
      let b : Printer α := Printer.start.final ⟨0, 0, 0⟩ (((program g').take n).map (·.raw))
      let a' : Printer α := Printer.start.final ⟨0, 0, 0⟩ (((program g).take (n + 1)).map (·.raw))
      let b' : Printer α := Printer.start.final ⟨0, 0, 0⟩ (((program g').take (n + 1)).map (·.raw))
      Beside t a b ∧ ∃ q, q ≤ 1 ∧ 1 - (1 + ε) * t ≤ q ∧ |(b'.pushed - b.pushed) - q * (a'.pushed - a.pushed)| ≤ 5 / 10 ^ 6 := by
  have hflat : g.lines = program g := (load_indexed hg).flat
  have hrun : ∀ n, (Printer.start : Printer α).run ⟨0, 0, 0⟩ ((program g).take n) =
      Printer.start.final ⟨0, 0, 0⟩ (((program g).take n).map (·.raw)) := by
    intro n
    have := load_exec hg (fun l hl' => by rw [hflat] at hl'; exact ⟨(hl l hl').2.1, (hl l hl').2.2.1⟩) n
    rw [hflat] at this
    exact this
  have htext : ∀ l ∈ program g, Textual ⟨0, 0, 0⟩ l := by
    have := load_textual hg (fun l hl' => by rw [hflat] at hl'; exact ⟨(hl l hl').2.1, (hl l hl').2.2.1⟩)
      (fun l hl' => by rw [hflat] at hl'; exact (hl l hl').1.1)
    rw [hflat] at this
    exact this
  have hA : linesOf g.allLayers = program g := (program_def g).symm
  have hC : linesOf g'.allLayers = program g' := (program_def g').symm
  obtain ⟨h1, w, h2, h3⟩ := stretch_track hs ha h (home := ⟨0, 0, 0⟩) (p := Printer.start) (fun t ht => beside_self ht _ rfl rfl rfl rfl)
    (fun l hl' => by rw [hA] at hl'; exact ⟨(hl l hl').1, .inl (htext l hl'), (hl l hl').2.2.2⟩)
    (fun k l => by rw [hA, hrun]; exact he k l) (fun k l0 l => by rw [hA]; exact hxy k l0 l)
  rw [hA] at h2
  refine ⟨by rw [← hA, ← hC]; exact h1, w, h2, fun t ht hw n => ?_⟩
  obtain ⟨k1, k2⟩ := h3 t ht hw n
  rw [hA, hC] at k1 k2
  rw [hrun] at k1
  refine ⟨k1, ?_⟩
  by_cases hn : n < (program g).length
  · have := k2 hn
    rw [hrun, hrun] at this
    exact this
  · have t0 : 0 ≤ (1 + ε) * t := mul_nonneg (by linarith [hs.1]) ht
    have hlen : (program g').length = (program g).length := by rw [← hA, ← hC]; exact h1
    refine ⟨1, le_refl _, by linarith, ?_⟩
    rw [List.take_of_length_le (by omega), List.take_of_length_le (by omega), List.take_of_length_le (by omega), List.take_of_length_le (by omega)]
    norm_num

theorem stretch_setup {sqrt : α → α} {fuel : ℕ} {slicer : Slicer} {repo : StretchRepo α} {profile : ProfileOracle α} {g g' : GCode α}
    (h : g.stretch sqrt fuel slicer repo profile = .ok g') : ∃ d ann, setupFilter slicer repo profile g.allLayers = .ok (d, ann) := by
  unfold GCode.stretch at h
  cases hc : setupFilter slicer repo profile g.allLayers with
  | error er => rw [hc] at h; cases h
  | ok r => exact ⟨r.1, r.2, rfl⟩

/-- **C91** (partial), the whole command line `gcode_stretch`.  The program may use absolute or relative extrusion, in the class of C31.  Printers follow the text
of the original and of the output. -/
theorem C91_tool_partial {ε : α} {sqrt : α → α} (hs : IsSqrt ε sqrt) {fuel : ℕ} {repo : StretchRepo α}
    {profile : ProfileOracle α} {env : Env α} {data : List Str} {g : GCode α} {text : Str} {u : EModeSt}
    (hg : GCode.load env data = .ok g) (h : stretchPipeline env sqrt fuel repo profile data = .ok text)
    (hl : ∀ l ∈ program g, Straight l ∧ CommandFirst l.raw ∧ HomingClear (α := α) l.raw ∧ ¬ Nested l.raw ∧ '\n' ∉ l.raw ∧
      (XYMove l → l.x ≠ none ∧ l.y ≠ none))
    (hE : ({} : EModeSt).run (program g) = some u) :
    ∃ out : List Str, text = out.flatMap (fun r => r ++ ['\n']) ∧ out.length = (program g).length ∧
    ∃ g1 slicer d ann w, g.toRelativeE = .ok g1 ∧
      slicer = (if ∃ l ∈ program g1, c!"CURA_PROFILE_STRING" <:+: l.raw then Slicer.cura else Slicer.slic3r) ∧
      setupFilter slicer repo profile g1.allLayers = .ok (d, ann) ∧ WidthUsed slicer profile (program g1) (linesOf ann) w ∧
      ∀ t, 0 ≤ t → (∀ k, (1 + ε) * reach repo w k ≤ t) → ∀ n,
      let a : Printer α := Printer.start.final ⟨0, 0, 0⟩ (((program g).take n).map (·.raw))
      let b : Printer α := Printer.start.final ⟨0, 0, 0⟩ (out.take n)
      let a' : Printer α := Printer.start.final ⟨0, 0, 0⟩ (((program g).take (n + 1)).map (·.raw))
      let b' : Printer α := Printer.start.final ⟨0, 0, 0⟩ (out.take (n + 1))
      |b.pos.x - a.pos.x| ≤ t + 5 / 10 ^ 4 ∧ |b.pos.y - a.pos.y| ≤ t + 5 / 10 ^ 4 ∧ |b.pos.z - a.pos.z| ≤ 5 / 10 ^ 4 ∧ b.tool = a.tool ∧
      ∃ q, q ≤ 1 ∧ 1 - (1 + ε) * t ≤ q ∧ |(b'.pushed - b.pushed) - q * (a'.pushed - a.pushed)| ≤ 5 / 10 ^ 6 := by
  have hflat : g.lines = program g := (load_indexed hg).flat
  have hrun : ∀ n, (Printer.start : Printer α).run ⟨0, 0, 0⟩ ((program g).take n) =
      Printer.start.final ⟨0, 0, 0⟩ (((program g).take n).map (·.raw)) := by
    intro n
    have := load_exec hg (fun l hl' => by rw [hflat] at hl'; exact ⟨(hl l hl').2.1, (hl l hl').2.2.1⟩) n
    rw [hflat] at this
    exact this
  have htext : ∀ l ∈ program g, Textual ⟨0, 0, 0⟩ l := by
    have := load_textual hg (fun l hl' => by rw [hflat] at hl'; exact ⟨(hl l hl').2.1, (hl l hl').2.2.1⟩)
      (fun l hl' => by rw [hflat] at hl'; exact (hl l hl').1.1)
    rw [hflat] at this
    exact this
  obtain ⟨g1, hr, -, hp1⟩ := toRelativeE_program g
  unfold stretchPipeline at h
  rw [hg] at h
  simp only [bind, Except.bind] at h
  rw [hr] at h
  simp only at h
  cases hst : g1.stretch sqrt fuel (if isCuraGcode g1 then Slicer.cura else Slicer.slic3r) repo profile with
  | error er => rw [hst] at h; cases h
  | ok g2 =>
    rw [hst] at h
    simp only [Except.ok.injEq] at h
    obtain ⟨d, ann, ha⟩ := stretch_setup hst
    have hA : linesOf g1.allLayers = program g1 := (program_def g1).symm
    have hC : linesOf g2.allLayers = program g2 := (program_def g2).symm
    have hfit : ∀ l ∈ program g1, Fit ⟨0, 0, 0⟩ l := by
      rw [hp1]
      refine fit_scan ?_ _
      intro l hl'
      obtain ⟨c1, c2, c3, c4, c5, c6⟩ := hl l hl'
      exact ⟨⟨c1, .inl (htext l hl'), c4, c5⟩, c6⟩
    have htake : ∀ n, ∃ u, ({} : EModeSt).run ((program g).take n) = some u := by
      intro n
      have := emode_append ((program g).take n) ((program g).drop n) {}
      rw [List.take_append_drop, hE] at this
      cases hq : ({} : EModeSt).run ((program g).take n) with
      | none => rw [hq] at this; simp at this
      | some v => exact ⟨v, rfl⟩
    have hinv : ∀ n v, ({} : EModeSt).run ((program g).take n) = some v → RelInv v (scan relLine RelSt.init ((program g).take n)).1
        (Printer.start.run ⟨0, 0, 0⟩ ((program g).take n)) (Printer.start.run ⟨0, 0, 0⟩ ((program g1).take n)) := by
      intro n v hv
      have := rel_run (home := (⟨0, 0, 0⟩ : Pos3 α)) ((program g).take n) (rel_init Printer.start rfl) hv
      rwa [scan_take, ← hp1] at this
    have he : ∀ k l, (program g1)[k]? = some l → IsMove l → l.e ≠ none →
        ((Printer.start : Printer α).run ⟨0, 0, 0⟩ ((program g1).take k)).relE = true := by
      intro k l hk hm hE'
      rw [hp1] at hk
      obtain ⟨l0, k1, k2⟩ := scan_get hk
      rw [k2] at hm hE'
      obtain ⟨m1, m2⟩ := relLine_emove hm hE'
      obtain ⟨v, hv⟩ := htake k
      obtain ⟨v', hv'⟩ := htake (k + 1)
      rw [take_succ_get k1, emode_append, hv] at hv'
      simp only [Option.bind_some, EModeSt.run] at hv'
      have hk : v.known = true := by
        by_contra hk
        rw [EModeSt.step, if_pos m1, if_neg m2, if_pos (by simp [hk])] at hv'
        simp at hv'
      exact ((hinv k v hv).stated hk).1
    obtain ⟨h1, w, h2, h3⟩ := stretch_track hs ha hst (home := ⟨0, 0, 0⟩) (p := Printer.start) (fun t ht => beside_self ht _ rfl rfl rfl rfl)
      (fun l hl' => by rw [hA] at hl'; exact (hfit l hl').1)
      (fun k l => by rw [hA]; exact he k l) (fun k l0 l hk _ _ hx => by rw [hA] at hk; exact (hfit l0 (List.mem_of_getElem? hk)).2 hx)
    rw [hA] at h2
    have hlen1 : (program g1).length = (program g).length := by rw [hp1, scan_length]
    have hlen : (program g2).length = (program g).length := by rw [← hC, h1, hA, hlen1]
    refine ⟨(program g2).map (·.raw), ?_, by rw [List.length_map, hlen], g1, _, d, ann, w, hr, ?_, ha, h2, fun t ht hw n => ?_⟩
    · rw [← h, GCode.write, GCode.allLines, program_def, List.flatMap_map]
    · have : isCuraGcode g1 = true ↔ ∃ l ∈ program g1, c!"CURA_PROFILE_STRING" <:+: l.raw := by
        rw [isCuraGcode, GCode.allLines, ← program_def, List.any_eq_true]
        simp only [hasSub_iff]
      by_cases hc : isCuraGcode g1 = true
      · rw [if_pos hc, if_pos (this.1 hc)]
      · rw [if_neg hc, if_neg (fun h => hc (this.2 h))]
    · obtain ⟨k1, k2⟩ := h3 t ht hw n
      rw [hA, hC] at k1 k2
      have same : ∀ n, ((Printer.start : Printer α).run ⟨0, 0, 0⟩ ((program g1).take n)).pos =
            ((Printer.start : Printer α).final ⟨0, 0, 0⟩ (((program g).take n).map (·.raw))).pos ∧
          ((Printer.start : Printer α).run ⟨0, 0, 0⟩ ((program g1).take n)).tool =
            ((Printer.start : Printer α).final ⟨0, 0, 0⟩ (((program g).take n).map (·.raw))).tool ∧
          ((Printer.start : Printer α).run ⟨0, 0, 0⟩ ((program g1).take n)).pushed =
            ((Printer.start : Printer α).final ⟨0, 0, 0⟩ (((program g).take n).map (·.raw))).pushed := by
        intro n
        obtain ⟨v, hv⟩ := htake n
        have := (hinv n v hv).same
        rw [← hrun]
        exact ⟨by have := congrArg Printer.pos this; exact this, by have := congrArg Printer.tool this; exact this,
          by have := congrArg Printer.pushed this; exact this⟩
      obtain ⟨s1, s2, s3⟩ := same n
      obtain ⟨-, -, s4⟩ := same (n + 1)
      simp only [← List.map_take]
      rw [← s1, ← s2, ← s3, ← s4]
      refine ⟨k1.x, k1.y, k1.z, k1.tool, ?_⟩
      by_cases hn : n < (program g).length
      · exact k2 (by rw [hlen1]; exact hn)
      · have t0 : 0 ≤ (1 + ε) * t := mul_nonneg (by linarith [hs.1]) ht
        refine ⟨1, le_refl _, by linarith, ?_⟩
        rw [List.take_of_length_le (by omega), List.take_of_length_le (by omega), List.take_of_length_le (by omega), List.take_of_length_le (by omega)]
        norm_num

/-- A Cura program with absolute extrusion whose moves name both axes. -/
def followC : List Str :=
  [c!"M82", c!"G92 E100", c!"G1 Z0.3 F7800", c!"G0 X0 Y0 F7800", c!";TYPE:WALL-OUTER", c!"G1 F1200 X1 Y0 E101", c!"G1 X1 Y1 E102", c!"G1 X0 Y1 E103",
   c!"G1 X0 Y0 E104", c!";TYPE:FILL", c!"G0 F7800 X2 Y2", c!"G1 F1200 X8 Y2 E105", c!";CURA_PROFILE_STRING:abc"]

/-- The output of the command line. -/
def followOut : Str := okOr [] (stretchPipeline qEnv rSqrt 100 (StretchRepo.default 1) noProfile followC)

example : GCode.load qEnv followC = .ok (loadQ followC) ∧
    stretchPipeline qEnv rSqrt 100 (StretchRepo.default 1) noProfile followC = .ok followOut ∧
    (∀ l ∈ program (loadQ followC), Straight l ∧ CommandFirst l.raw ∧ HomingClear (α := ℚ) l.raw ∧ ¬ Nested l.raw ∧ '\n' ∉ l.raw ∧
      (XYMove l → l.x ≠ none ∧ l.y ≠ none)) ∧
    ({} : EModeSt).run (program (loadQ followC)) = some { known := true, rel := false, synced := true } ∧
    (readlines followOut)[6]? = some c!"G1 X1.024 Y1.024 E0.96606 F1200.000\n" ∧
    pushedBy ((texts (loadQ followC)).take 9) = 4 ∧ pushedBy ((readlines followOut).take 9) = 386424 / 100000 := by
  have h : ∀ l ∈ program (loadQ followC), Straight l ∧ CommandFirst l.raw ∧ HomingClear (α := ℚ) l.raw ∧ l.raw.head? ≠ some '(' ∧ '\n' ∉ l.raw ∧
      (XYMove l → l.x ≠ none ∧ l.y ≠ none) := by decide +kernel
  refine ⟨by decide +kernel, by decide +kernel, ?_, by decide +kernel, by decide +kernel, by decide +kernel, by decide +kernel⟩
  intro l hl
  obtain ⟨h1, h2, h3, h4, h5⟩ := h l hl
  exact ⟨h1, h2, h3, fun hn => h4 hn.1, h5⟩

/-- The same in relative extrusion. -/
def followR : List Str :=
  [c!"M83", c!"G1 Z0.3 F7800", c!"G0 X0 Y0 F7800", c!";TYPE:WALL-OUTER", c!"G1 F1200 X1 Y0 E1", c!"G1 X1 Y1 E1", c!"G1 X0 Y1 E1",
   c!"G1 X0 Y0 E1", c!";TYPE:FILL", c!"G0 F7800 X2 Y2", c!"G1 F1200 X8 Y2 E1"]

example : GCode.load qEnv followR = .ok (loadQ followR) ∧
    (∃ d, setupFilter .cura (StretchRepo.default 1) noProfile (loadQ followR).allLayers = .ok (d, marksQ .cura 1 followR)) ∧
    (loadQ followR).stretch rSqrt 100 .cura (StretchRepo.default 1) noProfile = .ok (stretchQ .cura 1 followR) ∧
    (∀ l ∈ program (loadQ followR), Straight l ∧ CommandFirst l.raw ∧ HomingClear (α := ℚ) l.raw ∧ ¬ Nested l.raw ∧ '\n' ∉ l.raw) ∧
    (∀ k l, (program (loadQ followR))[k]? = some l → IsMove l → l.e ≠ none →
      (Printer.start.final ⟨0, 0, 0⟩ (((program (loadQ followR)).take k).map (·.raw)) : Printer ℚ).relE = true) ∧
    (∀ l ∈ program (loadQ followR), XYMove l → l.x ≠ none ∧ l.y ≠ none) ∧
    WidthUsed .cura noProfile (program (loadQ followR)) (linesOf (marksQ .cura 1 followR)) (4 / 10) ∧
    (∀ k, (1 + 1 / 10 ^ 12) * reach (StretchRepo.default 1) (4 / 10 : ℚ) k ≤ 13 / 100) := by
  have h : ∀ l ∈ program (loadQ followR), Straight l ∧ CommandFirst l.raw ∧ HomingClear (α := ℚ) l.raw ∧ l.raw.head? ≠ some '(' ∧ '\n' ∉ l.raw := by
    decide +kernel
  have he : ∀ k ∈ List.range (program (loadQ followR)).length, ∀ l ∈ (program (loadQ followR))[k]?, IsMove l → l.e ≠ none →
      (Printer.start.final ⟨0, 0, 0⟩ (((program (loadQ followR)).take k).map (·.raw)) : Printer ℚ).relE = true := by decide +kernel
  have hn : ∀ l ∈ linesOf (marksQ .cura 1 followR), ¬ c!";CURA_PROFILE_STRING:" <+: l.raw := by decide +kernel
  refine ⟨by decide +kernel, ⟨(okOr (none, []) (setupFilter .cura (StretchRepo.default 1) noProfile (loadQ followR).allLayers)).1, by decide +kernel⟩, by decide +kernel, ?_, ?_, by decide +kernel, ?_, ?_⟩
  · intro l hl
    obtain ⟨h1, h2, h3, h4, h5⟩ := h l hl
    exact ⟨h1, h2, h3, fun hn => h4 hn.1, h5⟩
  · intro k l hk
    exact he k (List.mem_range.2 (List.getElem?_eq_some_iff.1 hk).1) l hk
  · refine .inl (.inr ⟨.inr ?_, rfl⟩)
    rintro x hx v ⟨t, ht, _⟩
    exact hn x hx ⟨t, ht.symm⟩
  · intro k
    cases k <;> norm_num [reach, StretchRepo.default, StretchRepo.make]

/-- **C91**: the filter alone, without conversion to relative extrusion, makes the printer pull 2.4 mm of filament back at the start
of a wall. -/
theorem C91_refuted_absolute : GCode.load qEnv followC = .ok (loadQ followC) ∧
    (loadQ followC).stretch rSqrt 100 .cura (StretchRepo.default 1) noProfile = .ok (stretchQ .cura 1 followC) ∧
    pushedBy ((texts (loadQ followC)).take 5) = 0 ∧ pushedBy ((texts (loadQ followC)).take 6) = 1 ∧
    pushedBy ((texts (stretchQ .cura 1 followC)).take 5) = 0 ∧ pushedBy ((texts (stretchQ .cura 1 followC)).take 6) = -242805 / 100000 := by
  decide +kernel

/-- **C91**: a move that names one axis takes the head 20 mm away. -/
theorem C91_refuted_axis : GCode.load qEnv oneAxis = .ok (loadQ oneAxis) ∧
    (loadQ oneAxis).stretch rSqrt 100 .cura (StretchRepo.default 1) noProfile = .ok (stretchQ .cura 1 oneAxis) ∧
    (headAfter ((texts (loadQ oneAxis)).take 4)).2.1 = 20 ∧ (headAfter ((texts (stretchQ .cura 1 oneAxis)).take 4)).2.1 < 1 := by
  decide +kernel

end GCodeUtils
