import Verif.Props.Stretch
import Verif.Lemmas.WalkCura
import Verif.Lemmas.CuraLoops

/-
  C64, C65, C67: walking along loops.
-/

set_option linter.unusedSectionVars false

namespace GCodeUtils

open Spec

variable {α : Type} [Field α] [LinearOrder α] [IsStrictOrderedRing α] [FloorRing α]

/-! ### C64 -/

/-- C64, one step of a Cura walk: whatever the layer and wherever the walk is, the next line (or the end) is found. Missing: that the walk has a last step, which is false (`C64_cura_refuted`). -/
theorem C64_cura_partial (kind : ItKind) (hk : kind = .curaFwd ∨ kind = .curaBwd) (ls : List (PyLine α)) (st : ItSt) : Answers kind ls st :=
  cura_answers kind (by rcases hk with rfl | rfl <;> rfl) ls st

/-- C64, forward walk of Slic3r, if points follow the marks that open loops. -/
theorem C64_slic3r_forward_partial (ls : List (PyLine α)) (h : PointsAfter c!"stretch-loop-start" ls) (st : ItSt) : Answers .fwd ls st :=
  forward_answers (.inl ⟨rfl, rfl⟩) h st

/-- C64, forward walk of Skeinforge, if points follow the marks that switch extrusion on. -/
theorem C64_skeinforge_forward_partial (ls : List (PyLine α)) (h : PointsAfter c!"stretch-extrusion-on" ls) (st : ItSt) : Answers .fwdLegacy ls st :=
  forward_answers (.inr ⟨rfl, rfl⟩) h st

/-- C64, backward walks of Slic3r and Skeinforge, if there are points between the marks that switch extrusion off. -/
theorem C64_backward_partial (kind : ItKind) (hk : kind = .bwd ∨ kind = .bwdLegacy) (ls : List (PyLine α)) (h : PointsBetween ls) (st : ItSt) :
    Answers kind ls st :=
  backward_answers hk h st

/-- Two perimeters. -/
def twoLoops : List Str :=
  [c!"G1 Z0.3", c!"G1 X0 Y0 ; move to first perimeter point", c!"G1 X1 Y0 E1 ; perimeter", c!"G1 X1 Y1 E2 ; perimeter", c!"G1 X0 Y0 E3 ; perimeter",
   c!"G1 X5 Y0 ; move to first perimeter point", c!"G1 X6 Y0 E4 ; perimeter external", c!"G1 X6 Y1 E5 ; perimeter external",
   c!"G1 X5 Y0 E6 ; perimeter external", c!"G1 X8 Y8 ; move"]

/-- The lines of the `i`-th layer with marks. -/
def markedLayer (slicer : Slicer) (data : List Str) (i : ℕ) : List (PyLine ℚ) := ((marksQ slicer 1 data)[i]?.map (·.lines)).getD []

/-- Where a mark is. -/
def marksAt (m : Str) (ls : List (PyLine ℚ)) : List ℕ := (List.range ls.length).filter (fun i => ((ls[i]?.map (fun l => decide (m <:+: l.raw))).getD false))

theorem mem_marksAt (m : Str) (ls : List (PyLine ℚ)) (i : ℕ) : i ∈ marksAt m ls ↔ HasMark m ls i := by
  unfold marksAt HasMark
  rw [List.mem_filter, List.mem_range]
  constructor
  · rintro ⟨h1, h2⟩
    rw [List.getElem?_eq_getElem h1] at h2 ⊢
    exact ⟨_, rfl, by simpa using h2⟩
  · rintro ⟨l, h1, h2⟩
    rw [h1]
    exact ⟨(List.getElem?_eq_some_iff.1 h1).1, by simpa using h2⟩

instance (ls : List (PyLine ℚ)) (i : ℕ) : Decidable (IsPoint ls i) :=
  match h : ls[i]? with
  | none => isFalse (by rintro ⟨l, hl, _⟩; rw [h] at hl; cases hl)
  | some l =>
    if h' : XYMove l ∧ ¬ c!"stretch-extrusion-off" <:+: l.raw then isTrue ⟨l, h, h'.1, h'.2⟩
    else isFalse (by rintro ⟨l', hl, hx⟩; rw [h] at hl; cases hl; exact h' hx)

example : PointsAfter c!"stretch-loop-start" (markedLayer .slic3r twoLoops 1) ∧ PointsBetween (markedLayer .slic3r twoLoops 1) := by
  have hs : marksAt c!"stretch-loop-start" (markedLayer .slic3r twoLoops 1) = [1, 5] := by decide +kernel
  have ho : marksAt c!"stretch-extrusion-off" (markedLayer .slic3r twoLoops 1) = [5, 9] := by decide +kernel
  have h2 : IsPoint (markedLayer .slic3r twoLoops 1) 2 ∧ IsPoint (markedLayer .slic3r twoLoops 1) 6 := by decide +kernel
  constructor
  · intro p q hpq hp hq hn
    rw [← mem_marksAt, hs] at hp
    rw [← mem_marksAt, ho] at hq
    simp only [List.mem_cons, List.not_mem_nil, or_false] at hp hq
    rcases hp with rfl | rfl <;> rcases hq with rfl | rfl
    · exact ⟨2, by omega, by omega, h2.1⟩
    · exact ⟨2, by omega, by omega, h2.1⟩
    · omega
    · exact ⟨6, by omega, by omega, h2.2⟩
  · intro p q hpq hp hq hn
    rw [← mem_marksAt, ho] at hp hq
    simp only [List.mem_cons, List.not_mem_nil, or_false] at hp hq
    rcases hp with rfl | rfl <;> rcases hq with rfl | rfl
    · omega
    · exact ⟨6, by omega, by omega, h2.2⟩
    · omega
    · omega

/-! A Slic3r program on which the filter never ends: a perimeter of one short line, right after an external one. -/

def hang : List Str :=
  [c!"G1 Z0.3", c!"G1 X0 Y0 ; move to first perimeter point", c!"G1 X0.1 Y0 E1 ; perimeter external", c!"G1 X0.1 Y0.1 E2 ; perimeter",
   c!"G1 X10 Y10 ; move to first perimeter point", c!"G1 X11 Y10 E3 ; perimeter external"]

/-- Spinning on one line. -/
theorem spin {kind : ItKind} {ls : List (PyLine α)} {i first : ℤ} {l : PyLine α} (hl : lineAt ls i = some l) (hf : first ≠ i)
    (ho : (marked extrusionOffMarker l && kind.stopOnOff) = true) (hr : resetIndex kind ls i = .ok i) :
    ∀ fuel, getNextLoop kind ls fuel { idx := i, first := some first } = .error .outOfFuel := by
  intro fuel
  induction fuel with
  | zero => rfl
  | succ n ih =>
    rw [getNextLoop_succ]
    simp only [hl, ho, if_true, hr, Option.getD_some]
    rw [if_neg (by simpa using hf)]
    exact ih

/-- A walk stops at a point. -/
theorem loop_stops {kind : ItKind} {ls : List (PyLine α)} {i : ℤ} {first : Option ℤ} {l : PyLine α} (hl : lineAt ls i = some l) (hf : first ≠ some i)
    (ho : (marked extrusionOffMarker l && kind.stopOnOff) = false) (hx : isXYMove l = true) (n : ℕ) :
    getNextLoop kind ls (n + 1) { idx := i, first := first } = .ok (l, { idx := i + kind.increment, first := some (first.getD i) }) := by
  rw [getNextLoop_succ]
  simp only [hl, ho]
  rw [if_neg hf, if_neg (by decide), if_pos hx]

theorem relLoop_step {sqrt : α → α} {fuel : ℕ} {d : StretchDist α} {old : Option (Vec3 α)} {kind : ItKind} {ls : List (PyLine α)} {loc : Cx α} {n : ℕ}
    {st st' : ItSt} {last point : Cx α} {ot total : α} {l : PyLine α} (hg : getNext fuel kind ls st = .ok (l, st'))
    (ht : ¬ d.fromDist ≤ total + (last.sub (pointOf old l)).abs sqrt) :
    relStretchLoop sqrt fuel d old kind ls loc (n + 1) st last ot point total =
      relStretchLoop sqrt fuel d old kind ls loc n st' (pointOf old l) (total + (last.sub (pointOf old l)).abs sqrt) (pointOf old l)
        (total + (last.sub (pointOf old l)).abs sqrt) := by
  rw [relStretchLoop, hg]
  simp only
  rw [if_neg ht]

theorem parseLine_skip {sqrt : α → α} {fuel : ℕ} {kf kb : ItKind} {ls : List (PyLine α)} {n : ℕ} {st st' : StretchSt α} {l : PyLine α}
    (h1 : loopSwitch st l = .ok st') (h2 : (isXYMove l && st'.isLoop) = false) : stretchParseLine sqrt fuel kf kb ls n st l = .ok (st', l, true) := by
  unfold stretchParseLine
  rw [h1]
  simp [h2]

theorem relLoop_error {sqrt : α → α} {fuel : ℕ} {d : StretchDist α} {old : Option (Vec3 α)} {kind : ItKind} {ls : List (PyLine α)} {loc : Cx α}
    {st : ItSt} {last point : Cx α} {ot total : α} (hg : getNext fuel kind ls st = .error .outOfFuel) (n : ℕ) :
    relStretchLoop sqrt fuel d old kind ls loc n st last ot point total = .error .outOfFuel := by
  cases n with
  | zero => rfl
  | succ n => rw [relStretchLoop, hg]

theorem parseLine_error {sqrt : α → α} {fuel : ℕ} {kf kb : ItKind} {ls : List (PyLine α)} {n : ℕ} {st st' : StretchSt α} {l : PyLine α} {d : StretchDist α}
    (h1 : loopSwitch st l = .ok st') (h2 : (isXYMove l && st'.isLoop) = true) (h3 : 0 < st'.tmax) (h4 : st'.dist = some d)
    (h5 : relStretch sqrt fuel d (some (locationFromLine st'.old l)) kf ls ((n : ℤ) + 1) ⟨(locationFromLine st'.old l).x, (locationFromLine st'.old l).y⟩
      = .error .outOfFuel) :
    stretchParseLine sqrt fuel kf kb ls n st l = .error .outOfFuel := by
  unfold stretchParseLine
  rw [h1]
  simp only [h2, if_true]
  unfold stretchLine
  simp only [h3, if_true, h4]
  unfold stretchedLine displacement
  rw [h5]
  rfl

/-- The lines of the layer of `hang` that has any, with marks. -/
def hangLines : List (PyLine ℚ) := markedLayer .slic3r hang 1

/-- A layer of `hang`, with marks. -/
def hangLayer (i : ℕ) : Layer ℚ := ((marksQ .slic3r 1 hang)[i]?).getD { lines := [] }

/-- The widths used for `hang`. -/
def hangDist : StretchDist ℚ := setEdgeWidth (StretchRepo.default 1) (4 / 10)

theorem hang_walk (fuel : ℕ) (old : Option (Vec3 ℚ)) (ho : ∀ l ∈ hangLines, pointOf old l = pointOf (some ⟨0, 0, 3 / 10⟩) l) :
    relStretch rSqrt fuel hangDist old .fwd hangLines ((1 : ℕ) + 1) ⟨0, 0⟩ = .error .outOfFuel := by
  have e2 : lineAt hangLines 2 = some ((lineAt hangLines 2).getD {}) := by decide +kernel
  have e3 : lineAt hangLines 3 = some ((lineAt hangLines 3).getD {}) := by decide +kernel
  have e4 : lineAt hangLines 4 = some ((lineAt hangLines 4).getD {}) := by decide +kernel
  have m2 : (marked extrusionOffMarker ((lineAt hangLines 2).getD {}) && ItKind.stopOnOff .fwd) = false ∧ isXYMove ((lineAt hangLines 2).getD {}) = true := by
    decide +kernel
  have m3 : (marked extrusionOffMarker ((lineAt hangLines 3).getD {}) && ItKind.stopOnOff .fwd) = false ∧ isXYMove ((lineAt hangLines 3).getD {}) = true := by
    decide +kernel
  have m4 : (marked extrusionOffMarker ((lineAt hangLines 4).getD {}) && ItKind.stopOnOff .fwd) = true ∧ resetIndex .fwd hangLines 4 = .ok 4 := by
    decide +kernel
  have i2 : (lineAt hangLines 2).getD {} ∈ hangLines ∧ (lineAt hangLines 3).getD {} ∈ hangLines := by decide +kernel
  have p2 := ho _ i2.1
  have p3 := ho _ i2.2
  have d2 : ¬ hangDist.fromDist ≤ 0 + ((⟨0, 0⟩ : Cx ℚ).sub (pointOf (some ⟨0, 0, 3 / 10⟩) ((lineAt hangLines 2).getD {}))).abs rSqrt := by decide +kernel
  have d3 : ¬ hangDist.fromDist ≤ 0 + ((⟨0, 0⟩ : Cx ℚ).sub (pointOf (some ⟨0, 0, 3 / 10⟩) ((lineAt hangLines 2).getD {}))).abs rSqrt +
      ((pointOf (some ⟨0, 0, 3 / 10⟩) ((lineAt hangLines 2).getD {})).sub (pointOf (some ⟨0, 0, 3 / 10⟩) ((lineAt hangLines 3).getD {}))).abs rSqrt := by
    decide +kernel
  rw [← p2] at d2 d3
  rw [← p3] at d3
  have s4 : ∀ f, getNext f .fwd hangLines { idx := 4, first := some 2 } = .error .outOfFuel := fun f => spin e4 (by decide) m4.1 m4.2 f
  unfold relStretch
  cases fuel with
  | zero => rfl
  | succ k =>
    have g2 : getNext (k + 1) .fwd hangLines { idx := ((1 : ℕ) : ℤ) + 1 } = .ok ((lineAt hangLines 2).getD {}, { idx := 3, first := some 2 }) :=
      loop_stops e2 (by decide) m2.1 m2.2 k
    have g3 : getNext (k + 1) .fwd hangLines { idx := 3, first := some 2 } = .ok ((lineAt hangLines 3).getD {}, { idx := 4, first := some 2 }) :=
      loop_stops e3 (by decide) m3.1 m3.2 k
    rw [relLoop_step g2 d2]
    cases k with
    | zero => rfl
    | succ k =>
      rw [relLoop_step g3 d3]
      exact relLoop_error (s4 _) k

theorem layer_later {sqrt : α → α} {fuel : ℕ} {kf kb : ItKind} {st st' : StretchSt α} {cur rest : List (PyLine α)} {n : ℕ} {l r : PyLine α} {er : Err}
    (h1 : stretchParseLine sqrt fuel kf kb cur n st l = .ok (st', l, true)) (h2 : reparse l = .ok r)
    (h3 : stretchLayer sqrt fuel kf kb st' (cur.set n r) (n + 1) rest = .error er) : stretchLayer sqrt fuel kf kb st cur n (l :: rest) = .error er := by
  rw [stretchLayer, h1]
  simp only [h2, if_true, h3]

theorem layer_here {sqrt : α → α} {fuel : ℕ} {kf kb : ItKind} {st : StretchSt α} {cur rest : List (PyLine α)} {n : ℕ} {l : PyLine α} {er : Err}
    (h1 : stretchParseLine sqrt fuel kf kb cur n st l = .error er) : stretchLayer sqrt fuel kf kb st cur n (l :: rest) = .error er := by
  rw [stretchLayer, h1]

/-- C64 fails: on this program the Slic3r filter never ends, however long it is given. -/
theorem C64_refuted : GCode.load qEnv hang = .ok (loadQ hang) ∧
    ∀ fuel, (loadQ hang).stretch rSqrt fuel .slic3r (StretchRepo.default 1) noProfile = .error .outOfFuel := by
  refine ⟨by decide +kernel, fun fuel => ?_⟩
  have h1 : setupFilter .slic3r (StretchRepo.default 1) noProfile (loadQ hang).allLayers = .ok (some hangDist, marksQ .slic3r 1 hang) := by decide +kernel
  have h2 : marksQ .slic3r 1 hang = [hangLayer 0, hangLayer 1,
    hangLayer 2] := by decide +kernel
  have h3 : (hangLayer 0).lines = [] ∧ (hangLayer 1).lines = hangLines := by decide +kernel
  have h4 : hangLines = ((hangLines[0]?).getD {}) :: ((hangLines[1]?).getD {}) :: hangLines.drop 2 := by decide +kernel
  have h5 : loopSwitch { StretchSt.init with dist := some hangDist } ((hangLines[0]?).getD {}) = .ok { StretchSt.init with dist := some hangDist } ∧
      isXYMove ((hangLines[0]?).getD {}) = false ∧ reparse ((hangLines[0]?).getD {}) = .ok ((hangLines[0]?).getD {}) ∧
      hangLines.set 0 ((hangLines[0]?).getD {}) = hangLines := by decide +kernel
  have h6 : loopSwitch { StretchSt.init with dist := some hangDist } ((hangLines[1]?).getD {}) =
      .ok { StretchSt.init with dist := some hangDist, isLoop := true, tmax := hangDist.outsideMax } ∧ isXYMove ((hangLines[1]?).getD {}) = true ∧
      0 < hangDist.outsideMax ∧ locationFromLine none ((hangLines[1]?).getD {}) = ⟨0, 0, 0⟩ ∧
      ∀ l ∈ hangLines, pointOf (some ⟨0, 0, 0⟩) l = pointOf (some ⟨0, 0, 3 / 10⟩) l := by decide +kernel
  unfold GCode.stretch
  rw [h1]
  simp only
  rw [h2, stretchLayers, h3.1]
  simp only [stretchLayer]
  rw [stretchLayers, h3.2]
  have key : stretchLayer rSqrt fuel (Slicer.forward .slic3r) (Slicer.backward .slic3r) { StretchSt.init with dist := some hangDist } hangLines 0 hangLines =
      .error .outOfFuel := by
    conv_lhs => arg 8; rw [h4]
    refine layer_later (parseLine_skip h5.1 (by rw [h5.2.1]; rfl)) h5.2.2.1 ?_
    rw [h5.2.2.2]
    refine layer_here (parseLine_error h6.1 (by rw [h6.2.1]; rfl) h6.2.2.1 rfl ?_)
    show relStretch rSqrt fuel hangDist (some (locationFromLine none ((hangLines[1]?).getD {}))) .fwd hangLines _ _ = _
    have e : locationFromLine ({ StretchSt.init with dist := some hangDist, isLoop := true, tmax := hangDist.outsideMax } : StretchSt ℚ).old
      ((hangLines[1]?).getD {}) = ⟨0, 0, 0⟩ := h6.2.2.2.1
    rw [e, h6.2.2.2.1]
    exact hang_walk fuel _ h6.2.2.2.2
  rw [key]

/-! ### C65 -/

/-- C65, if the last line of each layer is not an X/Y move. -/
theorem C65_partial {sqrt : α → α} {fuel : ℕ} {repo : StretchRepo α} {profile : ProfileOracle α} (hp : ∀ t, profile t ≠ .error .indexError) (g : GCode α)
    (hq : ∀ L ∈ g.allLayers, QuietEnd L.lines) : g.stretch sqrt fuel .cura repo profile ≠ .error .indexError :=
  stretch_index hp hq

/-- A square wall, then a comment. -/
def squareEnd : List Str := squareC ++ [c!";end"]

example : (∀ t, noProfile t ≠ .error .indexError) ∧ (∀ L ∈ (loadQ squareEnd).allLayers, QuietEnd L.lines) ∧
    (loadQ squareEnd).stretch rSqrt 100 .cura (StretchRepo.default 1) noProfile = .ok (stretchQ .cura 1 squareEnd) := by
  refine ⟨(by intro t; simp [noProfile]), ?_, by decide +kernel⟩
  have h : ∀ L ∈ (loadQ squareEnd).allLayers, ∀ l ∈ L.lines.getLast?, ¬ XYMove l := by decide +kernel
  exact fun L hL l hl => h L hL l hl

/-- A wall of one move, at the end of the program. -/
def oneMoveWall : List Str := [c!"G1 Z0.3", c!"G1 X0 Y0", c!";TYPE:WALL-OUTER", c!"G1 X1 Y0 E1"]

/-- C65 fails on a layer that ends with a wall of one move. -/
theorem C65_refuted : GCode.load qEnv oneMoveWall = .ok (loadQ oneMoveWall) ∧
    (loadQ oneMoveWall).stretch rSqrt 100 .cura (StretchRepo.default 1) noProfile = .error .indexError := by decide +kernel

/-! ### C67 -/

theorem annotated_from {repo : StretchRepo α} {profile : ProfileOracle α} : ∀ (Ls Ls' : List (Layer α)) (s s' : AnnSt α),
    annotateLayers .cura repo profile s Ls = .ok (s', Ls') → ∀ L' ∈ Ls', ∃ L ∈ Ls, ∃ t t' : AnnSt α, t.type = .unknown ∧ t.next = none ∧
      curaLines repo profile t L.lines = .ok (t', L'.lines) := by
  intro Ls
  induction Ls with
  | nil =>
    intro Ls' s s' h L' hL
    simp only [annotateLayers, Except.ok.injEq, Prod.mk.injEq] at h
    rw [← h.2] at hL
    cases hL
  | cons L Ls ih =>
    intro Ls' s s' h L' hL
    rw [annotateLayers] at h
    cases h1 : annotateLayer .cura repo profile s L.lines with
    | error er => rw [h1] at h; cases h
    | ok p =>
      rw [h1] at h
      obtain ⟨s1, ls⟩ := p
      simp only at h
      cases h2 : annotateLayers .cura repo profile s1 Ls with
      | error er => rw [h2] at h; cases h
      | ok p =>
        rw [h2] at h
        obtain ⟨s2, Ls2⟩ := p
        simp only [Except.ok.injEq, Prod.mk.injEq] at h
        rw [← h.2, List.mem_cons] at hL
        rcases hL with rfl | hL
        · exact ⟨L, List.mem_cons_self, _, s1, rfl, rfl, h1⟩
        · obtain ⟨M, hM, r⟩ := ih Ls2 s1 s2 h2 L' hL
          exact ⟨M, List.mem_cons_of_mem _ hM, r⟩

theorem setup_annotated {slicer : Slicer} {repo : StretchRepo α} {profile : ProfileOracle α} {d : Option (StretchDist α)} {Ls Ls' : List (Layer α)}
    (h : setupFilter slicer repo profile Ls = .ok (d, Ls')) : ∃ s, annotateLayers slicer repo profile {} Ls = .ok (s, Ls') := by
  unfold setupFilter at h
  cases h1 : annotateLayers slicer repo profile {} Ls with
  | error er => rw [h1] at h; cases h
  | ok p =>
    rw [h1] at h
    obtain ⟨s, Ls2⟩ := p
    simp only [Except.ok.injEq, Prod.mk.injEq] at h
    exact ⟨s, by rw [h.2]⟩

/-- C67: every mark that opens a loop is followed, in its layer, by one that closes it. -/
theorem C67_bracketed {repo : StretchRepo α} {profile : ProfileOracle α} {d : Option (StretchDist α)} {Ls Ls' : List (Layer α)}
    (h : setupFilter .cura repo profile Ls = .ok (d, Ls')) (hu : ∀ L ∈ Ls, Unmarked L.lines) :
    ∀ L' ∈ Ls', ∀ i, HasMark c!"stretch-loop-start" L'.lines i → ∃ j, i ≤ j ∧ HasMark c!"stretch-loop-stop" L'.lines j := by
  intro L' hL
  obtain ⟨s, h⟩ := setup_annotated h
  obtain ⟨L, hM, t, t', ht, hn, hc⟩ := annotated_from Ls Ls' _ _ h L' hL
  exact (curaLines_closed L.lines L'.lines t t' (hu L hM) (fun _ => ht) hc).2

theorem cura_boundary {repo : StretchRepo α} {profile : ProfileOracle α} {Ls Ls' : List (Layer α)} {s s' : AnnSt α}
    (h : annotateLayers .cura repo profile s Ls = .ok (s', Ls')) (hu : ∀ L ∈ Ls, Unmarked L.lines ∧ Spaced L.lines) (k : ℕ) :
    loopAt (linesOf (Ls'.take k)) = none := by
  have key : ∀ L' ∈ Ls', L'.lines.foldl loopStep none = none := by
    intro L' hL
    obtain ⟨L, hM, t, t', ht, hn, hc⟩ := annotated_from Ls Ls' _ _ h L' hL
    exact curaLines_state L.lines L'.lines t t' none (hu L hM).1 (hu L hM).2 (fun hx => absurd hn hx) (iff_of_true rfl ht) hc (fun _ => ht)
  clear h
  induction k generalizing Ls' with
  | zero => rfl
  | succ k ih =>
    cases Ls' with
    | nil => rfl
    | cons L' Ls' =>
      have e : linesOf ((L' :: Ls').take (k + 1)) = L'.lines ++ linesOf (Ls'.take k) := by simp [linesOf]
      rw [e]
      unfold loopAt
      rw [List.foldl_append, key L' List.mem_cons_self]
      exact ih (fun M hM => key M (List.mem_cons_of_mem _ hM))

/-- C67, no loop reaches into the next layer, if comments that announce loops are followed by other lines. -/
theorem C67_layers_partial {repo : StretchRepo α} {profile : ProfileOracle α} {d : Option (StretchDist α)} {Ls Ls' : List (Layer α)}
    (h : setupFilter .cura repo profile Ls = .ok (d, Ls')) (hu : ∀ L ∈ Ls, Unmarked L.lines) (hsp : ∀ L ∈ Ls, Spaced L.lines) (k : ℕ) :
    loopAt (linesOf (Ls'.take k)) = none := by
  obtain ⟨s, h⟩ := setup_annotated h
  exact cura_boundary h (fun L hL => ⟨hu L hL, hsp L hL⟩) k

example : (∀ L ∈ (loadQ squareC).allLayers, Unmarked L.lines) ∧ (∀ L ∈ (loadQ squareC).allLayers, Spaced L.lines) ∧
    marksAt c!"stretch-loop-start" (markedLayer .cura squareC 1) ≠ [] := by
  refine ⟨by unfold Unmarked; decide +kernel, ?_, by decide +kernel⟩
  have h : ∀ L ∈ (loadQ squareC).allLayers, ∀ i ∈ List.range L.lines.length, ∀ l ∈ L.lines[i]?, ∀ l' ∈ L.lines[i + 1]?, OpensType l →
      ¬ AnyType l' ∧ i + 2 < L.lines.length := by unfold AnyType OpensType; decide +kernel
  intro L hL i l l' hl
  exact h L hL i (List.mem_range.2 (List.getElem?_eq_some_iff.1 hl).1) l hl l'

/-- Two layers; the first ends with a comment that announces a wall and one more comment. -/
def leak : List Str :=
  [c!"G1 Z0.3", c!"G0 X0 Y0", c!"G1 X5 E1", c!";TYPE:WALL-OUTER", c!";end", c!"G1 Z0.6", c!"G0 X10 Y5", c!"G0 X10 Y5.3", c!"G1 X10.3 Y5 E3", c!";last"]

/-- C67 fails: the loop stays open over the end of the layer, and travel moves of the next layer are displaced. -/
theorem C67_layers_refuted : GCode.load qEnv leak = .ok (loadQ leak) ∧
    (loadQ leak).stretch rSqrt 100 .cura (StretchRepo.default 1) noProfile = .ok (stretchQ .cura 1 leak) ∧
    (∀ L ∈ (loadQ leak).allLayers, Unmarked L.lines) ∧
    ((loadQ leak).allLayers.map (·.lines.length)) = [0, 5, 5, 0] ∧
    loopAt (linesOf ((marksQ .cura 1 leak).take 2)) = some .outer ∧
    ((linesOf (loadQ leak).allLayers)[6]?).map (·.raw) = some c!"G0 X10 Y5" ∧
    ((linesOf (stretchQ .cura 1 leak).allLayers)[6]?).map (·.raw) = some c!"G0 X9.968 Y5.000 F959.000" := by
  refine ⟨by decide +kernel, by decide +kernel, ?_, by decide +kernel, by decide +kernel, by decide +kernel, by decide +kernel⟩
  unfold Unmarked
  decide +kernel

end GCodeUtils
