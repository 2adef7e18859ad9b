import Verif.Lemmas.StretchWidth
import Verif.Props.Cut
import Verif.Props.Stretch

/-
  C146: how a layer is stretched does not depend on the layers above it.
-/

set_option linter.unusedSectionVars false

namespace GCodeUtils

open Spec

variable {α : Type} [Field α] [LinearOrder α] [IsStrictOrderedRing α] [FloorRing α]

/-- A line that may tell the edge width: what it begins with. -/
def MayTell : Slicer → PyLine α → Prop
  | .slic3r, l => c!"; external perimeters extrusion width" <+: l.raw
  | .cura, l => c!";CURA_PROFILE_STRING:" <+: l.raw
  | .skeinforge, l => c!"(<edgeWidth> " <+: l.raw

/-! ### the layers one after the other -/

theorem annotateLayers_cut {slicer : Slicer} {repo : StretchRepo α} {profile : ProfileOracle α} (A : List (Layer α)) {B : List (Layer α)} :
    ∀ {s s' : AnnSt α} {Ls : List (Layer α)}, annotateLayers slicer repo profile s (A ++ B) = .ok (s', Ls) →
    ∃ s1 A' B', annotateLayers slicer repo profile s A = .ok (s1, A') ∧ annotateLayers slicer repo profile s1 B = .ok (s', B') ∧ Ls = A' ++ B' := by
  induction A with
  | nil => intro s s' Ls h; exact ⟨s, [], Ls, rfl, h, rfl⟩
  | cons L A ih =>
    intro s s' Ls h
    rw [List.cons_append, annotateLayers] at h
    cases h1 : annotateLayer slicer repo profile s L.lines with
    | error er => rw [h1] at h; cases h
    | ok p =>
      rw [h1] at h
      simp only at h
      cases h2 : annotateLayers slicer repo profile p.1 (A ++ B) with
      | error er => rw [h2] at h; cases h
      | ok q =>
        rw [h2] at h
        simp only [Except.ok.injEq, Prod.mk.injEq] at h
        obtain ⟨s1, A', B', k1, k2, k3⟩ := ih h2
        refine ⟨s1, { L with lines := p.2 } :: A', B', ?_, by rw [← h.1]; exact k2, by rw [← h.2, k3, List.cons_append]⟩
        rw [annotateLayers, h1]
        simp only [k1]

theorem stretchLayers_cut {sqrt : α → α} {fuel : ℕ} {kf kb : ItKind} (A : List (Layer α)) {B : List (Layer α)} :
    ∀ {s s' : StretchSt α} {Ls : List (Layer α)}, stretchLayers sqrt fuel kf kb s (A ++ B) = .ok (s', Ls) →
    ∃ s1 A' B', stretchLayers sqrt fuel kf kb s A = .ok (s1, A') ∧ Ls = A' ++ B' ∧ A'.length = A.length ∧ stretchLayers sqrt fuel kf kb s1 B = .ok (s', B') := by
  induction A with
  | nil => intro s s' Ls h; exact ⟨s, [], Ls, rfl, rfl, rfl, h⟩
  | cons L A ih =>
    intro s s' Ls h
    rw [List.cons_append, stretchLayers] at h
    cases h1 : stretchLayer sqrt fuel kf kb s L.lines 0 L.lines with
    | error er => rw [h1] at h; cases h
    | ok p =>
      rw [h1] at h
      simp only at h
      cases h2 : stretchLayers sqrt fuel kf kb p.1 (A ++ B) with
      | error er => rw [h2] at h; cases h
      | ok q =>
        rw [h2] at h
        simp only [Except.ok.injEq, Prod.mk.injEq] at h
        obtain ⟨s1, A', B', k1, k3, k4, k5⟩ := ih h2
        refine ⟨s1, { L with lines := p.2 } :: A', B', ?_, by rw [← h.2, k3, List.cons_append], by simp [k4], by rw [← h.1]; exact k5⟩
        rw [stretchLayers, h1]
        simp only [k1]

theorem annotateLayers_length {slicer : Slicer} {repo : StretchRepo α} {profile : ProfileOracle α} {s s' : AnnSt α} {Ls Ls' : List (Layer α)}
    (h : annotateLayers slicer repo profile s Ls = .ok (s', Ls')) : Ls'.length = Ls.length := (annotateLayers_marked h).length_eq.symm

/-! ### lines that tell nothing -/

theorem marks_no_colon {s : Str} (h : Marks s) : ':' ∉ s := by
  induction h with
  | nil => simp
  | cons sep m s hs hm _ ih =>
    intro hc
    rcases List.mem_append.1 hc with hc | hc
    · rcases List.mem_append.1 hc with hc | hc
      · rcases hs with rfl | rfl
        · revert hc; decide
        · revert hc; decide
      · have : ∀ m ∈ markTexts, ':' ∉ m := by decide
        exact this m hm hc
    · exact ih hc

theorem profile_of_marked {raw r : Str} (h : c!";CURA_PROFILE_STRING:" <+: raw ++ r) (hr : ':' ∉ r) : c!";CURA_PROFILE_STRING:" <+: raw := by
  rcases List.prefix_or_prefix_of_prefix h (List.prefix_append raw r) with h1 | ⟨y, h1⟩
  · exact h1
  · cases y with
    | nil => rw [← h1]; simp
    | cons c y =>
      exfalso
      apply hr
      have h2 : (c :: y) <+: r := by
        rw [← h1] at h
        exact (List.prefix_append_right_inj raw).1 h
      apply h2.subset
      have hl : (c!";CURA_PROFILE_STRING:" : Str).getLast? = some ':' := rfl
      rw [← h1, List.getLast?_append_of_ne_nil _ (by simp)] at hl
      exact List.mem_of_getLast? hl

/-- The width used in the end. -/
def usedDist (slicer : Slicer) (repo : StretchRepo α) (s : AnnSt α) : Option (StretchDist α) :=
  match slicer with
  | .skeinforge => s.dist
  | _ => if s.found then s.dist else some (setEdgeWidth repo (4 / 10))

theorem slic3rLines_silent {repo : StretchRepo α} (ls : List (PyLine α)) : ∀ {s s' : AnnSt α} {ls' : List (PyLine α)},
    (∀ l ∈ ls, ¬ MayTell .slic3r l) → slic3rLines repo s ls = .ok (s', ls') → s'.dist = s.dist ∧ s'.found = s.found := by
  induction ls with
  | nil => intro s s' ls' _ h; simp only [slic3rLines, Except.ok.injEq, Prod.mk.injEq] at h; rw [← h.1]; exact ⟨rfl, rfl⟩
  | cons l ls ih =>
    intro s s' ls' hn h
    rw [slic3rLines] at h
    cases h1 : slic3rLine repo s l ls with
    | error er => rw [h1] at h; cases h
    | ok p =>
      rw [h1] at h
      simp only at h
      cases h2 : slic3rLines repo p.1 ls with
      | error er => rw [h2] at h; cases h
      | ok q =>
        rw [h2] at h
        simp only [Except.ok.injEq, Prod.mk.injEq] at h
        have k := ih (s' := q.1) (ls' := q.2) (fun l hl => hn l (by simp [hl])) h2
        have k1 := slic3rLine_state (s' := p.1) (l' := p.2) h1
        have e : slic3rEdgeWidth l.raw = none := by
          cases hw : slic3rEdgeWidth l.raw with
          | none => rfl
          | some n =>
            obtain ⟨a, b, rest, he, _⟩ := (slic3rEdgeWidth_iff _ _).1 hw
            exact absurd ⟨a ++ c!"=" ++ b ++ n ++ c!"mm" ++ rest, by rw [he]; simp only [List.append_assoc]⟩ (hn l (by simp))
        rw [e] at k1
        rw [← h.1]
        exact ⟨k.1.trans k1.1, k.2.trans k1.2⟩

theorem curaLines_silent {repo : StretchRepo α} {profile : ProfileOracle α} (ls : List (PyLine α)) : ∀ {s s' : AnnSt α} {ls' : List (PyLine α)},
    (∀ l ∈ ls, ¬ MayTell .cura l) → curaLines repo profile s ls = .ok (s', ls') → s'.dist = s.dist ∧ s'.found = s.found := by
  induction ls with
  | nil => intro s s' ls' _ h; simp only [curaLines, Except.ok.injEq, Prod.mk.injEq] at h; rw [← h.1]; exact ⟨rfl, rfl⟩
  | cons l ls ih =>
    intro s s' ls' hn h
    rw [curaLines] at h
    cases h1 : curaLine repo profile s l ls.isEmpty with
    | error er => rw [h1] at h; cases h
    | ok p =>
      rw [h1] at h
      simp only at h
      cases h2 : curaLines repo profile p.1 ls with
      | error er => rw [h2] at h; cases h
      | ok q =>
        rw [h2] at h
        simp only [Except.ok.injEq, Prod.mk.injEq] at h
        have k := ih (s' := q.1) (ls' := q.2) (fun l hl => hn l (by simp [hl])) h2
        obtain ⟨m, hm, hl⟩ := (curaLine_marked (s' := p.1) (l' := p.2) h1).1
        have no : ∀ v, ¬ curaSays profile p.2 v := by
          rintro v ⟨t, ht, _⟩
          rw [hl] at ht
          exact hn l (by simp) (profile_of_marked ⟨t, ht.symm⟩ (marks_no_colon hm))
        rw [← h.1]
        rcases curaLine_state (s' := p.1) (l' := p.2) h1 with ⟨a, b, _⟩ | ⟨_, b⟩ | ⟨w, _, _, b⟩
        · exact ⟨k.1.trans a, k.2.trans b⟩
        · exact absurd b (no _)
        · exact absurd b (no _)

theorem skeinforgeLines_silent {repo : StretchRepo α} (ls : List (PyLine α)) : ∀ {s s' : AnnSt α} {ls' : List (PyLine α)},
    (∀ l ∈ ls, ¬ MayTell .skeinforge l) → skeinforgeLines repo s ls = .ok (s', ls') → s'.dist = s.dist := by
  induction ls with
  | nil => intro s s' ls' _ h; simp only [skeinforgeLines, Except.ok.injEq, Prod.mk.injEq] at h; rw [← h.1]
  | cons l ls ih =>
    intro s s' ls' hn h
    rw [skeinforgeLines] at h
    cases h1 : skeinforgeLine repo s l with
    | error er => rw [h1] at h; cases h
    | ok p =>
      rw [h1] at h
      simp only at h
      cases h2 : skeinforgeLines repo p.1 ls with
      | error er => rw [h2] at h; cases h
      | ok q =>
        rw [h2] at h
        simp only [Except.ok.injEq, Prod.mk.injEq] at h
        have k := ih (s' := q.1) (ls' := q.2) (fun l hl => hn l (by simp [hl])) h2
        have k1 := skeinforgeLine_state (s' := p.1) (l' := p.2) h1
        have e : skeinforgeEdgeWidth l.raw = none := by
          cases hw : skeinforgeEdgeWidth l.raw with
          | none => rfl
          | some n =>
            obtain ⟨rest, he, _⟩ := (skeinforgeEdgeWidth_iff _ _).1 hw
            exact absurd ⟨n ++ rest, by rw [he]; simp only [List.append_assoc]⟩ (hn l (by simp))
        rw [e] at k1
        rw [← h.1]
        exact k.trans k1

theorem annotateLayers_silent {slicer : Slicer} {repo : StretchRepo α} {profile : ProfileOracle α} (Ls : List (Layer α)) :
    ∀ {s s' : AnnSt α} {Ls' : List (Layer α)}, (∀ l ∈ linesOf Ls, ¬ MayTell slicer l) →
    annotateLayers slicer repo profile s Ls = .ok (s', Ls') → usedDist slicer repo s' = usedDist slicer repo s := by
  induction Ls with
  | nil => intro s s' Ls' _ h; simp only [annotateLayers, Except.ok.injEq, Prod.mk.injEq] at h; rw [← h.1]
  | cons L Ls ih =>
    intro s s' Ls' hn h
    rw [annotateLayers] at h
    cases h1 : annotateLayer slicer repo profile s L.lines with
    | error er => rw [h1] at h; cases h
    | ok p =>
      rw [h1] at h
      simp only at h
      cases h2 : annotateLayers slicer repo profile p.1 Ls with
      | error er => rw [h2] at h; cases h
      | ok q =>
        rw [h2] at h
        simp only [Except.ok.injEq, Prod.mk.injEq] at h
        have hL : ∀ l ∈ L.lines, ¬ MayTell slicer l := fun l hl => hn l (by simp [linesOf, hl])
        rw [← h.1, ih (s' := q.1) (Ls' := q.2) (fun l hl => hn l (by unfold linesOf at hl ⊢; rw [List.flatMap_cons]; exact List.mem_append_right _ hl)) h2]
        unfold annotateLayer at h1
        cases slicer with
        | slic3r =>
          obtain ⟨a, b⟩ := slic3rLines_silent (s' := p.1) (ls' := p.2) L.lines hL h1
          unfold usedDist
          simp only [a, b]
        | cura =>
          obtain ⟨a, b⟩ := curaLines_silent (s' := p.1) (ls' := p.2) L.lines hL h1
          unfold usedDist
          simp only [a, b]
        | skeinforge =>
          have a := skeinforgeLines_silent (s' := p.1) (ls' := p.2) L.lines hL h1
          unfold usedDist
          simp only [a]

theorem setupFilter_used {slicer : Slicer} {repo : StretchRepo α} {profile : ProfileOracle α} {Ls ann : List (Layer α)} {d : Option (StretchDist α)}
    (h : setupFilter slicer repo profile Ls = .ok (d, ann)) : ∃ s, annotateLayers slicer repo profile {} Ls = .ok (s, ann) ∧ d = usedDist slicer repo s := by
  unfold setupFilter at h
  cases h1 : annotateLayers slicer repo profile {} Ls with
  | error er => rw [h1] at h; cases h
  | ok p =>
    rw [h1] at h
    simp only [Except.ok.injEq, Prod.mk.injEq] at h
    refine ⟨p.1, by rw [← h.2], h.1.symm.trans ?_⟩
    unfold usedDist
    cases slicer <;> rfl

/-! ### the theorems -/

/-- C146. Two programs begin with the same layers, no line of the layers after these tells an edge width, and both are stretched: then the
layers they begin with come out the same. -/
theorem C146_layers {sqrt : α → α} {fuel : ℕ} {slicer : Slicer} {repo : StretchRepo α} {profile : ProfileOracle α} {g g' r r' : GCode α}
    {A B B' : List (Layer α)} (hA : g.allLayers = A ++ B) (hA' : g'.allLayers = A ++ B')
    (hB : ∀ l ∈ linesOf B, ¬ MayTell slicer l) (hB' : ∀ l ∈ linesOf B', ¬ MayTell slicer l)
    (h : g.stretch sqrt fuel slicer repo profile = .ok r) (h' : g'.stretch sqrt fuel slicer repo profile = .ok r') :
    ∃ S C C', r.allLayers = S ++ C ∧ r'.allLayers = S ++ C' ∧ S.length = A.length := by
  obtain ⟨d, Ls, st, o, k1, k2, rfl⟩ := stretch_parts h
  obtain ⟨d', Ls', st', o', k1', k2', rfl⟩ := stretch_parts h'
  obtain ⟨s, q1, q2⟩ := setupFilter_used k1
  obtain ⟨s', q1', q2'⟩ := setupFilter_used k1'
  rw [hA] at q1
  rw [hA'] at q1'
  obtain ⟨u, A1, B1, p1, p2, rfl⟩ := annotateLayers_cut A q1
  obtain ⟨u', A1', B1', p1', p2', rfl⟩ := annotateLayers_cut A q1'
  rw [p1, Except.ok.injEq, Prod.mk.injEq] at p1'
  obtain ⟨rfl, rfl⟩ := p1'
  have e : d = d' := by rw [q2, q2', annotateLayers_silent B hB p2, annotateLayers_silent B' hB' p2']
  subst e
  obtain ⟨w, S, C, w1, w2, w3, _⟩ := stretchLayers_cut A1 k2
  obtain ⟨w', S', C', w1', w2', w3', _⟩ := stretchLayers_cut A1 k2'
  rw [w1, Except.ok.injEq, Prod.mk.injEq] at w1'
  obtain ⟨rfl, rfl⟩ := w1'
  exact ⟨S, C, C', w2, w2', by rw [w3, annotateLayers_length p1]⟩

/-- C146 for files. A file is stretched and so is its beginning, and no edge width is told from the last layer of the beginning on: then all layers of
the beginning but the last (and the empty layer at the end of every program) come out as the first layers of the whole. -/
theorem C146_file {env : Env α} {light : Bool} {home : Home α} {sqrt : α → α} {fuel : ℕ} {slicer : Slicer} {repo : StretchRepo α} {profile : ProfileOracle α}
    {data rest : List Str} {g g' r r' : GCode α} (hg : GCode.load env data light home = .ok g) (hg' : GCode.load env (data ++ rest) light home = .ok g')
    (hne : g.lines ≠ []) (hB : ∀ l ∈ linesOf (g'.allLayers.drop (g.allLayers.length - 2)), ¬ MayTell slicer l)
    (h : g.stretch sqrt fuel slicer repo profile = .ok r) (h' : g'.stretch sqrt fuel slicer repo profile = .ok r') :
    r.allLayers.length = g.allLayers.length ∧ r.allLayers.take (g.allLayers.length - 2) = r'.allLayers.take (g.allLayers.length - 2) := by
  obtain ⟨A, B, L, L', E, e1, e2, e3, e4, _⟩ := C143_last_layer hg hg' hne
  have el : g.allLayers.length - 2 = A.length := by rw [e1]; simp
  rw [el] at hB ⊢
  rw [e3, List.drop_left] at hB
  have hl : ∀ l ∈ linesOf [L, E], ¬ MayTell slicer l := by
    intro l hl
    refine hB l ?_
    simp only [linesOf, List.flatMap_cons, List.flatMap_nil, e2, List.append_nil, List.mem_append] at hl ⊢
    exact .inl (e4.subset hl)
  obtain ⟨S, C, C', k1, k2, k3⟩ := C146_layers e1 e3 hl hB h h'
  refine ⟨?_, by rw [k1, k2, ← k3, List.take_left, List.take_left]⟩
  obtain ⟨d, Ls, st, o, q1, q2, rfl⟩ := stretch_parts h
  obtain ⟨s, q3, _⟩ := setupFilter_used q1
  obtain ⟨_, S', C', _, w2, w3, w4⟩ := stretchLayers_cut Ls (B := []) (by rw [List.append_nil]; exact q2)
  simp only [stretchLayers, Except.ok.injEq, Prod.mk.injEq] at w4
  rw [← annotateLayers_length q3, ← w3]
  show o.length = _
  rw [w2, ← w4.2, List.append_nil]

/-! ### the hypotheses are met -/

/-- A Slic3r program with a second layer and the beginning of a third. -/
def twoFloors : List Str := squareS ++ [c!"G1 Z0.6 F7800", c!"G1 X0 Y0 F7800 ; move to first perimeter point", c!"G1 X2 Y0 E6 F1200 ; perimeter external"]
def moreFloors : List Str := [c!"G1 X2 Y2 E7 ; perimeter external", c!"G1 X0 Y0 E8 ; perimeter external", c!"G1 Z0.9 F7800", c!"G1 X0 Y5 E9 ; perimeter"]

example : GCode.load qEnv twoFloors = .ok (loadQ twoFloors) ∧ GCode.load qEnv (twoFloors ++ moreFloors) = .ok (loadQ (twoFloors ++ moreFloors)) ∧
    (loadQ twoFloors).lines ≠ [] ∧
    (loadQ twoFloors).stretch rSqrt 100 .slic3r (StretchRepo.default 1) noProfile = .ok (stretchQ .slic3r 1 twoFloors) ∧
    (loadQ (twoFloors ++ moreFloors)).stretch rSqrt 100 .slic3r (StretchRepo.default 1) noProfile = .ok (stretchQ .slic3r 1 (twoFloors ++ moreFloors)) := by
  decide +kernel

example : (loadQ twoFloors).allLayers.length = 4 ∧
    (linesOf ((stretchQ .slic3r 1 twoFloors).allLayers.take 2))[4]?.map (·.raw) = some c!"G1 X1.035 Y1.035 E1.90000 F1200.000" := by decide +kernel

example : ∀ l ∈ linesOf ((loadQ (twoFloors ++ moreFloors)).allLayers.drop ((loadQ twoFloors).allLayers.length - 2)), ¬ MayTell .slic3r l := by
  unfold MayTell
  decide +kernel

/-! ### where it is false -/

/-- C146 is false if the width is told later: a Slic3r file cut before the comment with the width is stretched for 0.4 mm, the whole file for what the
comment says, from its first layer on. -/
theorem C146_width_refuted : ∃ (data rest : List Str) (r r' : GCode ℚ),
    GCode.load qEnv data = .ok (loadQ data) ∧ GCode.load qEnv (data ++ rest) = .ok (loadQ (data ++ rest)) ∧
    (loadQ data).stretch rSqrt 100 .slic3r (StretchRepo.default 1) noProfile = .ok r ∧
    (loadQ (data ++ rest)).stretch rSqrt 100 .slic3r (StretchRepo.default 1) noProfile = .ok r' ∧
    (linesOf r.allLayers)[2]?.map (·.raw) = some c!"G1 X1.024 Y-0.024 E0.96606 F1200.000" ∧
    (linesOf r'.allLayers)[2]?.map (·.raw) = some c!"G1 X1.071 Y-0.071 E0.90000 F1200.000" :=
  ⟨squareS.drop 1 ++ [c!"G1 Z0.6 F7800"], [c!"; external perimeters extrusion width = 1.00mm"],
    stretchQ .slic3r 1 (squareS.drop 1 ++ [c!"G1 Z0.6 F7800"]),
    stretchQ .slic3r 1 (squareS.drop 1 ++ [c!"G1 Z0.6 F7800"] ++ [c!"; external perimeters extrusion width = 1.00mm"]), by decide +kernel⟩

/-- C146 is false for the command: it takes a Cura file that is cut before its profile, which is at the end, for one of Slic3r, and finds no loops in it. -/
theorem C146_profile_refuted : ∃ data rest : List Str,
    stretchPipeline qEnv rSqrt 100 (StretchRepo.default 1) noProfile data =
      .ok c!"G1 Z0.3 F7800\nG0 X0 Y0 F7800\n;TYPE:WALL-OUTER\nG1 X1.000 Y0.000 E1.00000 F1200.000 ; stretch-extrusion-on\nG1 X1.000 Y1.000 E1.00000\nG1 X0.000 Y1.000 E1.00000\nG1 X0.000 Y0.000 E1.00000\n;TYPE:FILL\nG0 F7800 X2 Y2\nG1 X8.000 E1.00000 F1200.000\n" ∧
    stretchPipeline qEnv rSqrt 100 (StretchRepo.default 1) noProfile (data ++ rest) =
      .ok c!"G1 Z0.3 F7800\nG0 X0 Y0 F7800\n;TYPE:WALL-OUTER\nG1 X1.024 Y-0.024 E0.96606 F1200.000\nG1 X1.024 Y1.024 E0.96606 F1200.000\nG1 X-0.024 Y1.024 E0.96606 F1200.000\nG1 X-0.024 Y-0.024 E0.96606 F1200.000\n;TYPE:FILL ; stretch-loop-stop\nG0 F7800 X2 Y2\nG1 X8.000 E1.00000 F1200.000\nG1 Z5\n;CURA_PROFILE_STRING:\n" :=
  ⟨squareC, [c!"G1 Z5", c!";CURA_PROFILE_STRING:"], by decide +kernel⟩

end GCodeUtils
