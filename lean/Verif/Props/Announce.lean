import Verif.Lemmas.Announce
import Verif.Props.StretchWalk

/-
  C82: the moves that are displaced are those the slicer announces as parts of loops.
-/

set_option linter.unusedSectionVars false

namespace GCodeUtils

open Spec

variable {α : Type} [Field α] [LinearOrder α] [IsStrictOrderedRing α] [FloorRing α]

/-! ### line `n` of layer `i` -/

theorem linesOf_split {Ls : List (Layer α)} {i : ℕ} {L : Layer α} (h : Ls[i]? = some L) :
    linesOf Ls = linesOf (Ls.take i) ++ L.lines ++ linesOf (Ls.drop (i + 1)) := by
  rw [← linesOf_take_succ h]
  unfold linesOf
  rw [← List.flatMap_append, List.take_append_drop]

theorem linesOf_get {Ls : List (Layer α)} {i n : ℕ} {L : Layer α} {l : PyLine α} (h : Ls[i]? = some L) (hl : L.lines[n]? = some l) :
    (linesOf Ls)[(linesOf (Ls.take i)).length + n]? = some l := by
  have hn := (List.getElem?_eq_some_iff.1 hl).1
  rw [linesOf_split h, List.append_assoc, List.getElem?_append_right (by omega), List.getElem?_append_left (by omega)]
  rwa [Nat.add_sub_cancel_left]

theorem linesOf_take {Ls : List (Layer α)} {i n : ℕ} {L : Layer α} {l : PyLine α} (h : Ls[i]? = some L) (hl : L.lines[n]? = some l) :
    (linesOf Ls).take ((linesOf (Ls.take i)).length + n) ++ [l] = linesOf (Ls.take i) ++ L.lines.take (n + 1) := by
  have hn := (List.getElem?_eq_some_iff.1 hl).1
  rw [linesOf_split h, List.append_assoc, List.take_length_add_append, List.take_append_of_le_length (by omega), List.take_add_one, hl]
  simp

theorem linesOf_length {R : Layer α → Layer α → Prop} (hR : ∀ L L', R L L' → L'.lines.length = L.lines.length) {A B : List (Layer α)}
    (h : List.Forall₂ R A B) : ∀ i, (linesOf (B.take i)).length = (linesOf (A.take i)).length := by
  induction h with
  | nil => intro i; simp
  | cons hL _ ih =>
    intro i
    cases i with
    | zero => rfl
    | succ i =>
      have := ih i
      unfold linesOf at this ⊢
      rw [List.take_succ_cons, List.take_succ_cons, List.flatMap_cons, List.flatMap_cons, List.length_append, List.length_append, this, hR _ _ hL]

theorem forall₂_get {β γ : Type} {R : β → γ → Prop} {A : List β} {B : List γ} (h : List.Forall₂ R A B) : ∀ {i : ℕ} {a : β}, A[i]? = some a →
    ∃ b, B[i]? = some b ∧ R a b := by
  induction h with
  | nil => intro i a h; simp at h
  | cons hx _ ih =>
    intro i a h
    cases i with
    | zero => exact ⟨_, rfl, by simpa using (by simpa using h : _ = a) ▸ hx⟩
    | succ i => exact ih (by simpa using h)

/-! ### C82 -/

/-- C82, partially. In a program whose comments are placed so that the filter can follow them, the linear X/Y moves that the slicer
announces as parts of walls, perimeters, edges and skins are written anew, displaced by no more than edge width × ratio × strength with
the ratio of the kind announced; all other lines keep their text, apart from marks.  Missing: other placements of the comments (see
the refutations below). -/
theorem C82_announced_partial {ε : α} {sqrt : α → α} (hs : IsSqrt ε sqrt) {fuel : ℕ} {slicer : Slicer} {cross loop inside outside dist strength : α}
    {profile : ProfileOracle α} {g g' : GCode α} {d : Option (StretchDist α)} {ann : List (Layer α)}
    (ha : setupFilter slicer (StretchRepo.make cross loop inside outside dist strength) profile g.allLayers = .ok (d, ann))
    (h : g.stretch sqrt fuel slicer (StretchRepo.make cross loop inside outside dist strength) profile = .ok g')
    (hu : ∀ L ∈ g.allLayers, Unmarked L.lines) :
    ∃ w, WidthUsed slicer profile (linesOf g.allLayers) (linesOf ann) w ∧
      ∀ (i n : ℕ) (L : Layer α) (l : PyLine α), Followable slicer g.allLayers i → g.allLayers[i]? = some L → L.lines[n]? = some l →
        ∃ L' l', g'.allLayers[i]? = some L' ∧ L'.lines[n]? = some l' ∧
          (∀ k, announced slicer g.allLayers i n = some k → XYMove l → 0 < w * (ratio loop inside outside k * strength) →
            Pushed ε (w * (ratio loop inside outside k * strength)) l l') ∧
          ((∀ k, announced slicer g.allLayers i n = some k → XYMove l → ¬ 0 < w * (ratio loop inside outside k * strength)) → OnlyMarked l l') := by
  obtain ⟨w, h1, h2, h3, _⟩ := stretch_lines hs ha h
  refine ⟨w, h1, ?_⟩
  intro i n L l hf hL hl
  have hm := setupFilter_marked ha
  obtain ⟨La, hLa, hma⟩ := forall₂_get hm hL
  obtain ⟨L', hL', hs1, hs2⟩ := forall₂_get h3 hLa
  obtain ⟨la, hla, hmk⟩ := forall₂_get hma.2 hl
  have hn := (List.getElem?_eq_some_iff.1 hl).1
  obtain ⟨l', hl'⟩ : ∃ l', L'.lines[n]? = some l' := ⟨_, List.getElem?_eq_getElem (by rw [hs2, ← hma.2.length_eq]; exact hn)⟩
  have hk := h2 _ la l' (linesOf_get hLa hla)
    (by rw [← linesOf_length (fun _ _ hh => hh.2) h3 i]; exact linesOf_get hL' hl')
  rw [linesOf_take hLa hla] at hk
  refine ⟨L', l', hL', hl', ?_⟩
  obtain ⟨s, hs', rfl⟩ := hmk
  by_cases hxy : XYMove l
  · have hann := announced_loop ha hu hf hL hLa hn (fun hc he => by
      subst hc
      have hq := (hf L (mem_take_get (Nat.lt_succ_self i) hL)).2.1
      refine hq l ?_ hxy
      rw [List.getLast?_eq_getElem?, ← he, Nat.add_sub_cancel, hl])
    unfold LineStretch at hk
    rw [hann] at hk
    constructor
    · intro k hk' _ hlt
      rw [hk'] at hk
      simp only [reach_make] at hk
      rw [if_pos ⟨hxy, hlt⟩] at hk
      obtain ⟨dx, dy, q, _, _, _, hb, _, m, k1, k2, k3, k4, _⟩ := hk
      have he : linesOf (ann.take i) ++ La.lines.take (n + 1) = (linesOf (ann.take i) ++ La.lines.take n) ++ [{ l with raw := l.raw ++ s }] := by
        rw [List.take_add_one, hla, List.append_assoc]; rfl
      rw [he] at hann k3 k4
      obtain ⟨e1, e2, _⟩ := loop_aims (hann.trans hk') (show XYMove ({ l with raw := l.raw ++ s } : PyLine α) from hxy)
      rw [e1] at k3
      rw [e2] at k4
      refine ⟨m, dx, dy, k1, k2, ?_, ?_, hb⟩
      · intro x hx
        rw [k3, aimX]
        simp only [hx, Option.getD_some]
      · intro y hy
        rw [k4, aimY]
        simp only [hy, Option.getD_some]
    · intro hno
      refine ⟨s, hs', ?_⟩
      cases e : announced slicer g.allLayers i n with
      | none => rw [e] at hk; exact hk
      | some k =>
        rw [e] at hk
        simp only [reach_make] at hk
        rwa [if_neg (fun hc => hno k e hxy hc.2)] at hk
  · refine ⟨fun k _ hc => absurd hc hxy, fun _ => ⟨s, hs', ?_⟩⟩
    unfold LineStretch at hk
    cases e : loopAt (linesOf (ann.take i) ++ La.lines.take (n + 1)) with
    | none => rw [e] at hk; exact hk
    | some k =>
      rw [e] at hk
      simp only at hk
      rwa [if_neg (fun hc => hxy hc.1)] at hk

/-- The hypotheses are met: a Cura layer with a wall and a filling, and a Slic3r layer with an external perimeter and a filling. -/
example : (loadQ squareEnd).stretch rSqrt 100 .cura (StretchRepo.default 1) noProfile = .ok (stretchQ .cura 1 squareEnd) ∧
    (∀ L ∈ (loadQ squareEnd).allLayers, Unmarked L.lines) ∧ Followable .cura (loadQ squareEnd).allLayers 1 ∧
    announced .cura (loadQ squareEnd).allLayers 1 3 = some .outer ∧ announced .cura (loadQ squareEnd).allLayers 1 8 = none ∧
    (∀ L ∈ (loadQ squareS).allLayers, Unmarked L.lines) ∧ Followable .slic3r (loadQ squareS).allLayers 1 ∧
    announced .slic3r (loadQ squareS).allLayers 1 2 = some .outer ∧ announced .slic3r (loadQ squareS).allLayers 1 7 = none := by
  refine ⟨by decide +kernel, by unfold Unmarked; decide +kernel, ?_, by decide +kernel, by decide +kernel, by unfold Unmarked; decide +kernel, ?_,
    by decide +kernel, by decide +kernel⟩
  · have h : ∀ L ∈ (loadQ squareEnd).allLayers.take 2, ∀ i ∈ List.range L.lines.length, ∀ l ∈ L.lines[i]?, ∀ l' ∈ L.lines[i + 1]?, OpensType l →
        ¬ AnyType l' ∧ i + 2 < L.lines.length := by unfold AnyType OpensType; decide +kernel
    intro L hL
    refine ⟨fun i l l' hl => h L hL i (List.mem_range.2 (List.getElem?_eq_some_iff.1 hl).1) l hl l', ?_, ?_⟩
    · have h2 : ∀ L ∈ (loadQ squareEnd).allLayers.take 2, ∀ l ∈ L.lines.getLast?, ¬ XYMove l := by decide +kernel
      exact fun l hl => h2 L hL l hl
    · have h3 : ∀ L ∈ (loadQ squareEnd).allLayers.take 2, ∀ l ∈ L.lines, c!";TYPE:" <+: l.raw → AnyType l := by
        unfold AnyType OpensType; decide +kernel
      exact h3 L hL
  · show ∀ L ∈ (loadQ squareS).allLayers.take 1, Finished L.lines
    unfold Finished
    decide +kernel

/-- A Skeinforge program with an outer edge. -/
def squareK : List Str :=
  [c!"(<edgeWidth> 0.5 </edgeWidth>)", c!"G1 X0 Y0 Z0.3 F7800", c!"(<edge> outer )", c!"M101", c!"G1 X1 Y0 Z0.3 F1200", c!"G1 X1 Y1 Z0.3 F1200",
   c!"G1 X0 Y1 Z0.3 F1200", c!"G1 X0 Y0 Z0.3 F1200", c!"M103", c!"(</edge>)", c!"G1 X20 Y20 Z0.3 F7800", c!"M101", c!"G1 X30 Y20 Z0.3 F1200", c!"M103"]

example : (loadQ squareK).stretch rSqrt 100 .skeinforge (StretchRepo.default 1) noProfile = .ok (stretchQ .skeinforge 1 squareK) ∧
    (∀ L ∈ (loadQ squareK).allLayers, Unmarked L.lines) ∧ announced .skeinforge (loadQ squareK).allLayers 1 3 = some .outer ∧
    (nthLayer (stretchQ .skeinforge 1 squareK).allLayers 1)[3]?.map (·.raw) = some c!"G1 X1.035 Y-0.035 Z0.300 F1200.000" ∧
    announced .skeinforge (loadQ squareK).allLayers 1 9 = none := by
  refine ⟨by decide +kernel, by unfold Unmarked; decide +kernel, by decide +kernel, by decide +kernel, by decide +kernel⟩

/-- A Cura layer with a wall and a support. -/
def supported : List Str :=
  [c!"G1 Z0.3", c!"G0 X0 Y0", c!";TYPE:WALL-OUTER", c!"G1 X10 Y0 E1", c!"G1 X10 Y1 E2", c!";TYPE:SUPPORT", c!"G1 X9 Y1 E3", c!"G1 X9 Y9 E4",
   c!"G1 X4 Y9 E5", c!";end"]

/-- C82 fails for Cura: a support printed after a wall is displaced with it. -/
theorem C82_refuted_support : GCode.load qEnv supported = .ok (loadQ supported) ∧
    (loadQ supported).stretch rSqrt 100 .cura (StretchRepo.default 1) noProfile = .ok (stretchQ .cura 1 supported) ∧
    announced .cura (loadQ supported).allLayers 1 8 = none ∧
    (nthLayer (loadQ supported).allLayers 1)[8]?.map (·.raw) = some c!"G1 X4 Y9 E5" ∧
    (nthLayer (stretchQ .cura 1 supported).allLayers 1)[8]?.map (·.raw) = some c!"G1 X3.972 Y9.000 E4.86202 F959.000" := by
  decide +kernel

/-- A Cura layer that ends with a wall. -/
def wallLast : List Str :=
  [c!"G1 Z0.3", c!"G0 X0 Y0", c!";TYPE:WALL-OUTER", c!"G1 F1200 X1 Y0 E1", c!"G1 X1 Y1 E2", c!"G1 X0 Y1 E3", c!"G1 X0 Y0 E4"]

/-- C82 fails for Cura: the last move of a wall is not displaced if it is the last line of its layer. -/
theorem C82_refuted_last : GCode.load qEnv wallLast = .ok (loadQ wallLast) ∧
    (loadQ wallLast).stretch rSqrt 100 .cura (StretchRepo.default 1) noProfile = .ok (stretchQ .cura 1 wallLast) ∧
    announced .cura (loadQ wallLast).allLayers 1 6 = some .outer ∧
    (nthLayer (stretchQ .cura 1 wallLast).allLayers 1)[6]?.map (·.raw) = some c!"G1 X0 Y0 E4 ; stretch-loop-stop" := by
  decide +kernel

/-- Two Slic3r layers, the first of which ends inside a perimeter; the second is a filling. -/
def drift : List Str :=
  [c!"G1 Z0.3 F7800", c!"G1 X0 Y0 F7800 ; move to first perimeter point", c!"G1 X1 Y0 E1 F1200 ; perimeter external",
   c!"G1 X1 Y1 E2 ; perimeter external", c!"G1 X0 Y1 E3 ; perimeter external", c!"G1 X0 Y0 E4 ; perimeter external", c!"G1 Z0.6 F7800",
   c!"G1 X20 Y20 F7800 ; move to first infill point", c!"G1 X20.5 Y20 E5 ; infill", c!"G1 X20.5 Y20.5 E6 ; infill"]

/-- C82 fails for Slic3r: the filling of a layer is displaced if the layer below ended inside a perimeter. -/
theorem C82_refuted_drift : GCode.load qEnv drift = .ok (loadQ drift) ∧
    (loadQ drift).stretch rSqrt 100 .slic3r (StretchRepo.default 1) noProfile = .ok (stretchQ .slic3r 1 drift) ∧
    (∀ n, n < 4 → announced .slic3r (loadQ drift).allLayers 2 n = none) ∧
    (nthLayer (loadQ drift).allLayers 2).map (·.raw) =
      [c!"G1 Z0.6 F7800", c!"G1 X20 Y20 F7800 ; move to first infill point", c!"G1 X20.5 Y20 E5 ; infill", c!"G1 X20.5 Y20.5 E6 ; infill"] ∧
    (nthLayer (stretchQ .slic3r 1 drift).allLayers 2).map (·.raw) =
      [c!"G1 Z0.6 F7800", c!"G1 X19.980 Y19.988 F7800.000", c!"G1 X20.528 Y19.972 E4.80000 F7800.000", c!"G1 X20.512 Y20.520 E5.86006 F7800.000"] := by
  decide +kernel

end GCodeUtils
