import Verif.Lemmas.StretchWidth
import Verif.Lemmas.StretchSqrt
import Verif.Lemmas.Exec
import Verif.Props.Common

/-
  C58-C63, C66, C73: what stretching does to the lines of a program.

  `ann` are the layers after the marks have been added, `sqrt` a square root with relative error `ε` (0 for the exact one).
-/

set_option linter.unusedSectionVars false

namespace GCodeUtils

open Spec

variable {α : Type} [Field α] [LinearOrder α] [IsStrictOrderedRing α] [FloorRing α]

/-! ### sample programs -/

/-- A Slic3r program: one external perimeter. -/
def squareS : List Str :=
  [c!"; external perimeters extrusion width = 0.50mm", c!"G1 Z0.3 F7800", c!"G1 X0 Y0 F7800 ; move to first perimeter point",
   c!"G1 X1 Y0 E1 F1200 ; perimeter external", c!"G1 X1 Y1 E2 ; perimeter external", c!"G1 X0 Y1 E3 ; perimeter external",
   c!"G1 X0 Y0 E4 ; perimeter external", c!"G1 X20 Y20 F7800 ; move to first infill point", c!"G1 X30 E5 ; infill"]

/-- A Cura program with an outer wall, a skin and a filling. -/
def squareC : List Str :=
  [c!"G1 Z0.3 F7800", c!"G0 X0 Y0 F7800", c!";TYPE:WALL-OUTER", c!"G1 F1200 X1 Y0 E1", c!"G1 X1 Y1 E2", c!"G1 X0 Y1 E3",
   c!"G1 X0 Y0 E4", c!";TYPE:FILL", c!"G0 F7800 X2 Y2", c!"G1 F1200 X8 E5"]

/-- A decoder that finds nothing. -/
def noProfile : ProfileOracle ℚ := fun _ => .ok none

/-- The layers with marks, for computed examples. -/
def marksQ (slicer : Slicer) (strength : ℚ) (data : List Str) : List (Layer ℚ) :=
  (okOr (none, []) (setupFilter slicer (StretchRepo.default strength) noProfile (loadQ data).allLayers)).2

/-- The stretched program, for computed examples. -/
def stretchQ (slicer : Slicer) (strength : ℚ) (data : List Str) : GCode ℚ :=
  okOr (loadQ data) ((loadQ data).stretch rSqrt 100 slicer (StretchRepo.default strength) noProfile)

/-- The hypotheses of the theorems below are met. -/
theorem square_stretched :
    GCode.load qEnv squareS = .ok (loadQ squareS) ∧
    (loadQ squareS).stretch rSqrt 100 .slic3r (StretchRepo.default 1) noProfile = .ok (stretchQ .slic3r 1 squareS) ∧
    (program (stretchQ .slic3r 1 squareS)).map (·.raw) =
      [c!"; external perimeters extrusion width = 0.50mm", c!"G1 Z0.3 F7800", c!"G1 X-0.035 Y-0.035 F7800.000",
       c!"G1 X1.035 Y-0.035 E0.95000 F1200.000", c!"G1 X1.035 Y1.035 E1.90000 F1200.000", c!"G1 X-0.035 Y1.035 E2.85000 F1200.000",
       c!"G1 X-0.035 Y-0.035 E3.80000 F1200.000",
       c!"G1 X20 Y20 F7800 ; move to first infill point ; stretch-extrusion-off ; stretch-loop-stop", c!"G1 X30 E5 ; infill ; stretch-extrusion-on"] := by
  decide +kernel

example : setupFilter .slic3r (StretchRepo.default 1) noProfile (loadQ squareS).allLayers =
      .ok (some (setEdgeWidth (StretchRepo.default 1) (1 / 2)), marksQ .slic3r 1 squareS) ∧
    setupFilter .cura (StretchRepo.default 1) noProfile (loadQ squareC).allLayers =
      .ok (some (setEdgeWidth (StretchRepo.default 1) (4 / 10)), marksQ .cura 1 squareC) ∧
    (loadQ squareC).stretch rSqrt 100 .cura (StretchRepo.default 1) noProfile = .ok (stretchQ .cura 1 squareC) ∧
    loopAt ((linesOf (marksQ .slic3r 1 squareS)).take 5) = some .outer ∧ loopAt ((linesOf (marksQ .slic3r 1 squareS)).take 9) = none := by
  decide +kernel

/-! ### line by line -/

theorem loop_aims {before : List (PyLine α)} {l : PyLine α} {k : LoopKind} (hk : loopAt (before ++ [l]) = some k) (hl : XYMove l) :
    lastOr 0 ((loopMoves none (before ++ [l])).filterMap (·.x)) = aimX before l ∧
    lastOr 0 ((loopMoves none (before ++ [l])).filterMap (·.y)) = aimY before l ∧
    lastOr 959 ((loopMoves none (before ++ [l])).filterMap (fun l => l.f.filter (· ≠ 0))) = aimF before l := by
  have hsn := loopMoves_snoc before l
  rw [if_pos ⟨by rw [hk]; simp, hl⟩] at hsn
  rw [hsn, filterMap_snoc, filterMap_snoc, filterMap_snoc, lastOr_snoc, lastOr_snoc, lastOr_snoc]
  exact ⟨rfl, rfl, rfl⟩

/-- Every line of a stretched program. -/
theorem stretch_lines {ε : α} {sqrt : α → α} (hs : IsSqrt ε sqrt) {fuel : ℕ} {slicer : Slicer} {repo : StretchRepo α} {profile : ProfileOracle α}
    {g g' : GCode α} {d : Option (StretchDist α)} {ann : List (Layer α)} (ha : setupFilter slicer repo profile g.allLayers = .ok (d, ann))
    (h : g.stretch sqrt fuel slicer repo profile = .ok g') :
    ∃ w, WidthUsed slicer profile (linesOf g.allLayers) (linesOf ann) w ∧
      (∀ (k : ℕ) (l l' : PyLine α), (linesOf ann)[k]? = some l → (linesOf g'.allLayers)[k]? = some l' →
        LineStretch ε (reach repo w) ((linesOf ann).take k ++ [l]) l l') ∧
      List.Forall₂ (fun L L' => L' = { L with lines := L'.lines } ∧ L'.lines.length = L.lines.length) ann g'.allLayers ∧
      g' = { g with allLayers := g'.allLayers } := by
  obtain ⟨Ls, w, ⟨d', h1⟩, h2, h3, h4, h5⟩ := stretch_spec hs h
  rw [ha] at h1
  simp only [Except.ok.injEq, Prod.mk.injEq] at h1
  obtain ⟨rfl, rfl⟩ := h1
  refine ⟨w, h2, ?_, h4, h5⟩
  intro k l l' hl hl'
  have := stretches_get h3 k l l' hl hl'
  rw [List.nil_append] at this
  rwa [List.take_add_one, show (List.flatMap (fun x => x.lines) ann)[k]? = some l from hl] at this

theorem reach_make (cross loop inside outside dist strength w : α) (k : LoopKind) :
    reach (StretchRepo.make cross loop inside outside dist strength) w k = w * (ratio loop inside outside k * strength) := by
  cases k <;> rfl

theorem flat_marked {A B : List (Layer α)} (hm : List.Forall₂ (SameLayer MarkedUp) A B) : List.Forall₂ MarkedUp (linesOf A) (linesOf B) := by
  unfold linesOf
  induction hm with
  | nil => exact .nil
  | cons hL _ ih =>
    rw [List.flatMap_cons, List.flatMap_cons]
    exact List.rel_append hL.2 ih

theorem layer_shape {A B C : List (Layer α)} (hm : List.Forall₂ (SameLayer MarkedUp) A B)
    (h3 : List.Forall₂ (fun L L' => L' = { L with lines := L'.lines } ∧ L'.lines.length = L.lines.length) B C) :
    List.Forall₂ (fun L L' : Layer α => L'.z = L.z ∧ L'.duration = L.duration ∧ L'.lines.length = L.lines.length) A C := by
  induction hm generalizing C with
  | nil => cases h3; exact .nil
  | cons hL _ ih =>
    cases h3 with
    | cons hL' h3 =>
      refine .cons ⟨?_, ?_, ?_⟩ (ih h3)
      · rw [hL'.1, hL.1]
      · rw [hL'.1, hL.1]
      · rw [hL'.2, hL.2.length_eq]

theorem marked_at {A B : List (PyLine α)} (h : List.Forall₂ MarkedUp A B) {k : ℕ} {l0 l : PyLine α} (h0 : A[k]? = some l0) (hl : B[k]? = some l) :
    MarkedUp l0 l := by
  obtain ⟨i1, hi1⟩ := List.getElem?_eq_some_iff.1 h0
  obtain ⟨i2, hi2⟩ := List.getElem?_eq_some_iff.1 hl
  have := h.get i1 i2
  simp only [List.get_eq_getElem] at this
  rwa [hi1, hi2] at this

/-! ### C58 -/

/-- C58. Every move inside a loop is rewritten with a target at a distance of at most edge width × ratio × strength from the one
it had (and is left alone if that is not positive).  The target of a move is given by its own X and Y words, or else by the last
such words inside loops. -/
theorem C58_bound {ε : α} {sqrt : α → α} (hs : IsSqrt ε sqrt) {fuel : ℕ} {slicer : Slicer} {cross loop inside outside dist strength : α}
    {profile : ProfileOracle α} {g g' : GCode α} {d : Option (StretchDist α)} {ann : List (Layer α)}
    (ha : setupFilter slicer (StretchRepo.make cross loop inside outside dist strength) profile g.allLayers = .ok (d, ann))
    (h : g.stretch sqrt fuel slicer (StretchRepo.make cross loop inside outside dist strength) profile = .ok g') :
    ∃ w, WidthUsed slicer profile (linesOf g.allLayers) (linesOf ann) w ∧
      ∀ (k : ℕ) (l l' : PyLine α) (kind : LoopKind), (linesOf ann)[k]? = some l → (linesOf g'.allLayers)[k]? = some l' →
        loopAt ((linesOf ann).take k ++ [l]) = some kind → XYMove l →
        (w * (ratio loop inside outside kind * strength) ≤ 0 → l'.raw = l.raw) ∧
        (0 < w * (ratio loop inside outside kind * strength) → ∃ (m : PyLine α) (dx dy : α), l'.raw = (unsplit m).raw ∧
          m.x = some (aimX ((linesOf ann).take k) l + dx) ∧ m.y = some (aimY ((linesOf ann).take k) l + dy) ∧
          dx ^ 2 + dy ^ 2 ≤ ((1 + ε) * (w * (ratio loop inside outside kind * strength))) ^ 2 ∧
          Within (5 / 10 ^ 4) m.x l'.x ∧ Within (5 / 10 ^ 4) m.y l'.y) := by
  obtain ⟨w, h1, h2, _⟩ := stretch_lines hs ha h
  refine ⟨w, h1, ?_⟩
  intro k l l' kind hl hl' hk hxy
  have := h2 k l l' hl hl'
  unfold LineStretch at this
  rw [hk] at this
  simp only [reach_make] at this
  constructor
  · intro hle
    rwa [if_neg (fun hc => absurd hc.2 (not_lt.2 hle))] at this
  · intro hlt
    rw [if_pos ⟨hxy, hlt⟩] at this
    obtain ⟨dx, dy, n, _, _, _, hb, _, m, k1, _, k3, k4, _, _, _, _, _, _, k5, k6, _⟩ := this
    obtain ⟨e1, e2, _⟩ := loop_aims hk hxy
    rw [e1] at k3
    rw [e2] at k4
    exact ⟨m, dx, dy, k1, k3, k4, hb, k5, k6⟩

/-- C58 with the exact square root of the real numbers. -/
theorem C58_bound_real {fuel : ℕ} {slicer : Slicer} {cross loop inside outside dist strength : ℝ}
    {profile : ProfileOracle ℝ} {g g' : GCode ℝ} {d : Option (StretchDist ℝ)} {ann : List (Layer ℝ)}
    (ha : setupFilter slicer (StretchRepo.make cross loop inside outside dist strength) profile g.allLayers = .ok (d, ann))
    (h : g.stretch Real.sqrt fuel slicer (StretchRepo.make cross loop inside outside dist strength) profile = .ok g') :
    ∃ w, WidthUsed slicer profile (linesOf g.allLayers) (linesOf ann) w ∧
      ∀ (k : ℕ) (l l' : PyLine ℝ) (kind : LoopKind), (linesOf ann)[k]? = some l → (linesOf g'.allLayers)[k]? = some l' →
        loopAt ((linesOf ann).take k ++ [l]) = some kind → XYMove l → 0 < w * (ratio loop inside outside kind * strength) →
        ∃ (m : PyLine ℝ) (dx dy : ℝ), l'.raw = (unsplit m).raw ∧
          m.x = some (aimX ((linesOf ann).take k) l + dx) ∧ m.y = some (aimY ((linesOf ann).take k) l + dy) ∧
          Real.sqrt (dx ^ 2 + dy ^ 2) ≤ w * (ratio loop inside outside kind * strength) := by
  obtain ⟨w, h1, h2⟩ := C58_bound realSqrt_isSqrt ha h
  refine ⟨w, h1, ?_⟩
  intro k l l' kind hl hl' hk hxy hlt
  obtain ⟨m, dx, dy, k1, k2, k3, k4, _⟩ := (h2 k l l' kind hl hl' hk hxy).2 hlt
  refine ⟨m, dx, dy, k1, k2, k3, ?_⟩
  rw [add_zero, one_mul] at k4
  exact Real.sqrt_le_iff.2 ⟨hlt.le, k4⟩

/-! ### C59 -/

/-- C59. Layers keep their number, height and number of lines; and a line that is not a linear X/Y move inside a loop keeps its
text, apart from marks added at its end. -/
theorem C59_scope {ε : α} {sqrt : α → α} (hs : IsSqrt ε sqrt) {fuel : ℕ} {slicer : Slicer} {repo : StretchRepo α} {profile : ProfileOracle α}
    {g g' : GCode α} {d : Option (StretchDist α)} {ann : List (Layer α)} (ha : setupFilter slicer repo profile g.allLayers = .ok (d, ann))
    (h : g.stretch sqrt fuel slicer repo profile = .ok g') :
    List.Forall₂ (fun L L' : Layer α => L'.z = L.z ∧ L'.duration = L.duration ∧ L'.lines.length = L.lines.length) g.allLayers g'.allLayers ∧
    ∀ (k : ℕ) (l0 l l' : PyLine α), (linesOf g.allLayers)[k]? = some l0 → (linesOf ann)[k]? = some l → (linesOf g'.allLayers)[k]? = some l' →
      (loopAt ((linesOf ann).take k ++ [l]) = none ∨ ¬ XYMove l0) → ∃ s, Marks s ∧ l'.raw = l0.raw ++ s := by
  obtain ⟨w, _, h2, h3, _⟩ := stretch_lines hs ha h
  have hm := setupFilter_marked ha
  refine ⟨layer_shape hm h3, ?_⟩
  · intro k l0 l l' h0 hl hl' hcase
    have hmk : MarkedUp l0 l := marked_at (flat_marked hm) h0 hl
    have := h2 k l l' hl hl'
    have hraw : l'.raw = l.raw := by
      unfold LineStretch at this
      cases hk : loopAt ((linesOf ann).take k ++ [l]) with
      | none => rw [hk] at this; exact this
      | some kind =>
        rw [hk] at this hcase
        simp only at this
        rwa [if_neg] at this
        rintro ⟨hc, _⟩
        rcases hcase with hcase | hcase
        · cases hcase
        · obtain ⟨s, _, rfl⟩ := hmk
          exact hcase hc
    obtain ⟨s, hs', rfl⟩ := hmk
    exact ⟨s, hs', hraw⟩

/-! ### C60 -/

/-- C60. A rewritten line keeps its command and its Z word; it has an E word exactly if it had one, multiplied by a number
between 1 - limit and 1 (limit: edge width × ratio × strength). -/
theorem C60_words {ε : α} {sqrt : α → α} (hs : IsSqrt ε sqrt) {fuel : ℕ} {slicer : Slicer} {cross loop inside outside dist strength : α}
    {profile : ProfileOracle α} {g g' : GCode α} {d : Option (StretchDist α)} {ann : List (Layer α)}
    (ha : setupFilter slicer (StretchRepo.make cross loop inside outside dist strength) profile g.allLayers = .ok (d, ann))
    (h : g.stretch sqrt fuel slicer (StretchRepo.make cross loop inside outside dist strength) profile = .ok g') :
    ∃ w, WidthUsed slicer profile (linesOf g.allLayers) (linesOf ann) w ∧
      ∀ (k : ℕ) (l l' : PyLine α) (kind : LoopKind), (linesOf ann)[k]? = some l → (linesOf g'.allLayers)[k]? = some l' →
        loopAt ((linesOf ann).take k ++ [l]) = some kind → XYMove l → 0 < w * (ratio loop inside outside kind * strength) →
        ∃ (m : PyLine α) (q : α), l'.raw = (unsplit m).raw ∧ m.command = l.command ∧ l'.command = l.command ∧ m.z = l.z ∧
          m.e = l.e.map (· * q) ∧ q ≤ 1 ∧ 1 - (1 + ε) ^ 2 * (w * (ratio loop inside outside kind * strength)) ≤ q ∧
          m.i = none ∧ m.j = none ∧ Within (5 / 10 ^ 4) l.z l'.z ∧ Within (5 / 10 ^ 6) m.e l'.e := by
  obtain ⟨w, h1, h2, _⟩ := stretch_lines hs ha h
  refine ⟨w, h1, ?_⟩
  intro k l l' kind hl hl' hk hxy hlt
  have := h2 k l l' hl hl'
  unfold LineStretch at this
  rw [hk] at this
  simp only [reach_make] at this
  rw [if_pos ⟨hxy, hlt⟩] at this
  obtain ⟨dx, dy, n, n0, _, _, _, hn, m, k1, k2, _, _, k3, k4, _, k5, k6, k7, _, _, k8, k9, _⟩ := this
  rw [k3] at k8
  exact ⟨m, 1 - n, k1, k2, k7.trans k2, k3, k4, by linarith, by linarith, k5, k6, k8, k9⟩

/-! ### C61 -/

/-- C61. With strength 0 no line's text changes, apart from marks added at the ends of lines. -/
theorem C61_zero {ε : α} {sqrt : α → α} (hs : IsSqrt ε sqrt) {fuel : ℕ} {slicer : Slicer} {cross loop inside outside dist : α}
    {profile : ProfileOracle α} {g g' : GCode α}
    (h : g.stretch sqrt fuel slicer (StretchRepo.make cross loop inside outside dist 0) profile = .ok g') :
    List.Forall₂ (fun l l' : PyLine α => ∃ s, Marks s ∧ l'.raw = l.raw ++ s) (linesOf g.allLayers) (linesOf g'.allLayers) := by
  obtain ⟨Ls, w, ⟨d, h1⟩, _, h3, _⟩ := stretch_spec hs h
  have hm := setupFilter_marked h1
  have hflat := flat_marked hm
  have hlen : (linesOf Ls).length = (linesOf g'.allLayers).length := stretches_length h3
  rw [List.forall₂_iff_get]
  refine ⟨hflat.length_eq.trans hlen, ?_⟩
  intro i hi hi'
  have hi2 : i < (linesOf Ls).length := hlen ▸ hi'
  have h4 := hflat.get hi hi2
  have h5 := stretches_get h3 i _ _ (List.getElem?_eq_getElem hi2) (List.getElem?_eq_getElem hi')
  have hraw : ((linesOf g'.allLayers)[i]).raw = ((linesOf Ls)[i]).raw := by
    unfold LineStretch at h5
    cases hk : loopAt ([] ++ (Ls.flatMap (·.lines)).take (i + 1)) with
    | none => rw [hk] at h5; exact h5
    | some kind =>
      rw [hk] at h5
      simp only [reach_make, mul_zero, lt_irrefl, and_false, if_false] at h5
      exact h5
  obtain ⟨s, hs', he⟩ := h4
  refine ⟨s, hs', ?_⟩
  simp only [List.get_eq_getElem] at he ⊢
  rw [hraw, he]

example : (loadQ squareC).stretch rSqrt 100 .cura (StretchRepo.default 0) noProfile = .ok (stretchQ .cura 0 squareC) := by decide +kernel

/-! ### the printer -/

theorem exec_marked (home : Pos3 α) (p : Printer α) {l l' : PyLine α} (h : MarkedUp l l') : p.exec home l' = p.exec home l := by
  obtain ⟨s, _, rfl⟩ := h
  rfl

theorem run_marked (home : Pos3 α) {A B : List (PyLine α)} (h : List.Forall₂ MarkedUp A B) (p : Printer α) : p.run home B = p.run home A := by
  unfold Printer.run
  induction h generalizing p with
  | nil => rfl
  | cons h1 _ ih => rw [List.foldl_cons, List.foldl_cons, exec_marked home p h1, ih]

theorem run_marked_take (home : Pos3 α) {A B : List (PyLine α)} (h : List.Forall₂ MarkedUp A B) (p : Printer α) (k : ℕ) :
    p.run home (B.take k) = p.run home (A.take k) := by
  refine run_marked home ?_ p
  exact List.forall₂_take k h

theorem run_append (home : Pos3 α) (p : Printer α) (a b : List (PyLine α)) : p.run home (a ++ b) = (p.run home a).run home b := by
  unfold Printer.run; rw [List.foldl_append]

theorem exec_move (home : Pos3 α) (p : Printer α) {l : PyLine α} (h : IsMove l) : p.exec home l = p.moveTo l.x l.y l.z l.e l.f := by
  obtain ⟨c, hc, hl⟩ := h
  unfold Printer.exec
  rw [hl]
  simp only
  rw [if_pos hc]

theorem xyMove_isMove {l : PyLine α} (h : XYMove l) : IsMove l := by
  rcases h.1 with h | h
  · exact ⟨_, by simp, h⟩
  · exact ⟨_, by simp, h⟩

/-- A line that is not a move keeps the feed rate. -/
theorem exec_feed (home : Pos3 α) (p : Printer α) {l : PyLine α} (h : ¬ IsMove l) : (p.exec home l).feed = p.feed := by
  unfold Printer.exec
  cases hc : l.command with
  | none => rfl
  | some c =>
    simp only
    rw [if_neg (fun hm => h ⟨c, hm, hc⟩)]
    split_ifs <;> first | rfl | (split <;> rfl)

theorem run_feed (home : Pos3 α) (b : List (PyLine α)) (hb : ∀ l ∈ b, IsMove l → l.f = none) (p : Printer α) : (p.run home b).feed = p.feed := by
  unfold Printer.run
  induction b generalizing p with
  | nil => rfl
  | cons l b ih =>
    rw [List.foldl_cons, ih (fun x hx => hb x (List.mem_cons_of_mem _ hx))]
    by_cases hm : IsMove l
    · rw [exec_move home p hm, hb l (by simp) hm]; rfl
    · exact exec_feed home p hm

theorem mem_loopMoves {s : Option LoopKind} {ls : List (PyLine α)} {l : PyLine α} (h : l ∈ loopMoves s ls) : l ∈ ls ∧ XYMove l := by
  induction ls generalizing s with
  | nil => simp [loopMoves] at h
  | cons x ls ih =>
    rw [loopMoves] at h
    split_ifs at h with hc
    · rcases List.mem_cons.1 h with rfl | h
      · exact ⟨by simp, hc.2⟩
      · exact ⟨List.mem_cons_of_mem _ (ih h).1, (ih h).2⟩
    · exact ⟨List.mem_cons_of_mem _ (ih h).1, (ih h).2⟩

/-- Moves inside a loop that say nothing do not change the last value. -/
theorem lastOr_loopMoves (d v : α) (f : PyLine α → Option α) {a b : List (PyLine α)} {l0 : PyLine α} (hk : loopAt (a ++ [l0]) ≠ none) (hx : XYMove l0)
    (h0 : f l0 = some v) (hb : ∀ l ∈ b, XYMove l → f l = none) : lastOr d ((loopMoves none (a ++ l0 :: b)).filterMap f) = v := by
  have hsplit : a ++ l0 :: b = (a ++ [l0]) ++ b := by simp
  rw [hsplit, loopMoves_append, List.filterMap_append]
  have hnil : (loopMoves (List.foldl loopStep none (a ++ [l0])) b).filterMap f = [] := by
    rw [List.filterMap_eq_nil_iff]
    intro l hl
    exact hb l (mem_loopMoves hl).1 (mem_loopMoves hl).2
  rw [hnil, List.append_nil]
  have hsn := loopMoves_snoc a l0
  rw [if_pos ⟨hk, hx⟩] at hsn
  rw [hsn, filterMap_snoc, lastOr_snoc, h0]
  rfl

/-! ### C62 -/

/-- Feed rate given before the wall starts, none on the wall itself. -/
def feedBefore : List Str :=
  [c!"G1 Z0.3 F7800", c!"G0 X0 Y0 F1500", c!";TYPE:WALL-OUTER", c!"G1 X1 Y0 E1", c!"G1 X1 Y1 E2", c!"G1 X0 Y1 E3", c!"G1 X0 Y0 E4", c!";TYPE:FILL", c!"G0 F7800 X2 Y2"]

/-- C62 is refuted: the fourth line is run at F1500 in the given program, and at F959 in the stretched one. -/
theorem C62_refuted : GCode.load qEnv feedBefore = .ok (loadQ feedBefore) ∧
    (loadQ feedBefore).stretch rSqrt 100 .cura (StretchRepo.default 1) noProfile = .ok (stretchQ .cura 1 feedBefore) ∧
    ((Printer.start : Printer ℚ).run ⟨0, 0, 0⟩ ((linesOf (loadQ feedBefore).allLayers).take 4)).feed = 1500 ∧
    ((Printer.start : Printer ℚ).run ⟨0, 0, 0⟩ ((linesOf (stretchQ .cura 1 feedBefore).allLayers).take 4)).feed = 959 := by
  decide +kernel

/-- The feed rate written on a stretched line: the last non-zero one given by the X/Y moves inside loops so far, this line
included, or 959. -/
theorem C62_feed {ε : α} {sqrt : α → α} (hs : IsSqrt ε sqrt) {fuel : ℕ} {slicer : Slicer} {cross loop inside outside dist strength : α}
    {profile : ProfileOracle α} {g g' : GCode α} {d : Option (StretchDist α)} {ann : List (Layer α)}
    (ha : setupFilter slicer (StretchRepo.make cross loop inside outside dist strength) profile g.allLayers = .ok (d, ann))
    (h : g.stretch sqrt fuel slicer (StretchRepo.make cross loop inside outside dist strength) profile = .ok g') :
    ∃ w, WidthUsed slicer profile (linesOf g.allLayers) (linesOf ann) w ∧
      ∀ (k : ℕ) (l l' : PyLine α) (kind : LoopKind), (linesOf ann)[k]? = some l → (linesOf g'.allLayers)[k]? = some l' →
        loopAt ((linesOf ann).take k ++ [l]) = some kind → XYMove l → 0 < w * (ratio loop inside outside kind * strength) →
        ∃ m : PyLine α, l'.raw = (unsplit m).raw ∧ m.f = some (aimF ((linesOf ann).take k) l) ∧ Within (5 / 10 ^ 4) m.f l'.f := by
  obtain ⟨w, h1, h2, _⟩ := stretch_lines hs ha h
  refine ⟨w, h1, ?_⟩
  intro k l l' kind hl hl' hk hxy hlt
  have := h2 k l l' hl hl'
  unfold LineStretch at this
  rw [hk] at this
  simp only [reach_make] at this
  rw [if_pos ⟨hxy, hlt⟩] at this
  obtain ⟨dx, dy, n, n0, _, _, _, hn, m, k1, _, _, _, _, _, k2, _, _, _, _, _, _, _, k3, _⟩ := this
  rw [(loop_aims hk hxy).2.2] at k2
  exact ⟨m, k1, k2, k3⟩

/-- C62 for lines after an X/Y move inside a loop that gives a non-zero feed rate, with no other one given in between: the
feed rate written is the one a printer running the original program has there. -/
theorem C62_feed_partial {ε : α} {sqrt : α → α} (hs : IsSqrt ε sqrt) {fuel : ℕ} {slicer : Slicer} {cross loop inside outside dist strength : α}
    {profile : ProfileOracle α} {g g' : GCode α} {d : Option (StretchDist α)} {ann : List (Layer α)}
    (ha : setupFilter slicer (StretchRepo.make cross loop inside outside dist strength) profile g.allLayers = .ok (d, ann))
    (h : g.stretch sqrt fuel slicer (StretchRepo.make cross loop inside outside dist strength) profile = .ok g') (home : Pos3 α) (p : Printer α) :
    ∃ w, WidthUsed slicer profile (linesOf g.allLayers) (linesOf ann) w ∧
      ∀ (k : ℕ) (l l' : PyLine α) (kind : LoopKind) (a b : List (PyLine α)) (l0 : PyLine α) (v : α),
        (linesOf ann)[k]? = some l → (linesOf g'.allLayers)[k]? = some l' →
        loopAt ((linesOf ann).take k ++ [l]) = some kind → XYMove l → 0 < w * (ratio loop inside outside kind * strength) →
        (linesOf ann).take k ++ [l] = a ++ l0 :: b → loopAt (a ++ [l0]) ≠ none → XYMove l0 → l0.f = some v → v ≠ 0 →
        (∀ x ∈ b, IsMove x → x.f = none) →
        ∃ m : PyLine α, l'.raw = (unsplit m).raw ∧ m.f = some (p.run home ((linesOf g.allLayers).take (k + 1))).feed := by
  obtain ⟨w, h1, h2⟩ := C62_feed hs ha h
  refine ⟨w, h1, ?_⟩
  intro k l l' kind a b l0 v hl hl' hk hxy hlt hsp hk0 hx0 hf0 hv hb
  obtain ⟨m, hm1, hm2, _⟩ := h2 k l l' kind hl hl' hk hxy hlt
  refine ⟨m, hm1, ?_⟩
  rw [hm2]
  congr 1
  have htake : (linesOf ann).take (k + 1) = a ++ l0 :: b := by rw [List.take_add_one, hl]; exact hsp
  have hrun : (p.run home ((linesOf g.allLayers).take (k + 1))).feed = v := by
    rw [← run_marked_take home (flat_marked (setupFilter_marked ha)) p (k + 1), htake, run_append]
    have : l0 :: b = [l0] ++ b := rfl
    rw [this, run_append, run_feed home b hb]
    change ((p.run home a).exec home l0).feed = v
    rw [exec_move home _ (xyMove_isMove hx0), hf0]
    rfl
  rw [hrun, ← (loop_aims hk hxy).2.2, hsp]
  refine lastOr_loopMoves 959 v _ hk0 hx0 (by rw [hf0]; simp [hv]) ?_
  intro x hx hxm
  rw [hb x hx (xyMove_isMove hxm)]
  rfl

example : ∃ (a b : List (PyLine ℚ)) (l0 : PyLine ℚ) (l : PyLine ℚ), (linesOf (marksQ .slic3r 1 squareS))[5]? = some l ∧
    (linesOf (marksQ .slic3r 1 squareS)).take 5 ++ [l] = a ++ l0 :: b ∧ loopAt (a ++ [l0]) ≠ none ∧ XYMove l0 ∧ l0.f = some 1200 ∧
    ∀ x ∈ b, IsMove x → x.f = none :=
  ⟨(linesOf (marksQ .slic3r 1 squareS)).take 3, ((linesOf (marksQ .slic3r 1 squareS)).take 6).drop 4, ((linesOf (marksQ .slic3r 1 squareS))[3]?).getD {},
    ((linesOf (marksQ .slic3r 1 squareS))[5]?).getD {}, by decide +kernel⟩

/-! ### C63 -/

/-- The wall starts where the last travel move ended; its first line names X only. -/
def oneAxis : List Str :=
  [c!"G1 Z0.3 F7800", c!"G0 X20 Y20 F1500", c!";TYPE:WALL-OUTER", c!"G1 X21 E1", c!"G1 Y21 E2", c!"G1 X20 E3", c!"G1 Y20 E4", c!";TYPE:FILL", c!"G0 F7800 X2 Y2"]

/-- C63 is refuted: the head is at Y20, and the first line of the wall takes it to Y0. -/
theorem C63_refuted : GCode.load qEnv oneAxis = .ok (loadQ oneAxis) ∧
    (loadQ oneAxis).stretch rSqrt 100 .cura (StretchRepo.default 1) noProfile = .ok (stretchQ .cura 1 oneAxis) ∧
    ((Printer.start : Printer ℚ).run ⟨0, 0, 0⟩ ((linesOf (loadQ oneAxis).allLayers).take 4)).pos.y = 20 ∧
    ((Printer.start : Printer ℚ).run ⟨0, 0, 0⟩ ((linesOf (stretchQ .cura 1 oneAxis).allLayers).take 4)).pos.y < 1 := by
  decide +kernel

/-- The line leaves X, and what X numbers mean, alone. -/
def Spec.KeepsX (l : PyLine α) : Prop := (IsMove l → l.x = none) ∧ ¬ HasCmd l c!"G28" ∧ ¬ HasCmd l c!"G91" ∧ (HasCmd l c!"G92" → l.x = none)
@[inherit_doc Spec.KeepsX] def Spec.KeepsY (l : PyLine α) : Prop :=
  (IsMove l → l.y = none) ∧ ¬ HasCmd l c!"G28" ∧ ¬ HasCmd l c!"G91" ∧ (HasCmd l c!"G92" → l.y = none)

instance (l : PyLine α) : Decidable (KeepsX l) := by unfold KeepsX; infer_instance
instance (l : PyLine α) : Decidable (KeepsY l) := by unfold KeepsY; infer_instance

theorem exec_keepsX (home : Pos3 α) (p : Printer α) {l : PyLine α} (h : KeepsX l) (hr : p.rel = false) :
    (p.exec home l).pos.x = p.pos.x ∧ (p.exec home l).org.x = p.org.x ∧ (p.exec home l).rel = false := by
  obtain ⟨k1, k2, k3, k4⟩ := h
  by_cases hm : IsMove l
  · rw [exec_move home p hm, k1 hm]
    exact ⟨rfl, rfl, hr⟩
  · unfold Printer.exec
    cases hc : l.command with
    | none => exact ⟨rfl, rfl, hr⟩
    | some c =>
      simp only
      rw [if_neg (fun h => hm ⟨c, h, hc⟩)]
      by_cases e1 : c = c!"G20"
      · rw [if_pos e1]; exact ⟨rfl, rfl, hr⟩
      rw [if_neg e1]
      by_cases e2 : c = c!"G21"
      · rw [if_pos e2]; exact ⟨rfl, rfl, hr⟩
      rw [if_neg e2, if_neg (fun e => k2 (by rw [e] at hc; exact hc))]
      by_cases e3 : c = c!"G90"
      · rw [if_pos e3]; exact ⟨rfl, rfl, rfl⟩
      rw [if_neg e3, if_neg (fun e => k3 (by rw [e] at hc; exact hc))]
      by_cases e4 : c = c!"G92"
      · rw [if_pos e4, k4 (by rw [e4] at hc; exact hc)]; exact ⟨rfl, rfl, hr⟩
      rw [if_neg e4]
      split_ifs
      · exact ⟨rfl, rfl, hr⟩
      · exact ⟨rfl, rfl, hr⟩
      · split <;> exact ⟨rfl, rfl, hr⟩

theorem exec_keepsY (home : Pos3 α) (p : Printer α) {l : PyLine α} (h : KeepsY l) (hr : p.rel = false) :
    (p.exec home l).pos.y = p.pos.y ∧ (p.exec home l).org.y = p.org.y ∧ (p.exec home l).rel = false := by
  obtain ⟨k1, k2, k3, k4⟩ := h
  by_cases hm : IsMove l
  · rw [exec_move home p hm, k1 hm]
    exact ⟨rfl, rfl, hr⟩
  · unfold Printer.exec
    cases hc : l.command with
    | none => exact ⟨rfl, rfl, hr⟩
    | some c =>
      simp only
      rw [if_neg (fun h => hm ⟨c, h, hc⟩)]
      by_cases e1 : c = c!"G20"
      · rw [if_pos e1]; exact ⟨rfl, rfl, hr⟩
      rw [if_neg e1]
      by_cases e2 : c = c!"G21"
      · rw [if_pos e2]; exact ⟨rfl, rfl, hr⟩
      rw [if_neg e2, if_neg (fun e => k2 (by rw [e] at hc; exact hc))]
      by_cases e3 : c = c!"G90"
      · rw [if_pos e3]; exact ⟨rfl, rfl, rfl⟩
      rw [if_neg e3, if_neg (fun e => k3 (by rw [e] at hc; exact hc))]
      by_cases e4 : c = c!"G92"
      · rw [if_pos e4, k4 (by rw [e4] at hc; exact hc)]; exact ⟨rfl, rfl, hr⟩
      rw [if_neg e4]
      split_ifs
      · exact ⟨rfl, rfl, hr⟩
      · exact ⟨rfl, rfl, hr⟩
      · split <;> exact ⟨rfl, rfl, hr⟩

theorem run_keepsX (home : Pos3 α) (b : List (PyLine α)) (hb : ∀ l ∈ b, KeepsX l) (p : Printer α) (hr : p.rel = false) :
    (p.run home b).pos.x = p.pos.x ∧ (p.run home b).org.x = p.org.x ∧ (p.run home b).rel = false := by
  unfold Printer.run
  induction b generalizing p with
  | nil => exact ⟨rfl, rfl, hr⟩
  | cons l b ih =>
    obtain ⟨e1, e2, e3⟩ := exec_keepsX home p (hb l (by simp)) hr
    obtain ⟨i1, i2, i3⟩ := ih (fun x hx => hb x (List.mem_cons_of_mem _ hx)) _ e3
    rw [List.foldl_cons]
    exact ⟨i1.trans e1, i2.trans e2, i3⟩

theorem run_keepsY (home : Pos3 α) (b : List (PyLine α)) (hb : ∀ l ∈ b, KeepsY l) (p : Printer α) (hr : p.rel = false) :
    (p.run home b).pos.y = p.pos.y ∧ (p.run home b).org.y = p.org.y ∧ (p.run home b).rel = false := by
  unfold Printer.run
  induction b generalizing p with
  | nil => exact ⟨rfl, rfl, hr⟩
  | cons l b ih =>
    obtain ⟨e1, e2, e3⟩ := exec_keepsY home p (hb l (by simp)) hr
    obtain ⟨i1, i2, i3⟩ := ih (fun x hx => hb x (List.mem_cons_of_mem _ hx)) _ e3
    rw [List.foldl_cons]
    exact ⟨i1.trans e1, i2.trans e2, i3⟩

theorem exec_abs (home : Pos3 α) (p : Printer α) {l : PyLine α} (h : XYMove l) (hr : p.rel = false) :
    (p.exec home l).rel = false ∧ (p.exec home l).org = p.org ∧ (∀ v, l.x = some v → (p.exec home l).pos.x = p.org.x + v) ∧
      ∀ v, l.y = some v → (p.exec home l).pos.y = p.org.y + v := by
  rw [exec_move home p (xyMove_isMove h)]
  refine ⟨hr, rfl, ?_, ?_⟩
  · intro v hv
    unfold Printer.moveTo
    simp only [hv, hr, axis, Bool.false_eq_true, if_false]
  · intro v hv
    unfold Printer.moveTo
    simp only [hv, hr, axis, Bool.false_eq_true, if_false]

/-- C63 for a move that names only Y after a move inside a loop that names X, made with absolute coordinates and an X origin
that was not shifted, while the lines in between leave X alone: the X written is within the stretch amount of where the head
is.  (Missing: the first one-axis moves after a travel, or programs with shifted origins.) -/
theorem C63_x_partial {ε : α} {sqrt : α → α} (hs : IsSqrt ε sqrt) {fuel : ℕ} {slicer : Slicer} {cross loop inside outside dist strength : α}
    {profile : ProfileOracle α} {g g' : GCode α} {d : Option (StretchDist α)} {ann : List (Layer α)}
    (ha : setupFilter slicer (StretchRepo.make cross loop inside outside dist strength) profile g.allLayers = .ok (d, ann))
    (h : g.stretch sqrt fuel slicer (StretchRepo.make cross loop inside outside dist strength) profile = .ok g') (home : Pos3 α) (p : Printer α) :
    ∃ w, WidthUsed slicer profile (linesOf g.allLayers) (linesOf ann) w ∧
      ∀ (k : ℕ) (l l' : PyLine α) (kind : LoopKind) (a b : List (PyLine α)) (l0 : PyLine α),
        (linesOf ann)[k]? = some l → (linesOf g'.allLayers)[k]? = some l' →
        loopAt ((linesOf ann).take k ++ [l]) = some kind → XYMove l → l.x = none → 0 < w * (ratio loop inside outside kind * strength) →
        (linesOf ann).take k = a ++ l0 :: b → loopAt (a ++ [l0]) ≠ none → XYMove l0 → l0.x ≠ none →
        (p.run home a).rel = false → (p.run home a).org.x = 0 → (∀ x ∈ b, KeepsX x) →
        ∃ (m : PyLine α) (dx : α), l'.raw = (unsplit m).raw ∧
          ((p.run home ((linesOf g.allLayers).take k)).exec home m).pos.x = (p.run home ((linesOf g.allLayers).take k)).pos.x + dx ∧
          dx ^ 2 ≤ ((1 + ε) * (w * (ratio loop inside outside kind * strength))) ^ 2 := by
  obtain ⟨w, h1, h2, _⟩ := stretch_lines hs ha h
  refine ⟨w, h1, ?_⟩
  intro k l l' kind a b l0 hl hl' hk hxy hx hlt hsp hk0 hx0 hx0' hr ho hb
  obtain ⟨v, hv⟩ := Option.ne_none_iff_exists'.1 hx0'
  have hls := h2 k l l' hl hl'
  unfold LineStretch at hls
  rw [hk] at hls
  simp only [reach_make] at hls
  rw [if_pos ⟨hxy, hlt⟩] at hls
  obtain ⟨dx, dy, n, _, _, _, hb2, _, m, m1, mc, m2, _⟩ := hls
  refine ⟨m, dx, m1, ?_, by nlinarith [sq_nonneg dy]⟩
  have haim : aimX ((linesOf ann).take k) l = v := by
    unfold aimX
    rw [hx, hsp]
    exact lastOr_loopMoves 0 v _ hk0 hx0 hv (fun x hxb hxm => (hb x hxb).1 (xyMove_isMove hxm))
  rw [(loop_aims hk hxy).1, haim] at m2
  rw [← run_marked_take home (flat_marked (setupFilter_marked ha)) p k, hsp, run_append]
  have hcons : l0 :: b = [l0] ++ b := rfl
  obtain ⟨e1, e2, e3, _⟩ := exec_abs home (p.run home a) hx0 hr
  obtain ⟨i1, i2, i3⟩ := run_keepsX home b hb ((p.run home a).exec home l0) e1
  have hrun : (p.run home a).run home (l0 :: b) = ((p.run home a).exec home l0).run home b := by rw [hcons, run_append]; rfl
  rw [hrun]
  have hmx : XYMove m := by
    refine ⟨by rw [mc]; exact hxy.1, .inl ?_⟩
    rw [m2]; simp
  rw [(exec_abs home _ hmx i3).2.2.1 _ m2, i1, i2, e2, e3 v hv, ho]
  ring

/-- C63 for a move that names only X; as `C63_x_partial`. -/
theorem C63_y_partial {ε : α} {sqrt : α → α} (hs : IsSqrt ε sqrt) {fuel : ℕ} {slicer : Slicer} {cross loop inside outside dist strength : α}
    {profile : ProfileOracle α} {g g' : GCode α} {d : Option (StretchDist α)} {ann : List (Layer α)}
    (ha : setupFilter slicer (StretchRepo.make cross loop inside outside dist strength) profile g.allLayers = .ok (d, ann))
    (h : g.stretch sqrt fuel slicer (StretchRepo.make cross loop inside outside dist strength) profile = .ok g') (home : Pos3 α) (p : Printer α) :
    ∃ w, WidthUsed slicer profile (linesOf g.allLayers) (linesOf ann) w ∧
      ∀ (k : ℕ) (l l' : PyLine α) (kind : LoopKind) (a b : List (PyLine α)) (l0 : PyLine α),
        (linesOf ann)[k]? = some l → (linesOf g'.allLayers)[k]? = some l' →
        loopAt ((linesOf ann).take k ++ [l]) = some kind → XYMove l → l.y = none → 0 < w * (ratio loop inside outside kind * strength) →
        (linesOf ann).take k = a ++ l0 :: b → loopAt (a ++ [l0]) ≠ none → XYMove l0 → l0.y ≠ none →
        (p.run home a).rel = false → (p.run home a).org.y = 0 → (∀ x ∈ b, KeepsY x) →
        ∃ (m : PyLine α) (dy : α), l'.raw = (unsplit m).raw ∧
          ((p.run home ((linesOf g.allLayers).take k)).exec home m).pos.y = (p.run home ((linesOf g.allLayers).take k)).pos.y + dy ∧
          dy ^ 2 ≤ ((1 + ε) * (w * (ratio loop inside outside kind * strength))) ^ 2 := by
  obtain ⟨w, h1, h2, _⟩ := stretch_lines hs ha h
  refine ⟨w, h1, ?_⟩
  intro k l l' kind a b l0 hl hl' hk hxy hx hlt hsp hk0 hx0 hx0' hr ho hb
  obtain ⟨v, hv⟩ := Option.ne_none_iff_exists'.1 hx0'
  have hls := h2 k l l' hl hl'
  unfold LineStretch at hls
  rw [hk] at hls
  simp only [reach_make] at hls
  rw [if_pos ⟨hxy, hlt⟩] at hls
  obtain ⟨dx, dy, n, _, _, _, hb2, _, m, m1, mc, _, m2, _⟩ := hls
  refine ⟨m, dy, m1, ?_, by nlinarith [sq_nonneg dx]⟩
  have haim : aimY ((linesOf ann).take k) l = v := by
    unfold aimY
    rw [hx, hsp]
    exact lastOr_loopMoves 0 v _ hk0 hx0 hv (fun x hxb hxm => (hb x hxb).1 (xyMove_isMove hxm))
  rw [(loop_aims hk hxy).2.1, haim] at m2
  rw [← run_marked_take home (flat_marked (setupFilter_marked ha)) p k, hsp, run_append]
  have hcons : l0 :: b = [l0] ++ b := rfl
  obtain ⟨e1, e2, _, e3⟩ := exec_abs home (p.run home a) hx0 hr
  obtain ⟨i1, i2, i3⟩ := run_keepsY home b hb ((p.run home a).exec home l0) e1
  have hrun : (p.run home a).run home (l0 :: b) = ((p.run home a).exec home l0).run home b := by rw [hcons, run_append]; rfl
  rw [hrun]
  have hmx : XYMove m := by
    refine ⟨by rw [mc]; exact hxy.1, .inr ?_⟩
    rw [m2]; simp
  rw [(exec_abs home _ hmx i3).2.2.2 _ m2, i1, i2, e2, e3 v hv, ho]
  ring

/-- The second line of the wall names only Y, the first one X. -/
example : ∃ (a b : List (PyLine ℚ)) (l0 l : PyLine ℚ), (linesOf (marksQ .cura 1 oneAxis))[4]? = some l ∧ l.x = none ∧ XYMove l ∧
    loopAt ((linesOf (marksQ .cura 1 oneAxis)).take 4 ++ [l]) = some .outer ∧ (linesOf (marksQ .cura 1 oneAxis)).take 4 = a ++ l0 :: b ∧
    loopAt (a ++ [l0]) ≠ none ∧ XYMove l0 ∧ l0.x ≠ none ∧ ((Printer.start : Printer ℚ).run ⟨0, 0, 0⟩ a).rel = false ∧
    ((Printer.start : Printer ℚ).run ⟨0, 0, 0⟩ a).org.x = 0 ∧ ∀ x ∈ b, KeepsX x :=
  ⟨(linesOf (marksQ .cura 1 oneAxis)).take 3, [], ((linesOf (marksQ .cura 1 oneAxis))[3]?).getD {}, ((linesOf (marksQ .cura 1 oneAxis))[4]?).getD {},
    by decide +kernel⟩

/-! ### C66 -/

/-- C66. Preparation only appends marks to texts. -/
theorem C66_annotation {slicer : Slicer} {repo : StretchRepo α} {profile : ProfileOracle α} {d : Option (StretchDist α)} {Ls Ls' : List (Layer α)}
    (h : setupFilter slicer repo profile Ls = .ok (d, Ls')) :
    List.Forall₂ (fun L L' : Layer α => L'.z = L.z ∧ L'.duration = L.duration ∧
      List.Forall₂ (fun l l' : PyLine α => ∃ s, Marks s ∧ l' = { l with raw := l.raw ++ s }) L.lines L'.lines) Ls Ls' :=
  (setupFilter_marked h).imp (fun _ _ hL => ⟨by rw [hL.1], by rw [hL.1], hL.2⟩)

theorem marks_words {s r : Str} (h : Marks r) (hs : ¬ Nested s) (hn : '\n' ∉ s) : words (s ++ r) = words s := by
  rcases marks_trailing h with rfl | ht
  · rw [List.append_nil]
  · obtain ⟨j, hj⟩ := findall_trailing ht hs hn
    unfold words
    rw [hj, List.filterMap_append]
    simp

/-- C66. A printer does not notice the marks: it does the same on a text with marks as on the text without (unless the text is a
comment in nested parentheses, or not a single line). -/
theorem C66_printer_partial {s r : Str} (h : Marks r) (hs : ¬ Nested s) (hn : '\n' ∉ s) (home : Pos3 α) (p : Printer α) :
    p.line home (s ++ r) = p.line home s := by
  unfold Printer.line instr
  rw [marks_words h hs hn]

/-- C66. Nor do they change how a line with a command is parsed. -/
theorem C66_parse_partial {s r : Str} (h : Marks r) (hs : ¬ Nested s) (hn : '\n' ∉ s) (hc : CommandFirst s) (hi : instr s ≠ none) :
    (rawToLine (s ++ r) : PyLine α) = { (rawToLine s : PyLine α) with raw := s ++ r } ∧
    ∀ (home : Home α) (m : Machine α), processLine home m { raw := s ++ r } =
      (processLine home m { raw := s }).map (fun q => (q.1, { q.2 with raw := s ++ r })) := by
  have hw : ∃ w rest, dropN (findall (lower s)) = some w :: rest := by
    unfold CommandFirst at hc
    unfold instr words at hi
    unfold words at hc
    cases hf : findall (lower s) with
    | nil => rw [hf] at hi; exact absurd rfl hi
    | cons t ts =>
      rw [hf] at hc hi
      cases t with
      | none =>
        simp only at hc
        rw [hc] at hi
        exact absurd rfl hi
      | some w =>
        obtain ⟨c, v⟩ := w
        by_cases hcn : c = 'n'
        · subst hcn
          cases ts with
          | nil => exact absurd rfl hi
          | cons t ts =>
            cases t with
            | none =>
              simp only at hc
              have he : (some ('n', v) :: none :: ts).filterMap id = ('n', v) :: ts.filterMap id := rfl
              rw [he, hc] at hi
              exact absurd rfl hi
            | some w => exact ⟨w, ts, by simp [dropN]⟩
        · exact ⟨(c, v), ts, by simp [dropN, hcn]⟩
  rcases marks_trailing h with rfl | ht
  · rw [List.append_nil]
    have hsm : SameMeaning s s := by
      obtain ⟨w, rest, hw⟩ := hw
      exact ⟨⟨w, rest, rest, hw, hw, .of_eq rfl⟩, rfl⟩
    exact ⟨sameMeaning_command hsm, fun home m => sameMeaning_process hsm home m⟩
  · have hsm := sameMeaning_trailing ht hs hn hw
    exact ⟨sameMeaning_command hsm, fun home m => sameMeaning_process hsm home m⟩

/-- C66, whole programs: a printer running the marked texts does the same as one running the original texts, step by step. -/
theorem C66_program_partial {slicer : Slicer} {repo : StretchRepo α} {profile : ProfileOracle α} {d : Option (StretchDist α)} {Ls Ls' : List (Layer α)}
    (h : setupFilter slicer repo profile Ls = .ok (d, Ls')) (hn : ∀ l ∈ linesOf Ls, ¬ Nested l.raw ∧ '\n' ∉ l.raw) (home : Pos3 α) (p : Printer α) :
    p.trace home ((linesOf Ls').map (·.raw)) = p.trace home ((linesOf Ls).map (·.raw)) := by
  have hm := flat_marked (setupFilter_marked h)
  generalize linesOf Ls = A at hm hn
  generalize linesOf Ls' = B at hm
  induction hm generalizing p with
  | nil => rfl
  | @cons l l' A B h1 _ ih =>
    obtain ⟨s, hs, rfl⟩ := h1
    simp only [List.map_cons, Printer.trace]
    rw [C66_printer_partial hs (hn l (by simp)).1 (hn l (by simp)).2, ih _ (fun x hx => hn x (List.mem_cons_of_mem _ hx))]

example : Marks c!" ; stretch-extrusion-off ; stretch-loop-stop" ∧ ¬ Nested c!"G1 X1 (note) Y2 ; end" ∧ CommandFirst c!"G1 X1 (note) Y2 ; end" ∧
    instr c!"G1 X1 (note) Y2 ; end" ≠ none := by
  refine ⟨.cons c!" ; " c!"stretch-extrusion-off" c!" ; stretch-loop-stop" (.inl rfl) (by decide) (.cons c!" ; " c!"stretch-loop-stop" [] (.inl rfl) (by decide) .nil),
    fun h => ?_, by decide, by decide⟩
  exact absurd h.1 (by decide)

/-- A comment in nested parentheses at the end of a layer. -/
def nestedEnd : List Str := [c!"G1 X0 Y0", c!";TYPE:WALL-OUTER", c!"G1 X1 Y1 E1", c!"(note (g1 x7) y8)"]

/-- C66 is refuted for such comments: with a mark behind it the text is a move. -/
theorem C66_refuted : GCode.load qEnv nestedEnd = .ok (loadQ nestedEnd) ∧
    (linesOf (marksQ .cura 1 nestedEnd)).map (·.raw) = [c!"G1 X0 Y0", c!";TYPE:WALL-OUTER",
      c!"G1 X1 Y1 E1 ; stretch-extrusion-on ; stretch-loop-start stretch-outer-edge-start", c!"(note (g1 x7) y8) ; stretch-loop-stop"] ∧
    (rawToLine c!"(note (g1 x7) y8)" : PyLine ℚ).command = none ∧
    (rawToLine c!"(note (g1 x7) y8) ; stretch-loop-stop" : PyLine ℚ).command ≠ none := by
  decide +kernel

/-! ### C73 -/

/-- C73. The edge width is the one given by the last line that gives one; without such a line it is 0.4 for Slic3r and Cura, and
there are no loops for Skeinforge. -/
theorem C73_width {ε : α} {sqrt : α → α} (hs : IsSqrt ε sqrt) {fuel : ℕ} {slicer : Slicer} {repo : StretchRepo α} {profile : ProfileOracle α}
    {g g' : GCode α} {d : Option (StretchDist α)} {ann : List (Layer α)} (ha : setupFilter slicer repo profile g.allLayers = .ok (d, ann))
    (h : g.stretch sqrt fuel slicer repo profile = .ok g') :
    (∃ w D, d = some D ∧ EdgeWidth slicer profile (linesOf g.allLayers) (linesOf ann) w ∧ D.loopMax = w * repo.loop ∧
      D.insideMax = w * repo.inside ∧ D.outsideMax = w * repo.outside ∧ D.crossLimit = w * repo.cross ∧ D.fromDist = w * repo.fromDist) ∨
    (slicer = .skeinforge ∧ NoneSays (skeinforgeSays (α := α)) (linesOf g.allLayers) ∧ ∀ l ∈ linesOf ann, ¬ c!"stretch-loop-start" <:+: l.raw) := by
  rcases setupFilter_width ha with ⟨w, hd, hw⟩ | ⟨hsl, rfl, hn⟩
  · exact .inl ⟨w, _, hd, hw, rfl, rfl, rfl, rfl, mul_comm _ _⟩
  · right
    obtain ⟨Ls, w, ⟨d', h1⟩, h2, _⟩ := stretch_spec hs h
    rw [ha] at h1
    simp only [Except.ok.injEq, Prod.mk.injEq] at h1
    obtain ⟨_, rfl⟩ := h1
    rcases h2 with h2 | h2
    · subst hsl
      obtain ⟨a, l, b, e, t, _⟩ := h2
      exact absurd t (hn l (by rw [e]; simp) w)
    · exact h2

end GCodeUtils
