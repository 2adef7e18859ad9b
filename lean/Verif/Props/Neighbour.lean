import Verif.Lemmas.ReadsBack
import Verif.Props.Stretch

/-
  C77: what the points of a loop are pushed away from.
-/

set_option linter.unusedSectionVars false

namespace GCodeUtils

open Spec

variable {α : Type} [Field α] [LinearOrder α] [IsStrictOrderedRing α] [FloorRing α]

theorem ann_readsBack {env : Env α} {data : List Str} {home : Home α} {g : GCode α} (hload : GCode.load env data false home = .ok g)
    (hplain : ∀ l ∈ program g, ¬ Nested l.raw ∧ '\n' ∉ l.raw) {slicer : Slicer} {repo : StretchRepo α} {profile : ProfileOracle α}
    {d : Option (StretchDist α)} {ann : List (Layer α)} (ha : setupFilter slicer repo profile g.allLayers = .ok (d, ann)) :
    ∀ l ∈ linesOf ann, ReadsBack l := by
  intro l hl
  have hm := flat_marked (setupFilter_marked ha)
  obtain ⟨i, hi⟩ := List.getElem?_of_mem hl
  have hlt : i < (linesOf g.allLayers).length := by
    rw [hm.length_eq]; exact (List.getElem?_eq_some_iff.1 hi).1
  have h0 : (linesOf g.allLayers)[i]? = some ((linesOf g.allLayers)[i]) := List.getElem?_eq_getElem hlt
  obtain ⟨s, hs, rfl⟩ := marked_at hm h0 hi
  generalize hl0 : (linesOf g.allLayers)[i] = l0 at h0
  have hmem : l0 ∈ program g := by
    have := List.mem_of_getElem? h0
    unfold linesOf at this
    unfold program layerLines
    rw [List.mem_flatten]
    obtain ⟨L, h1, h2⟩ := List.mem_flatMap.1 this
    exact ⟨L.lines, List.mem_map.2 ⟨L, h1, rfl⟩, h2⟩
  have hmem' : l0 ∈ g.lines := by rw [(load_indexed hload).flat]; exact hmem
  obtain ⟨out, hr, ho⟩ := load_run hload
  rw [ho] at hmem'
  simp only [Bool.false_eq_true, if_false] at hmem'
  obtain ⟨x, hx, m1, m2, hp⟩ := run_mem hr hmem'
  obtain ⟨r, _, rfl⟩ := List.mem_map.1 hx
  have hraw : l0.raw = r := (processLine_keeps hp).1
  obtain ⟨hN, hn⟩ := hplain l0 hmem
  rw [hraw] at hN hn
  exact readsBack_marked hp hs hN hn

/-- C77, Cura: a point of a wall is pushed by the points that come before and after it around the wall, exactly as `PushedBy` says. -/
theorem C77_cura {ε : α} {sqrt : α → α} (hs : IsSqrt ε sqrt) {fuel : ℕ} {cross loop inside outside dist strength : α}
    {profile : ProfileOracle α} {env : Env α} {data : List Str} {home : Home α} {g g' : GCode α} (hload : GCode.load env data false home = .ok g)
    (hplain : ∀ l ∈ program g, ¬ Nested l.raw ∧ '\n' ∉ l.raw) {d : Option (StretchDist α)} {ann : List (Layer α)}
    (ha : setupFilter .cura (StretchRepo.make cross loop inside outside dist strength) profile g.allLayers = .ok (d, ann))
    (h : g.stretch sqrt fuel .cura (StretchRepo.make cross loop inside outside dist strength) profile = .ok g') :
    ∃ w, WidthUsed .cura profile (linesOf g.allLayers) (linesOf ann) w ∧
      ∀ (i s k n : ℕ) (L L' : Layer α) (l : PyLine α) (kind : LoopKind), ann[i]? = some L → g'.allLayers[i]? = some L' →
        CuraLoop L.lines s k → s ≤ n → n < k → L.lines[n]? = some l → XYMove l → loopAt (linesOf (ann.take i) ++ L.lines.take (n + 1)) = some kind →
        0 < w * dist → 0 < w * (ratio loop inside outside kind * strength) →
        ∃ (l' : PyLine α) (p δ : Cx α), L'.lines[n]? = some l' ∧ p = herePt (linesOf (ann.take i) ++ L.lines.take (n + 1)) ∧
          PushedBy sqrt (w * dist) (w * cross) (w * (ratio loop inside outside kind * strength)) p
            ((curaAhead L.lines s k n).map (goal p)) ((curaBehind L.lines s k n).map (goal p)) δ ∧
          MovedBy δ.re δ.im (far sqrt δ ⟨0, 0⟩) (linesOf (ann.take i) ++ L.lines.take (n + 1)) l l' := by
  obtain ⟨d', Ls, st, Ls', h1, h2, rfl⟩ := stretch_parts h
  rw [ha] at h1
  simp only [Except.ok.injEq, Prod.mk.injEq] at h1
  obtain ⟨rfl, rfl⟩ := h1
  rcases setupFilter_width ha with ⟨w, rfl, hw⟩ | ⟨hc, _⟩
  · refine ⟨w, .inl hw, ?_⟩
    intro i s k n L L' l kind hL hL' hloop hsn hnk hl hx hk hd hpos
    have hrb := ann_readsBack hload hplain ha
    obtain ⟨c, loc, a, l', b1, b2, b3, b4, b5⟩ := layers_push hs (limits_width _ w) ann (stInv_init (reach (StretchRepo.make cross loop inside outside dist strength) w) _) h2
      i n L L' l kind hL hL' hl (by simpa using hk) hx (by rw [reach_make]; exact hpos)
    rw [List.nil_append] at b1 b3 b5
    refine ⟨l', ⟨loc.x, loc.y⟩, a, b2, b3, ?_, b5⟩
    have := cura_pushed (proper_width _ w) (by show 0 < dist * w; rw [mul_comm]; exact hd) hloop hsn hnk hl hx b1 hk (by rw [reach_make]; exact hpos)
      (fun j x _ _ hj => hrb x (List.mem_flatMap.2 ⟨L, List.mem_of_getElem? hL, List.mem_of_getElem? hj⟩)) b4
    rw [reach_make] at this
    rw [mul_comm w dist]
    exact this
  · cases hc

/-- C77, Slic3r: likewise for a perimeter, of whose first and last point only one counts. -/
theorem C77_slic3r {ε : α} {sqrt : α → α} (hs : IsSqrt ε sqrt) {fuel : ℕ} {cross loop inside outside dist strength : α}
    {profile : ProfileOracle α} {env : Env α} {data : List Str} {home : Home α} {g g' : GCode α} (hload : GCode.load env data false home = .ok g)
    (hplain : ∀ l ∈ program g, ¬ Nested l.raw ∧ '\n' ∉ l.raw) {d : Option (StretchDist α)} {ann : List (Layer α)}
    (ha : setupFilter .slic3r (StretchRepo.make cross loop inside outside dist strength) profile g.allLayers = .ok (d, ann))
    (h : g.stretch sqrt fuel .slic3r (StretchRepo.make cross loop inside outside dist strength) profile = .ok g') :
    ∃ w, WidthUsed .slic3r profile (linesOf g.allLayers) (linesOf ann) w ∧
      ∀ (i s o n : ℕ) (L L' : Layer α) (l : PyLine α) (kind : LoopKind), ann[i]? = some L → g'.allLayers[i]? = some L' →
        Slic3rLoop L.lines s o → s ≤ n → n < o → L.lines[n]? = some l → XYMove l → loopAt (linesOf (ann.take i) ++ L.lines.take (n + 1)) = some kind →
        0 < w * dist → 0 < w * (ratio loop inside outside kind * strength) →
        ∃ (l' : PyLine α) (p δ : Cx α), L'.lines[n]? = some l' ∧ p = herePt (linesOf (ann.take i) ++ L.lines.take (n + 1)) ∧
          PushedBy sqrt (w * dist) (w * cross) (w * (ratio loop inside outside kind * strength)) p
            ((slic3rAhead L.lines s o n).map (goal p)) ((slic3rBehind L.lines s o n).map (goal p)) δ ∧
          MovedBy δ.re δ.im (far sqrt δ ⟨0, 0⟩) (linesOf (ann.take i) ++ L.lines.take (n + 1)) l l' := by
  obtain ⟨d', Ls, st, Ls', h1, h2, rfl⟩ := stretch_parts h
  rw [ha] at h1
  simp only [Except.ok.injEq, Prod.mk.injEq] at h1
  obtain ⟨rfl, rfl⟩ := h1
  rcases setupFilter_width ha with ⟨w, rfl, hw⟩ | ⟨hc, _⟩
  · refine ⟨w, .inl hw, ?_⟩
    intro i s o n L L' l kind hL hL' hloop hsn hnk hl hx hk hd hpos
    have hrb := ann_readsBack hload hplain ha
    obtain ⟨c, loc, a, l', b1, b2, b3, b4, b5⟩ := layers_push hs (limits_width _ w) ann (stInv_init (reach (StretchRepo.make cross loop inside outside dist strength) w) _) h2
      i n L L' l kind hL hL' hl (by simpa using hk) hx (by rw [reach_make]; exact hpos)
    rw [List.nil_append] at b1 b3 b5
    refine ⟨l', ⟨loc.x, loc.y⟩, a, b2, b3, ?_, b5⟩
    have := slic3r_pushed (proper_width _ w) (by show 0 < dist * w; rw [mul_comm]; exact hd) hloop hsn hnk hl hx b1 hk (by rw [reach_make]; exact hpos)
      (fun j x _ _ hj => hrb x (List.mem_flatMap.2 ⟨L, List.mem_of_getElem? hL, List.mem_of_getElem? hj⟩)) b4
    rw [reach_make] at this
    rw [mul_comm w dist]
    exact this
  · cases hc

/-- C77 for both slicers. -/
theorem C77_point {ε : α} {sqrt : α → α} (hs : IsSqrt ε sqrt) {fuel : ℕ} {slicer : Slicer} {c : Settings α} {profile : ProfileOracle α} {g g' : GCode α} {ann : List (Layer α)}
    (h : StretchRun sqrt fuel slicer c profile g g' ann) :
    ∃ w, WidthUsed slicer profile (linesOf g.allLayers) (linesOf ann) w ∧
      ∀ (i n : ℕ) (ls hist ahead behind : List (PyLine α)) (kind : LoopKind) (l l' : PyLine α), LoopLine ann g'.allLayers i n ls kind hist l l' →
        Around slicer ls n ahead behind → 0 < w * c.dist → 0 < c.most w kind →
        ∃ δ, PushedBy sqrt (w * c.dist) (w * c.cross) (c.most w kind) (herePt hist) (ahead.map (goal (herePt hist))) (behind.map (goal (herePt hist))) δ ∧
          MovedBy δ.re δ.im (far sqrt δ ⟨0, 0⟩) hist l l' := by
  obtain ⟨⟨env, data, home, h1⟩, h2, ⟨d, h3⟩, h4⟩ := h
  cases slicer with
  | cura =>
    obtain ⟨w, hw, hall⟩ := C77_cura hs h1 h2 h3 h4
    refine ⟨w, hw, ?_⟩
    intro i n ls hist ahead behind kind l l' hl ha hd hm
    obtain ⟨s, k, a1, a2, a3, rfl, rfl⟩ := ha
    obtain ⟨⟨L, L', b1, rfl, b2, b3⟩, b4, b5, rfl, b6⟩ := hl
    obtain ⟨l'', p, δ, c1, rfl, c3, c4⟩ := hall i s k n L L' l kind b1 b2 a1 a2 a3 b4 b5 b6 hd hm
    rw [b3] at c1
    cases c1
    exact ⟨δ, c3, c4⟩
  | slic3r =>
    obtain ⟨w, hw, hall⟩ := C77_slic3r hs h1 h2 h3 h4
    refine ⟨w, hw, ?_⟩
    intro i n ls hist ahead behind kind l l' hl ha hd hm
    obtain ⟨s, k, a1, a2, a3, rfl, rfl⟩ := ha
    obtain ⟨⟨L, L', b1, rfl, b2, b3⟩, b4, b5, rfl, b6⟩ := hl
    obtain ⟨l'', p, δ, c1, rfl, c3, c4⟩ := hall i s k n L L' l kind b1 b2 a1 a2 a3 b4 b5 b6 hd hm
    rw [b3] at c1
    cases c1
    exact ⟨δ, c3, c4⟩
  | skeinforge =>
    rcases setupFilter_width h3 with ⟨w, rfl, hw⟩ | ⟨_, rfl, hn⟩
    · exact ⟨w, .inl hw, fun i n ls hist ahead behind kind l l' _ ha => ha.elim⟩
    · obtain ⟨w, hw, _⟩ := stretch_lines hs h3 h4
      exact ⟨w, hw, fun i n ls hist ahead behind kind l l' _ ha => ha.elim⟩

/-! ### non-vacuity -/

/-- The layer of a sample program that has the loop. -/
def layer1 (slicer : Slicer) (data : List Str) : List (PyLine ℚ) := (((marksQ slicer 1 data)[1]?).map (·.lines)).getD []

/-- A check for loops, for computed examples: marks of the first and the last line, and no marks between. -/
def loopCheck (close : Str) (ls : List (PyLine ℚ)) (s k : ℕ) (upTo : ℕ) : Bool :=
  (ls[s]?).any (fun l => decide (XYMove l) && decide (c!"stretch-loop-start" <:+: l.raw)) && (ls[k - 1]?).any (fun l => decide (XYMove l)) &&
  (ls[k]?).any (fun l => decide (close <:+: l.raw)) &&
  ((ls.take (upTo + 1)).drop (s + 1)).all (fun l => !decide (c!"stretch-loop-start" <:+: l.raw)) && ((ls.take k).drop s).all (fun l => !decide (close <:+: l.raw))

theorem loopCheck_parts {close : Str} {ls : List (PyLine ℚ)} {s k upTo : ℕ} (h : loopCheck close ls s k upTo = true) :
    (∃ l, ls[s]? = some l ∧ XYMove l ∧ c!"stretch-loop-start" <:+: l.raw) ∧ (∃ l, ls[k - 1]? = some l ∧ XYMove l) ∧ (∃ l, ls[k]? = some l ∧ close <:+: l.raw) ∧
    (∀ i l, s < i → i ≤ upTo → ls[i]? = some l → ¬ c!"stretch-loop-start" <:+: l.raw) ∧ (∀ i l, s ≤ i → i < k → ls[i]? = some l → ¬ close <:+: l.raw) := by
  unfold loopCheck at h
  simp only [Bool.and_eq_true, Option.any_eq_true_iff_get, List.all_eq_true, Bool.not_eq_true', decide_eq_false_iff_not] at h
  obtain ⟨⟨⟨⟨⟨h1, h1'⟩, h2, h2'⟩, h3, h3'⟩, h4⟩, h5⟩ := h
  have hmem : ∀ {i a b : ℕ} {l : PyLine ℚ}, a ≤ i → i < b → ls[i]? = some l → l ∈ (ls.take b).drop a := by
    intro i a b l h1 h2 hl
    apply List.mem_of_getElem? (i := i - a)
    rw [List.getElem?_drop, show a + (i - a) = i by omega, List.getElem?_take, if_pos h2, hl]
  simp only [decide_eq_true_eq] at h1' h2' h3'
  refine ⟨⟨_, (Option.some_get h1).symm, h1'⟩, ⟨_, (Option.some_get h2).symm, h2'⟩, ⟨_, (Option.some_get h3).symm, h3'⟩, fun i l a b hl => ?_, fun i l a b hl => ?_⟩
  · exact h4 l (hmem (by omega) (by omega) hl)
  · exact h5 l (hmem a b hl)

theorem curaLoop_of {ls : List (PyLine ℚ)} {s k : ℕ} (hlt : s < k) (h : loopCheck c!"stretch-loop-stop" ls s k k = true) : CuraLoop ls s k := by
  obtain ⟨h1, h2, h3, h4, h5⟩ := loopCheck_parts h
  exact ⟨hlt, h1, h2, h3, h4, h5⟩

theorem slic3rLoop_of {ls : List (PyLine ℚ)} {s k : ℕ} (hlt : s + 1 < k) (h : loopCheck c!"stretch-extrusion-off" ls s k (k - 1) = true) : Slic3rLoop ls s k := by
  obtain ⟨h1, h2, h3, h4, h5⟩ := loopCheck_parts h
  exact ⟨hlt, h1, h2, h3, fun i l a b => h4 i l a (by omega), h5⟩

theorem squareC_loop : CuraLoop (layer1 .cura squareC) 3 7 := curaLoop_of (by decide) (by decide +kernel)

theorem squareS_loop : Slic3rLoop (layer1 .slic3r squareS) 1 6 := slic3rLoop_of (by decide) (by decide +kernel)

/-- A check for runs of the filter. -/
theorem run_of {slicer : Slicer} {data : List Str} {w : ℚ}
    (h : GCode.load qEnv data = .ok (loadQ data) ∧ (∀ l ∈ program (loadQ data), l.raw.head? ≠ some '(' ∧ '\n' ∉ l.raw) ∧
      setupFilter slicer (StretchRepo.default 1) noProfile (loadQ data).allLayers = .ok (some (setEdgeWidth (StretchRepo.default 1) w), marksQ slicer 1 data) ∧
      (loadQ data).stretch rSqrt 100 slicer (StretchRepo.default 1) noProfile = .ok (stretchQ slicer 1 data)) :
    StretchRun rSqrt 100 slicer ⟨5, 11 / 100, 32 / 100, 1 / 10, 2, 1⟩ noProfile (loadQ data) (stretchQ slicer 1 data) (marksQ slicer 1 data) :=
  ⟨⟨qEnv, data, Home.init, h.1⟩, fun l hl => ⟨fun hc => (h.2.1 l hl).1 hc.1, (h.2.1 l hl).2⟩, ⟨_, h.2.2.1⟩, h.2.2.2⟩

/-- A check for lines in loops of sample programs. -/
theorem loopLine_of {slicer : Slicer} {data : List Str} {n : ℕ} {kind : LoopKind} (p : PyLine ℚ → Bool)
    (h : ∃ L ∈ (marksQ slicer 1 data)[1]?, ∃ L' ∈ (stretchQ slicer 1 data).allLayers[1]?, L.lines = layer1 slicer data ∧
      (∃ l' ∈ L'.lines[n]?, ∃ l ∈ (layer1 slicer data)[n]?, XYMove l ∧ p l = true) ∧
      loopAt (linesOf ((marksQ slicer 1 data).take 1) ++ (layer1 slicer data).take (n + 1)) = some kind) :
    ∃ l l', LoopLine (marksQ slicer 1 data) (stretchQ slicer 1 data).allLayers 1 n (layer1 slicer data) kind (linesOf ((marksQ slicer 1 data).take 1) ++ (layer1 slicer data).take (n + 1)) l l' ∧ p l = true := by
  obtain ⟨L, a1, L', a2, a3, ⟨l', a4, l, a5, a6, a7⟩, a8⟩ := h
  exact ⟨l, l', ⟨⟨L, L', a1, a3, a2, a4⟩, a5, a6, rfl, a8⟩, a7⟩

/-- The texts of both samples are plain, and their lines are in loops. -/
example : (∀ l ∈ program (loadQ squareC), ¬ Nested l.raw ∧ '\n' ∉ l.raw) ∧ (∀ l ∈ program (loadQ squareS), ¬ Nested l.raw ∧ '\n' ∉ l.raw) ∧
    loopAt (linesOf ((marksQ .cura 1 squareC).take 1) ++ (layer1 .cura squareC).take 5) = some .outer ∧
    loopAt (linesOf ((marksQ .slic3r 1 squareS).take 1) ++ (layer1 .slic3r squareS).take 4) = some .outer := by
  have h1 : ∀ l ∈ program (loadQ squareC), l.raw.head? ≠ some '(' ∧ '\n' ∉ l.raw := by decide +kernel
  have h2 : ∀ l ∈ program (loadQ squareS), l.raw.head? ≠ some '(' ∧ '\n' ∉ l.raw := by decide +kernel
  exact ⟨fun l hl => ⟨fun hc => (h1 l hl).1 hc.1, (h1 l hl).2⟩, fun l hl => ⟨fun hc => (h2 l hl).1 hc.1, (h2 l hl).2⟩, by decide +kernel, by decide +kernel⟩

/-- Ahead of the second point of the wall are the third, the fourth, the first and the second, behind it the same in the other order. -/
example : (curaAhead (layer1 .cura squareC) 3 7 4).map (goal ⟨1, 1⟩) = [⟨0, 1⟩, ⟨0, 0⟩, ⟨1, 0⟩, ⟨1, 1⟩] ∧
    (curaBehind (layer1 .cura squareC) 3 7 4).map (goal ⟨1, 1⟩) = [⟨1, 0⟩, ⟨0, 0⟩, ⟨0, 1⟩, ⟨1, 1⟩] ∧
    (slic3rAhead (layer1 .slic3r squareS) 1 6 1).map (goal ⟨0, 0⟩) = [⟨1, 0⟩, ⟨1, 1⟩, ⟨0, 1⟩, ⟨0, 0⟩] ∧
    (slic3rBehind (layer1 .slic3r squareS) 1 6 1).map (goal ⟨0, 0⟩) = [⟨0, 1⟩, ⟨1, 1⟩, ⟨1, 0⟩, ⟨0, 0⟩] := by decide +kernel

end GCodeUtils
