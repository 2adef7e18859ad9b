import Verif.Lemmas.PushFacts
import Verif.Props.Neighbour

/-
  C78-C80: straight edges, corners and closed loops.
-/

set_option linter.unusedSectionVars false

namespace GCodeUtils

open Spec

variable {α : Type} [Field α] [LinearOrder α] [IsStrictOrderedRing α] [FloorRing α]

theorem realSqrt_exact : ExactSquares Real.sqrt := fun x => Real.sqrt_mul_self_eq_abs x

theorem rSqrt_exact : ExactSquares rSqrt := by
  intro x
  unfold rSqrt
  rw [Rat.mul_self_num, Rat.mul_self_den]
  have e1 : ((x.num * x.num).toNat : ℕ) = x.num.natAbs * x.num.natAbs := by
    rw [← Int.natAbs_mul_self, Int.toNat_natCast]
  have e : x.num.natAbs * x.num.natAbs * (x.den * x.den) * 10 ^ 24 = (x.num.natAbs * x.den * 10 ^ 12) * (x.num.natAbs * x.den * 10 ^ 12) := by ring
  rw [e1, e, Nat.sqrt_eq]
  have hd : (x.den : ℚ) ≠ 0 := by exact_mod_cast x.den_ne_zero
  push_cast
  rw [Rat.abs_def, Rat.divInt_eq_div]
  push_cast
  have ha : (x.num.natAbs : ℚ) = |(x.num : ℚ)| := by rw [Nat.cast_natAbs, Int.cast_abs]
  rw [ha]
  field_simp
  norm_num

theorem here_own {before : List (PyLine α)} {l : PyLine α} {k : LoopKind} (hk : loopAt (before ++ [l]) = some k) (hl : XYMove l) {x y : α} (hx : l.x = some x) (hy : l.y = some y) :
    herePt (before ++ [l]) = ⟨x, y⟩ := by
  obtain ⟨h1, h2, _⟩ := loop_aims hk hl
  unfold herePt
  rw [h1, h2]
  unfold aimX aimY
  rw [hx, hy]
  rfl

/-! ### C78 -/

/-- C78. If the moves ahead go straight on in the direction `u` for at least the stretch distance, and those behind in the opposite
direction, then the point stays where it is, and its extrusion is unchanged. -/
theorem C78_straight {ε : α} {sqrt : α → α} (hs : IsSqrt ε sqrt) (hx : ExactSquares sqrt) {fuel : ℕ} {slicer : Slicer} {c : Settings α} {profile : ProfileOracle α}
    {g g' : GCode α} {ann : List (Layer α)} (h : StretchRun sqrt fuel slicer c profile g g' ann) :
    ∃ w, WidthUsed slicer profile (linesOf g.allLayers) (linesOf ann) w ∧
      ∀ (i n : ℕ) (ls hist ahead behind : List (PyLine α)) (kind : LoopKind) (l l' : PyLine α) (p u : Cx α) (ts ts' : List α) (rest rest' : List (Cx α)),
        LoopLine ann g'.allLayers i n ls kind hist l l' → Around slicer ls n ahead behind → 0 < w * c.dist → 0 < c.most w kind → p = herePt hist →
        u.re * u.re + u.im * u.im = 1 →
        ahead.map (goal p) = ts.map (rayPt p u) ++ rest → (0 :: ts).Pairwise (· ≤ ·) → w * c.dist ≤ ts.getLast?.getD 0 →
        behind.map (goal p) = ts'.map (rayPt p ⟨-u.re, -u.im⟩) ++ rest' → (0 :: ts').Pairwise (· ≤ ·) → w * c.dist ≤ ts'.getLast?.getD 0 →
        MovedBy 0 0 0 hist l l' := by
  obtain ⟨w, hw, hall⟩ := C77_point hs h
  refine ⟨w, hw, ?_⟩
  intro i n ls hist ahead behind kind l l' p u ts ts' rest rest' hl ha hd hm hp hu e1 m1 d1 e2 m2 d2
  obtain ⟨δ, k1, k2⟩ := hall i n ls hist ahead behind kind l l' hl ha hd hm
  rw [← hp, e1, e2] at k1
  have := pushed_straight hs hx hd hu m1 d1 m2 d2 k1
  subst this
  rw [far_zero hx] at k2
  exact k2

/-- A Slic3r program with a point in the middle of an edge. -/
def midS : List Str :=
  [c!"; external perimeters extrusion width = 0.50mm", c!"G1 Z0.3 F7800", c!"G1 X0 Y0 F7800 ; move to first perimeter point",
   c!"G1 X0.5 Y0 E0.5 F1200 ; perimeter external", c!"G1 X1 Y0 E1 F1200 ; perimeter external", c!"G1 X1.75 Y0 E2 ; perimeter external", c!"G1 X2 Y0 E2 ; perimeter external",
   c!"G1 X0 Y5 E3 ; perimeter external", c!"G1 X0 Y0 E4 ; perimeter external", c!"G1 X20 Y20 F7800 ; move to first infill point", c!"G1 X30 E5 ; infill"]

/-- The default settings. -/
def normalQ : Settings ℚ := ⟨5, 11 / 100, 32 / 100, 1 / 10, 2, 1⟩

theorem mid_loop : Slic3rLoop (layer1 .slic3r midS) 1 8 := slic3rLoop_of (by decide) (by decide +kernel)

/-- All hypotheses are met for the third point of the perimeter, with several moves on the way. -/
example : StretchRun rSqrt 100 .slic3r normalQ noProfile (loadQ midS) (stretchQ .slic3r 1 midS) (marksQ .slic3r 1 midS) ∧
    ∃ hist l l', LoopLine (marksQ .slic3r 1 midS) (stretchQ .slic3r 1 midS).allLayers 1 3 (layer1 .slic3r midS) .outer hist l l' ∧
    Around .slic3r (layer1 .slic3r midS) 3 (slic3rAhead (layer1 .slic3r midS) 1 8 3) (slic3rBehind (layer1 .slic3r midS) 1 8 3) ∧
    herePt hist = ⟨1, 0⟩ ∧ (slic3rAhead (layer1 .slic3r midS) 1 8 3).map (goal ⟨1, 0⟩) = [3 / 4, 1].map (rayPt ⟨1, 0⟩ ⟨1, 0⟩) ++ [⟨0, 5⟩, ⟨0, 0⟩, ⟨1 / 2, 0⟩, ⟨1, 0⟩] ∧
    (slic3rBehind (layer1 .slic3r midS) 1 8 3).map (goal ⟨1, 0⟩) = [1 / 2, 1].map (rayPt ⟨1, 0⟩ ⟨-1, -0⟩) ++ [⟨0, 5⟩, ⟨2, 0⟩, ⟨7 / 4, 0⟩, ⟨1, 0⟩] := by
  obtain ⟨l, l', h, _⟩ := loopLine_of (slicer := .slic3r) (data := midS) (n := 3) (kind := .outer) (fun _ => true) (by decide +kernel)
  exact ⟨run_of (w := 1 / 2) (by decide +kernel), _, l, l', h, ⟨1, 8, mid_loop, by decide, by decide, rfl, rfl⟩, by decide +kernel, by decide +kernel, by decide +kernel⟩

/-- Where a line of a program says it goes. -/
def xyAt (g : GCode ℚ) (k : ℕ) : Option ℚ × Option ℚ := (((program g)[k]?).map (fun l => (l.x, l.y))).getD (none, none)

/-! ### C79 -/

/-- C79, corners of at most ninety degrees whose edges are as long as the stretch distance: the point is moved away from both its
neighbours. -/
theorem C79_corner_partial {ε : α} {sqrt : α → α} (hs : IsSqrt ε sqrt) (hx : ExactSquares sqrt) {fuel : ℕ} {slicer : Slicer} {c : Settings α} {profile : ProfileOracle α}
    {g g' : GCode α} {ann : List (Layer α)} (h : StretchRun sqrt fuel slicer c profile g g' ann) :
    ∃ w, WidthUsed slicer profile (linesOf g.allLayers) (linesOf ann) w ∧
      ∀ (i n : ℕ) (ls hist ahead behind : List (PyLine α)) (kind : LoopKind) (l l' : PyLine α) (p q r : Cx α) (qs rs : List (Cx α)),
        LoopLine ann g'.allLayers i n ls kind hist l l' → Around slicer ls n ahead behind → 0 < w * c.dist → 0 < w * c.cross → 0 < c.most w kind → p = herePt hist →
        ahead.map (goal p) = q :: qs → behind.map (goal p) = r :: rs → w * c.dist ≤ far sqrt p q → w * c.dist ≤ far sqrt p r → ExactEdge sqrt p q → ExactEdge sqrt p r →
        0 ≤ (p.re - q.re) * (p.re - r.re) + (p.im - q.im) * (p.im - r.im) →
        ∃ x y δx δy e, 0 ≤ x ∧ 0 ≤ y ∧ δx = x * (p.re - q.re) + y * (p.re - r.re) ∧ δy = x * (p.im - q.im) + y * (p.im - r.im) ∧ MovedBy δx δy e hist l l' := by
  obtain ⟨w, hw, hall⟩ := C77_point hs h
  refine ⟨w, hw, ?_⟩
  intro i n ls hist ahead behind kind l l' p q r qs rs hl ha hd hc hm hp e1 e2 d1 d2 x1 x2 hang
  obtain ⟨δ, k1, k2⟩ := hall i n ls hist ahead behind kind l l' hl ha hd hm
  rw [← hp, e1, e2] at k1
  obtain ⟨x, y, hx0, hy0, h1, h2⟩ := pushed_corner hs hx hd hc hm.le d1 d2 x1 x2 hang k1
  exact ⟨x, y, δ.re, δ.im, _, hx0, hy0, h1, h2, k2⟩

/-- C79, corners of any angle whose edges are at most a third of the cross limit: if the whole loop is on one side of a line through
the point, the point is not moved to that side. -/
theorem C79_short_partial {ε : α} {sqrt : α → α} (hs : IsSqrt ε sqrt) {fuel : ℕ} {slicer : Slicer} {c : Settings α} {profile : ProfileOracle α}
    {g g' : GCode α} {ann : List (Layer α)} (h : StretchRun sqrt fuel slicer c profile g g' ann) :
    ∃ w, WidthUsed slicer profile (linesOf g.allLayers) (linesOf ann) w ∧
      ∀ (i n : ℕ) (ls hist ahead behind : List (PyLine α)) (kind : LoopKind) (l l' : PyLine α) (p : Cx α) (nx ny : α),
        LoopLine ann g'.allLayers i n ls kind hist l l' → Around slicer ls n ahead behind → 0 < w * c.dist → 0 < c.most w kind → p = herePt hist →
        (∀ q ∈ (ahead.map (goal p)).head?, far sqrt p q ≤ w * c.cross / 3) → (∀ q ∈ (behind.map (goal p)).head?, far sqrt p q ≤ w * c.cross / 3) →
        (∀ q ∈ ahead.map (goal p) ++ behind.map (goal p), nx * (q.re - p.re) + ny * (q.im - p.im) ≤ 0) →
        ∃ δx δy e, 0 ≤ nx * δx + ny * δy ∧ MovedBy δx δy e hist l l' := by
  obtain ⟨w, hw, hall⟩ := C77_point hs h
  refine ⟨w, hw, ?_⟩
  intro i n ls hist ahead behind kind l l' p nx ny hl ha hd hm hp s1 s2 hside
  obtain ⟨δ, k1, k2⟩ := hall i n ls hist ahead behind kind l l' hl ha hd hm
  rw [← hp] at k1
  exact ⟨δ.re, δ.im, _, pushed_outward hd hm.le k1 s1 s2 nx ny hside, k2⟩

/-- A perimeter with an obtuse corner between long edges. -/
def obtuseS : List Str :=
  [c!"; external perimeters extrusion width = 0.50mm", c!"G1 Z0.3 F7800", c!"G1 X0 Y0 F7800 ; move to first perimeter point",
   c!"G1 X40 Y0 E1 F1200 ; perimeter external", c!"G1 X64 Y32 E2 ; perimeter external", c!"G1 X0 Y32 E3 ; perimeter external",
   c!"G1 X0 Y0 E4 ; perimeter external", c!"G1 X20 Y20 F7800 ; move to first infill point", c!"G1 X30 E5 ; infill"]

/-- C79 is refuted for obtuse corners: the point (40, 0) goes to (39.99, 0), although all points of the perimeter have x - 2 y ≤ 40. -/
theorem C79_refuted : GCode.load qEnv obtuseS = .ok (loadQ obtuseS) ∧
    (loadQ obtuseS).stretch rSqrt 100 .slic3r (StretchRepo.default 1) noProfile = .ok (stretchQ .slic3r 1 obtuseS) ∧
    xyAt (loadQ obtuseS) 3 = (some 40, some 0) ∧
    xyAt (stretchQ .slic3r 1 obtuseS) 3 = (some (39990 / 1000), some 0) ∧
    (∀ l ∈ ((program (loadQ obtuseS)).take 7).drop 2, 1 * (l.x.getD 0 - 40) + (-2) * (l.y.getD 0 - 0) ≤ (0 : ℚ)) ∧
    1 * ((39990 : ℚ) / 1000 - 40) + (-2) * (0 - 0) < 0 := by decide +kernel

theorem obtuse_loop : Slic3rLoop (layer1 .slic3r obtuseS) 1 6 := slic3rLoop_of (by decide) (by decide +kernel)

/-- The corner theorem applies to the point (0, 32) of the same perimeter. -/
example : StretchRun rSqrt 100 .slic3r normalQ noProfile (loadQ obtuseS) (stretchQ .slic3r 1 obtuseS) (marksQ .slic3r 1 obtuseS) ∧
    ∃ hist l l', LoopLine (marksQ .slic3r 1 obtuseS) (stretchQ .slic3r 1 obtuseS).allLayers 1 4 (layer1 .slic3r obtuseS) .outer hist l l' ∧
    Around .slic3r (layer1 .slic3r obtuseS) 4 (slic3rAhead (layer1 .slic3r obtuseS) 1 6 4) (slic3rBehind (layer1 .slic3r obtuseS) 1 6 4) ∧
    herePt hist = ⟨0, 32⟩ ∧ (slic3rAhead (layer1 .slic3r obtuseS) 1 6 4).map (goal ⟨0, 32⟩) = ⟨0, 0⟩ :: [⟨40, 0⟩, ⟨64, 32⟩, ⟨0, 32⟩] ∧
    (slic3rBehind (layer1 .slic3r obtuseS) 1 6 4).map (goal ⟨0, 32⟩) = ⟨64, 32⟩ :: [⟨40, 0⟩, ⟨0, 0⟩, ⟨0, 32⟩] ∧
    ExactEdge rSqrt ⟨0, 32⟩ ⟨0, 0⟩ ∧ ExactEdge rSqrt ⟨0, 32⟩ ⟨64, 32⟩ ∧ 1 / 2 * normalQ.dist ≤ far rSqrt ⟨0, 32⟩ ⟨0, 0⟩ ∧ 0 < normalQ.most (1 / 2) .outer := by
  obtain ⟨l, l', h, _⟩ := loopLine_of (slicer := .slic3r) (data := obtuseS) (n := 4) (kind := .outer) (fun _ => true) (by decide +kernel)
  exact ⟨run_of (w := 1 / 2) (by decide +kernel), _, l, l', h, ⟨1, 6, obtuse_loop, by decide, by decide, rfl, rfl⟩, by decide +kernel, by decide +kernel, by decide +kernel,
    by unfold ExactEdge; decide +kernel, by unfold ExactEdge; decide +kernel, by decide +kernel, by decide +kernel⟩

/-- A small octagon-like perimeter: all edges are short, all corners obtuse. -/
def smallS : List Str :=
  [c!"; external perimeters extrusion width = 0.60mm", c!"G1 Z0.3 F7800", c!"G1 X0 Y0 F7800 ; move to first perimeter point",
   c!"G1 X0.5 Y0 E1 F1200 ; perimeter external", c!"G1 X0.8 Y0.4 E2 ; perimeter external", c!"G1 X0.5 Y0.8 E3 ; perimeter external", c!"G1 X0 Y0.8 E3 ; perimeter external",
   c!"G1 X-0.3 Y0.4 E3 ; perimeter external", c!"G1 X0 Y0 E4 ; perimeter external", c!"G1 X20 Y20 F7800 ; move to first infill point", c!"G1 X30 E5 ; infill"]

theorem small_loop : Slic3rLoop (layer1 .slic3r smallS) 1 8 := slic3rLoop_of (by decide) (by decide +kernel)

/-- There the other theorem applies to the point (0.5, 0), with the line x - 2 y = 0.5. -/
example : StretchRun rSqrt 100 .slic3r normalQ noProfile (loadQ smallS) (stretchQ .slic3r 1 smallS) (marksQ .slic3r 1 smallS) ∧
    ∃ hist l l', LoopLine (marksQ .slic3r 1 smallS) (stretchQ .slic3r 1 smallS).allLayers 1 2 (layer1 .slic3r smallS) .outer hist l l' ∧
    Around .slic3r (layer1 .slic3r smallS) 2 (slic3rAhead (layer1 .slic3r smallS) 1 8 2) (slic3rBehind (layer1 .slic3r smallS) 1 8 2) ∧
    herePt hist = ⟨1 / 2, 0⟩ ∧
    (∀ q ∈ ((slic3rAhead (layer1 .slic3r smallS) 1 8 2).map (goal ⟨1 / 2, 0⟩)).head?, far rSqrt ⟨1 / 2, 0⟩ q ≤ 6 / 10 * normalQ.cross / 3) ∧
    (∀ q ∈ ((slic3rBehind (layer1 .slic3r smallS) 1 8 2).map (goal ⟨1 / 2, 0⟩)).head?, far rSqrt ⟨1 / 2, 0⟩ q ≤ 6 / 10 * normalQ.cross / 3) ∧
    (∀ q ∈ (slic3rAhead (layer1 .slic3r smallS) 1 8 2).map (goal ⟨1 / 2, 0⟩) ++ (slic3rBehind (layer1 .slic3r smallS) 1 8 2).map (goal ⟨1 / 2, 0⟩),
      1 * (q.re - 1 / 2) + (-2) * (q.im - 0) ≤ 0) := by
  obtain ⟨l, l', h, _⟩ := loopLine_of (slicer := .slic3r) (data := smallS) (n := 2) (kind := .outer) (fun _ => true) (by decide +kernel)
  exact ⟨run_of (w := 6 / 10) (by decide +kernel), _, l, l', h, ⟨1, 8, small_loop, by decide, by decide, rfl, rfl⟩, by decide +kernel, by decide +kernel, by decide +kernel, by decide +kernel⟩

/-! ### C80 -/

/-- C80, Slic3r, for perimeters at whose start extrusion does not end (the first of a layer, say): if the first and the last move go
to the same place, then after stretching they are written with the same coordinates. -/
theorem C80_slic3r_partial {ε : α} {sqrt : α → α} (hs : IsSqrt ε sqrt) {fuel : ℕ} {c : Settings α} {profile : ProfileOracle α} {g g' : GCode α} {ann : List (Layer α)}
    (h : StretchRun sqrt fuel .slic3r c profile g g' ann) :
    ∃ w, WidthUsed .slic3r profile (linesOf g.allLayers) (linesOf ann) w ∧
      ∀ (i s o : ℕ) (ls hist1 hist2 : List (PyLine α)) (kind1 kind2 : LoopKind) (l1 l2 l1' l2' : PyLine α) (x y : α), Slic3rLoop ls s o →
        LoopLine ann g'.allLayers i s ls kind1 hist1 l1 l1' → LoopLine ann g'.allLayers i (o - 1) ls kind2 hist2 l2 l2' →
        l1.x = some x → l1.y = some y → l2.x = some x → l2.y = some y → 0 < w * c.dist → 0 ≤ w * c.cross → 0 < c.most w kind1 →
        ∃ (m1 m2 : PyLine α) (x' y' : α), l1'.raw = (unsplit m1).raw ∧ l2'.raw = (unsplit m2).raw ∧ m1.x = some x' ∧ m2.x = some x' ∧ m1.y = some y' ∧ m2.y = some y' := by
  obtain ⟨w, hw, hall⟩ := C77_point hs h
  refine ⟨w, hw, ?_⟩
  intro i s o ls hist1 hist2 kind1 kind2 l1 l2 l1' l2' x y hloop hl1 hl2 x1 y1 x2 y2 hd hc hm
  have hlt := hloop.lt
  have hsplit : ∀ {n : ℕ} {l : PyLine α}, ls[n]? = some l → ls.take (n + 1) = ls.take n ++ [l] := by
    intro n l hl
    rw [List.take_add_one, hl]; rfl
  have hp1 : herePt hist1 = ⟨x, y⟩ := by
    have hk := hl1.inLoop
    rw [hl1.past, hsplit hl1.line, ← List.append_assoc] at hk ⊢
    exact here_own hk hl1.move x1 y1
  have hp2 : herePt hist2 = ⟨x, y⟩ := by
    have hk := hl2.inLoop
    rw [hl2.past, hsplit hl2.line, ← List.append_assoc] at hk ⊢
    exact here_own hk hl2.move x2 y2
  have hkind : kind1 = kind2 := by
    have hk := hl2.inLoop
    rw [hl2.past] at hk
    have := loopAt_back (s := s) (n := o - 1) (List.getElem?_eq_some_iff.1 hl2.line).1 hk (fun i l a b => hloop.noStart i l a (by omega)) _ s rfl le_rfl (by omega)
    rw [← hl1.past, hl1.inLoop] at this
    exact Option.some.inj this
  subst hkind
  have e1 : slic3rAhead ls s o (o - 1) = slic3rAhead ls s o s := by
    unfold slic3rAhead
    rw [show o - 1 + 1 = o by omega, movesIn_nil ls (le_refl o), movesIn_nil ls (le_refl (s + 1))]
    simp
  have e2 : slic3rBehind ls s o (o - 1) = slic3rBehind ls s o s := by
    unfold slic3rBehind
    rw [movesIn_nil ls (le_refl (o - 1)), movesIn_nil ls (le_refl s)]
    simp
  obtain ⟨δ1, a1, b1⟩ := hall i s ls hist1 _ _ kind1 l1 l1' hl1 ⟨s, o, hloop, le_rfl, by omega, rfl, rfl⟩ hd hm
  obtain ⟨δ2, a2, b2⟩ := hall i (o - 1) ls hist2 _ _ kind1 l2 l2' hl2 ⟨s, o, hloop, by omega, by omega, rfl, rfl⟩ hd hm
  rw [e1, e2, hp2] at a2
  rw [hp1] at a1
  have := pushedBy_unique hs hd hc a1 a2
  subst this
  obtain ⟨m1, r1, _, mx1, my1, _⟩ := b1
  obtain ⟨m2, r2, _, mx2, my2, _⟩ := b2
  have hx1 : lastOr 0 ((loopMoves none hist1).filterMap (·.x)) = x := congrArg Cx.re hp1
  have hy1 : lastOr 0 ((loopMoves none hist1).filterMap (·.y)) = y := congrArg Cx.im hp1
  have hx2 : lastOr 0 ((loopMoves none hist2).filterMap (·.x)) = x := congrArg Cx.re hp2
  have hy2 : lastOr 0 ((loopMoves none hist2).filterMap (·.y)) = y := congrArg Cx.im hp2
  rw [hx1] at mx1
  rw [hy1] at my1
  rw [hx2] at mx2
  rw [hy2] at my2
  exact ⟨m1, m2, _, _, r1, r2, mx1, mx2, my1, my2⟩

/-- Two perimeters in one layer. -/
def twoS : List Str :=
  [c!"; external perimeters extrusion width = 0.50mm", c!"G1 Z0.3 F7800", c!"G1 X0 Y0 F7800 ; move to first perimeter point",
   c!"G1 X1 Y0 E1 F1200 ; perimeter external", c!"G1 X1 Y1 E2 ; perimeter external", c!"G1 X0 Y1 E3 ; perimeter external",
   c!"G1 X0 Y0 E4 ; perimeter external", c!"G1 X10 Y0 F7800 ; move to first perimeter point",
   c!"G1 X11 Y0 E5 F1200 ; perimeter external", c!"G1 X11 Y1 E6 ; perimeter external", c!"G1 X10 Y1 E7 ; perimeter external",
   c!"G1 X10 Y0 E8 ; perimeter external", c!"G1 X20 Y20 F7800 ; move to first infill point", c!"G1 X30 E9 ; infill"]

/-- C80 is refuted for the second perimeter of a layer: its first point is written as (10.001, 0), its last as (9.887, -0.113). -/
theorem C80_slic3r_refuted : GCode.load qEnv twoS = .ok (loadQ twoS) ∧
    (loadQ twoS).stretch rSqrt 100 .slic3r (StretchRepo.default 1) noProfile = .ok (stretchQ .slic3r 1 twoS) ∧
    xyAt (loadQ twoS) 7 = (some 10, some 0) ∧ xyAt (loadQ twoS) 11 = (some 10, some 0) ∧
    xyAt (stretchQ .slic3r 1 twoS) 7 = (some (10001 / 1000), some 0) ∧
    xyAt (stretchQ .slic3r 1 twoS) 11 = (some (9887 / 1000), some (-113 / 1000)) := by decide +kernel

/-- C80 is refuted for Cura: the move to the start of a wall stays, the last move of the wall does not. -/
theorem C80_cura_refuted : GCode.load qEnv squareC = .ok (loadQ squareC) ∧
    (loadQ squareC).stretch rSqrt 100 .cura (StretchRepo.default 1) noProfile = .ok (stretchQ .cura 1 squareC) ∧
    xyAt (loadQ squareC) 1 = (some 0, some 0) ∧ xyAt (loadQ squareC) 6 = (some 0, some 0) ∧
    xyAt (stretchQ .cura 1 squareC) 1 = (some 0, some 0) ∧
    xyAt (stretchQ .cura 1 squareC) 6 = (some (-24 / 1000), some (-24 / 1000)) := by decide +kernel

/-- The hypotheses of the partial theorem: first and last line of the sample perimeter. -/
example : ∃ hist1 hist2 l1 l2 l1' l2', Slic3rLoop (layer1 .slic3r midS) 1 8 ∧
    LoopLine (marksQ .slic3r 1 midS) (stretchQ .slic3r 1 midS).allLayers 1 1 (layer1 .slic3r midS) .outer hist1 l1 l1' ∧
    LoopLine (marksQ .slic3r 1 midS) (stretchQ .slic3r 1 midS).allLayers 1 7 (layer1 .slic3r midS) .outer hist2 l2 l2' ∧
    l1.x = some 0 ∧ l1.y = some 0 ∧ l2.x = some 0 ∧ l2.y = some 0 := by
  obtain ⟨l, l', h, hl⟩ := loopLine_of (slicer := .slic3r) (data := midS) (n := 1) (kind := .outer) (fun l => decide (l.x = some 0 ∧ l.y = some 0)) (by decide +kernel)
  obtain ⟨k, k', h', hk⟩ := loopLine_of (slicer := .slic3r) (data := midS) (n := 7) (kind := .outer) (fun l => decide (l.x = some 0 ∧ l.y = some 0)) (by decide +kernel)
  rw [decide_eq_true_eq] at hl hk
  exact ⟨_, _, l, k, l', k', mid_loop, h, h', hl.1, hl.2, hk.1, hk.2⟩

end GCodeUtils
