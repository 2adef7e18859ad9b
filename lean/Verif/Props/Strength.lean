import Verif.Lemmas.Strength
import Verif.Props.Stretch

/-
  C126: the displacements are proportional to the stretch strength.
-/

set_option linter.unusedSectionVars false

namespace GCodeUtils

open Spec

variable {α : Type} [Field α] [LinearOrder α] [IsStrictOrderedRing α] [FloorRing α]

theorem SameEnd.error_iff {β γ : Type} {R : β → γ → Prop} {x : Except Err β} {y : Except Err γ} (h : SameEnd R x y) (e : Err) :
    x = .error e ↔ y = .error e := by
  rcases h.outcomes with ⟨e', h1, h2⟩ | ⟨a, b, h1, h2, _⟩
  · simp [h1, h2]
  · simp [h1, h2]

theorem linesScaled {ε : α} {sqrt : α → α} (hs : IsSqrt ε sqrt) {fuel : ℕ} {slicer : Slicer} {cross loop inside outside dist strength c : α} (hc : 0 < c)
    {profile : ProfileOracle α} {g g₁ g₂ : GCode α} {d : Option (StretchDist α)} {ann : List (Layer α)}
    (ha : setupFilter slicer (StretchRepo.make cross loop inside outside dist strength) profile g.allLayers = .ok (d, ann))
    (h₁ : g.stretch sqrt fuel slicer (StretchRepo.make cross loop inside outside dist strength) profile = .ok g₁)
    (h₂ : g.stretch sqrt fuel slicer (StretchRepo.make cross loop inside outside dist (c * strength)) profile = .ok g₂) :
    ∃ w, WidthUsed slicer profile (linesOf g.allLayers) (linesOf ann) w ∧
      ∀ (k : ℕ) (l l₁ l₂ : PyLine α), (linesOf ann)[k]? = some l → (linesOf g₁.allLayers)[k]? = some l₁ → (linesOf g₂.allLayers)[k]? = some l₂ →
        LineScaled ε c (reach (StretchRepo.make cross loop inside outside dist strength) w) ((linesOf ann).take k ++ [l]) l l₁ l₂ := by
  have h := stretch_scale fuel hs hc slicer (StretchRepo.make cross loop inside outside dist strength) profile g
  rw [← make_scale, h₁, h₂] at h
  obtain ⟨d', ann', w, e, hw, hsc⟩ := h
  rw [ha] at e
  cases e
  refine ⟨w, hw, fun k l l₁ l₂ hl hl₁ hl₂ => ?_⟩
  have := scales_get hsc k l l₁ l₂ hl hl₁ hl₂
  rw [List.nil_append, List.take_add_one, hl] at this
  exact this

/-- **C126.**  Stretch a program with some strength and with `c` times that strength (`c > 0`), all other settings being the
same.  Either both fail with the same error, or both succeed.  In that case the moves inside loops (those of a kind for which
the greatest displacement is positive) go to `target + (dx, dy)` in the first result and to `target + c·(dx, dy)` in the
second, up to the rounding of the written coordinates; Z and F are the same; and E is multiplied by one minus the length of
the displacement (for absolute coordinates as for relative).  Every other line is the same in both results. -/
theorem C126_strength {ε : α} {sqrt : α → α} (hs : IsSqrt ε sqrt) {fuel : ℕ} {slicer : Slicer} {cross loop inside outside dist strength c : α} (hc : 0 < c)
    {profile : ProfileOracle α} {g : GCode α} :
    (∀ e, g.stretch sqrt fuel slicer (StretchRepo.make cross loop inside outside dist strength) profile = .error e ↔
      g.stretch sqrt fuel slicer (StretchRepo.make cross loop inside outside dist (c * strength)) profile = .error e) ∧
    ∀ {g₁ g₂ : GCode α} {d : Option (StretchDist α)} {ann : List (Layer α)},
      setupFilter slicer (StretchRepo.make cross loop inside outside dist strength) profile g.allLayers = .ok (d, ann) →
      g.stretch sqrt fuel slicer (StretchRepo.make cross loop inside outside dist strength) profile = .ok g₁ →
      g.stretch sqrt fuel slicer (StretchRepo.make cross loop inside outside dist (c * strength)) profile = .ok g₂ →
      ∃ w, WidthUsed slicer profile (linesOf g.allLayers) (linesOf ann) w ∧
        (linesOf g₁.allLayers).length = (linesOf ann).length ∧ (linesOf g₂.allLayers).length = (linesOf ann).length ∧
        ∀ (k : ℕ) (l l₁ l₂ : PyLine α), (linesOf ann)[k]? = some l → (linesOf g₁.allLayers)[k]? = some l₁ → (linesOf g₂.allLayers)[k]? = some l₂ →
          (∀ kind, XYMove l → loopAt ((linesOf ann).take k ++ [l]) = some kind → 0 < w * (ratio loop inside outside kind * strength) →
            ∃ dx dy n n' : α, LengthOf ε n dx dy ∧ LengthOf ε n' (c * dx) (c * dy) ∧
              MovedBy dx dy n ((linesOf ann).take k ++ [l]) l l₁ ∧ MovedBy (c * dx) (c * dy) n' ((linesOf ann).take k ++ [l]) l l₂) ∧
          ((¬ XYMove l ∨ loopAt ((linesOf ann).take k ++ [l]) = none ∨
            ∃ kind, loopAt ((linesOf ann).take k ++ [l]) = some kind ∧ w * (ratio loop inside outside kind * strength) ≤ 0) →
            l₂ = l₁ ∧ l₁.raw = l.raw) := by
  constructor
  · intro e
    have h := stretch_scale fuel hs hc slicer (StretchRepo.make cross loop inside outside dist strength) profile g
    rw [← make_scale] at h
    exact h.error_iff e
  · intro g₁ g₂ d ann ha h₁ h₂
    obtain ⟨w, hw, h⟩ := linesScaled hs hc ha h₁ h₂
    refine ⟨w, hw, ?_, ?_, fun k l l₁ l₂ hl hl₁ hl₂ => ?_⟩
    · obtain ⟨Ls, _, ⟨_, hh⟩, _, h3, _⟩ := stretch_spec hs h₁
      rw [ha] at hh
      cases hh
      exact (stretches_length h3).symm
    · obtain ⟨Ls, _, ⟨_, hh⟩, _, h3, _⟩ := stretch_spec hs h₂
      rw [make_scale, setupFilter_scale, ha] at hh
      cases hh
      exact (stretches_length h3).symm
    · have key := h k l l₁ l₂ hl hl₁ hl₂
      unfold LineScaled at key
      constructor
      · intro kind hxy hk hp
        rwa [if_pos ⟨hxy, kind, hk, by rwa [reach_make]⟩] at key
      · intro hcase
        rw [if_neg] at key
        · exact key
        · rintro ⟨hxy, kind, hk, hp⟩
          rw [reach_make] at hp
          rcases hcase with h | h | ⟨kind', h, h'⟩
          · exact h hxy
          · rw [hk] at h; cases h
          · rw [hk] at h
            cases h
            exact absurd hp (not_lt.2 h')

/-- **C126, with the exact square root.**  The filament reduction of a move is proportional to the strength as well: if E is
written as `e·(1 - n)` with one strength, it is written as `e·(1 - c·n)` with `c` times that strength. -/
theorem C126_strength_real {fuel : ℕ} {slicer : Slicer} {cross loop inside outside dist strength c : ℝ} (hc : 0 < c)
    {profile : ProfileOracle ℝ} {g g₁ g₂ : GCode ℝ} {d : Option (StretchDist ℝ)} {ann : List (Layer ℝ)}
    (ha : setupFilter slicer (StretchRepo.make cross loop inside outside dist strength) profile g.allLayers = .ok (d, ann))
    (h₁ : g.stretch Real.sqrt fuel slicer (StretchRepo.make cross loop inside outside dist strength) profile = .ok g₁)
    (h₂ : g.stretch Real.sqrt fuel slicer (StretchRepo.make cross loop inside outside dist (c * strength)) profile = .ok g₂) :
    ∃ w, WidthUsed slicer profile (linesOf g.allLayers) (linesOf ann) w ∧
      ∀ (k : ℕ) (l l₁ l₂ : PyLine ℝ) (kind : LoopKind), (linesOf ann)[k]? = some l → (linesOf g₁.allLayers)[k]? = some l₁ → (linesOf g₂.allLayers)[k]? = some l₂ →
        XYMove l → loopAt ((linesOf ann).take k ++ [l]) = some kind → 0 < w * (ratio loop inside outside kind * strength) →
        ∃ dx dy : ℝ, MovedBy dx dy (Real.sqrt (dx ^ 2 + dy ^ 2)) ((linesOf ann).take k ++ [l]) l l₁ ∧
          MovedBy (c * dx) (c * dy) (c * Real.sqrt (dx ^ 2 + dy ^ 2)) ((linesOf ann).take k ++ [l]) l l₂ := by
  obtain ⟨w, hw, _, _, h⟩ := (C126_strength (g := g) (fuel := fuel) (slicer := slicer) (profile := profile) (cross := cross) (loop := loop) (inside := inside)
    (outside := outside) (dist := dist) (strength := strength) realSqrt_isSqrt hc).2 ha h₁ h₂
  refine ⟨w, hw, fun k l l₁ l₂ kind hl hl₁ hl₂ hxy hk hp => ?_⟩
  obtain ⟨dx, dy, n, n', a, a', b, b'⟩ := (h k l l₁ l₂ hl hl₁ hl₂).1 kind hxy hk hp
  have e : ∀ {n x y : ℝ}, LengthOf 0 n x y → n = Real.sqrt (x ^ 2 + y ^ 2) := by
    intro n x y ⟨h0, h1, h2⟩
    simp only [add_zero, one_pow, one_mul] at h1 h2
    rw [← le_antisymm h1 h2, Real.sqrt_sq h0]
  refine ⟨dx, dy, by rwa [e a] at b, ?_⟩
  rw [e a', show (c * dx) ^ 2 + (c * dy) ^ 2 = c ^ 2 * (dx ^ 2 + dy ^ 2) by ring, Real.sqrt_mul (sq_nonneg c), Real.sqrt_sq hc.le] at b'
  exact b'

/-- The hypotheses are met, and both results of the theorem: with three times the strength the corners of a wall are displaced
three times as far (0.024 and 0.072 mm along each axis) and lose three times as much filament. -/
example : (0 : ℚ) < 3 ∧ IsSqrt (1 / 10 ^ 12 : ℚ) rSqrt ∧
    setupFilter .cura (StretchRepo.default 1) noProfile (loadQ squareC).allLayers =
      .ok (some (setEdgeWidth (StretchRepo.default 1) (4 / 10)), marksQ .cura 1 squareC) ∧
    (loadQ squareC).stretch rSqrt 100 .cura (StretchRepo.default 1) noProfile = .ok (stretchQ .cura 1 squareC) ∧
    (loadQ squareC).stretch rSqrt 100 .cura (StretchRepo.default (3 * 1)) noProfile = .ok (stretchQ .cura (3 * 1) squareC) ∧
    loopAt ((linesOf (marksQ .cura 1 squareC)).take 5) = some .outer ∧ (0 : ℚ) < 4 / 10 * (ratio (11 / 100) (32 / 100) (1 / 10) .outer * 1) ∧
    (program (stretchQ .cura 1 squareC)).map (·.raw) =
      [c!"G1 Z0.3 F7800", c!"G0 X0 Y0 F7800", c!";TYPE:WALL-OUTER", c!"G1 X1.024 Y-0.024 E0.96606 F1200.000",
       c!"G1 X1.024 Y1.024 E1.93212 F1200.000", c!"G1 X-0.024 Y1.024 E2.89818 F1200.000", c!"G1 X-0.024 Y-0.024 E3.86424 F1200.000",
       c!";TYPE:FILL ; stretch-loop-stop", c!"G0 F7800 X2 Y2", c!"G1 F1200 X8 E5"] ∧
    (program (stretchQ .cura (3 * 1) squareC)).map (·.raw) =
      [c!"G1 Z0.3 F7800", c!"G0 X0 Y0 F7800", c!";TYPE:WALL-OUTER", c!"G1 X1.072 Y-0.072 E0.89818 F1200.000",
       c!"G1 X1.072 Y1.072 E1.79635 F1200.000", c!"G1 X-0.072 Y1.072 E2.69453 F1200.000", c!"G1 X-0.072 Y-0.072 E3.59271 F1200.000",
       c!";TYPE:FILL ; stretch-loop-stop", c!"G0 F7800 X2 Y2", c!"G1 F1200 X8 E5"] :=
  ⟨by norm_num, rSqrt_isSqrt, by decide +kernel, by decide +kernel, by decide +kernel, by decide +kernel, by norm_num [ratio], by decide +kernel, by decide +kernel⟩

end GCodeUtils
