import Verif.Props.StretchWalk

/-
  C64: a Cura program on which the filter never ends.
-/

set_option linter.unusedSectionVars false

namespace GCodeUtils

open Spec

variable {α : Type} [Field α] [LinearOrder α] [IsStrictOrderedRing α] [FloorRing α]

/-- A wall with a comment at its end, then a skin of one point: the walk along the wall goes past the end of the wall, and around the skin for ever. -/
def curaHang : List Str := [c!";TYPE:WALL-OUTER", c!"G1 X0 Y0 E1", c!";x", c!";TYPE:SKIN", c!"G1 X0.1 Y0 E2", c!";TYPE:FILL", c!"G1 X5 Y5 E3", c!";end"]

/-- The lines of the first layer of `curaHang`, with marks. -/
def curaHangLines : List (PyLine ℚ) := markedLayer .cura curaHang 0

/-- A layer of `curaHang`, with marks. -/
def curaHangLayer (i : ℕ) : Layer ℚ := ((marksQ .cura 1 curaHang)[i]?).getD { lines := [] }

/-- The widths used for `curaHang`. -/
def curaHangDist : StretchDist ℚ := setEdgeWidth (StretchRepo.default 1) (4 / 10)

/-- A step that leads back to the same place, over no distance: the walk goes on for ever. -/
theorem relLoop_cycle {sqrt : α → α} {fuel : ℕ} {d : StretchDist α} {old : Option (Vec3 α)} {kind : ItKind} {ls : List (PyLine α)} {loc : Cx α}
    {st : ItSt} {l : PyLine α} (hg : getNext fuel kind ls st = .ok (l, st)) (h0 : ((pointOf old l).sub (pointOf old l)).abs sqrt = 0) {total : α}
    (ht : ¬ d.fromDist ≤ total) (n : ℕ) : ∀ (ot : α) (point : Cx α),
    relStretchLoop sqrt fuel d old kind ls loc n st (pointOf old l) ot point total = .error .outOfFuel := by
  induction n with
  | zero => intro ot point; rfl
  | succ n ih =>
    intro ot point
    rw [relLoop_step hg (by rw [h0, add_zero]; exact ht), h0, add_zero]
    exact ih _ _

theorem curaHang_walk (fuel : ℕ) :
    relStretch rSqrt fuel curaHangDist (some ⟨0, 0, 0⟩) .curaFwd curaHangLines ((1 : ℕ) + 1) ⟨0, 0⟩ = .error .outOfFuel := by
  have q : ∀ k, getNext (k + 3) .curaFwd curaHangLines { idx := ((1 : ℕ) : ℤ) + 1 } = .ok ((lineAt curaHangLines 4).getD {}, { idx := 5, first := some 2 }) := by
    have s2 : indexSetup .curaFwd curaHangLines { idx := ((1 : ℕ) : ℤ) + 1 } = .ok { idx := 2 } := by decide +kernel
    have e2 : lineAt curaHangLines 2 = some ((lineAt curaHangLines 2).getD {}) ∧ isXYMove ((lineAt curaHangLines 2).getD {}) = false := by decide +kernel
    have e3 : lineAt curaHangLines 3 = some ((lineAt curaHangLines 3).getD {}) ∧ isXYMove ((lineAt curaHangLines 3).getD {}) = false := by decide +kernel
    have e4 : lineAt curaHangLines 4 = some ((lineAt curaHangLines 4).getD {}) ∧ isXYMove ((lineAt curaHangLines 4).getD {}) = true := by decide +kernel
    intro k
    unfold getNext
    rw [s2]
    simp only
    rw [getNextLoop_succ, e2.1]
    simp only [e2.2, ItKind.stopOnOff, Bool.and_false, ItKind.increment]
    rw [if_neg (by decide), if_neg (by decide), if_neg (by decide), getNextLoop_succ]
    have i3 : lineAt curaHangLines (2 + 1) = some ((lineAt curaHangLines 3).getD {}) := e3.1
    simp only
    rw [i3]
    simp only [e3.2, ItKind.stopOnOff, Bool.and_false, ItKind.increment]
    rw [if_neg (by decide), if_neg (by decide), if_neg (by decide)]
    exact loop_stops e4.1 (by decide) (by simp [ItKind.stopOnOff]) e4.2 k
  have r : ∀ k, getNext (k + 1) .curaFwd curaHangLines { idx := 5, first := some 2 } = .ok ((lineAt curaHangLines 4).getD {}, { idx := 5, first := some 2 }) := by
    have s5 : indexSetup .curaFwd curaHangLines { idx := 5, first := some 2 } = .ok { idx := 4, first := some 2 } := by decide +kernel
    have e4 : lineAt curaHangLines 4 = some ((lineAt curaHangLines 4).getD {}) ∧ isXYMove ((lineAt curaHangLines 4).getD {}) = true := by decide +kernel
    intro k
    unfold getNext
    rw [s5]
    exact loop_stops e4.1 (by decide) (by simp [ItKind.stopOnOff]) e4.2 k
  have d4 : ¬ curaHangDist.fromDist ≤ 0 + ((⟨0, 0⟩ : Cx ℚ).sub (pointOf (some ⟨0, 0, 0⟩) ((lineAt curaHangLines 4).getD {}))).abs rSqrt ∧
      ((pointOf (some ⟨0, 0, 0⟩) ((lineAt curaHangLines 4).getD {})).sub (pointOf (some ⟨0, 0, 0⟩) ((lineAt curaHangLines 4).getD {}))).abs rSqrt = 0 := by
    decide +kernel
  unfold relStretch
  match fuel with
  | 0 => rfl
  | 1 => exact relLoop_error (by decide +kernel) _
  | 2 => exact relLoop_error (by decide +kernel) _
  | k + 3 =>
    rw [relLoop_step (q k) d4.1]
    exact relLoop_cycle (r (k + 2)) d4.2 d4.1 _ _ _

/-- C64 fails of the Cura filter too: each step of a walk ends (`C64_cura_partial`), but on this program the walk has no last step. -/
theorem C64_cura_refuted : GCode.load qEnv curaHang = .ok (loadQ curaHang) ∧
    ∀ fuel, (loadQ curaHang).stretch rSqrt fuel .cura (StretchRepo.default 1) noProfile = .error .outOfFuel := by
  refine ⟨by decide +kernel, fun fuel => ?_⟩
  have h1 : setupFilter .cura (StretchRepo.default 1) noProfile (loadQ curaHang).allLayers = .ok (some curaHangDist, marksQ .cura 1 curaHang) := by decide +kernel
  have h2 : marksQ .cura 1 curaHang = [curaHangLayer 0, curaHangLayer 1] := by decide +kernel
  have h3 : (curaHangLayer 0).lines = curaHangLines := by decide +kernel
  have h4 : curaHangLines = ((curaHangLines[0]?).getD {}) :: ((curaHangLines[1]?).getD {}) :: curaHangLines.drop 2 := by decide +kernel
  have h5 : loopSwitch { StretchSt.init with dist := some curaHangDist } ((curaHangLines[0]?).getD {}) = .ok { StretchSt.init with dist := some curaHangDist } ∧
      isXYMove ((curaHangLines[0]?).getD {}) = false ∧ reparse ((curaHangLines[0]?).getD {}) = .ok ((curaHangLines[0]?).getD {}) ∧
      curaHangLines.set 0 ((curaHangLines[0]?).getD {}) = curaHangLines := by decide +kernel
  have h6 : loopSwitch { StretchSt.init with dist := some curaHangDist } ((curaHangLines[1]?).getD {}) =
      .ok { StretchSt.init with dist := some curaHangDist, isLoop := true, tmax := curaHangDist.outsideMax } ∧ isXYMove ((curaHangLines[1]?).getD {}) = true ∧
      0 < curaHangDist.outsideMax ∧ locationFromLine none ((curaHangLines[1]?).getD {}) = ⟨0, 0, 0⟩ := by decide +kernel
  unfold GCode.stretch
  rw [h1]
  simp only
  rw [h2, stretchLayers, h3]
  have key : stretchLayer rSqrt fuel (Slicer.forward .cura) (Slicer.backward .cura) { StretchSt.init with dist := some curaHangDist } curaHangLines 0
      curaHangLines = .error .outOfFuel := by
    conv_lhs => arg 8; rw [h4]
    refine layer_later (parseLine_skip h5.1 (by rw [h5.2.1]; rfl)) h5.2.2.1 ?_
    rw [h5.2.2.2]
    refine layer_here (parseLine_error h6.1 (by rw [h6.2.1]; rfl) h6.2.2.1 rfl ?_)
    have e : locationFromLine ({ StretchSt.init with dist := some curaHangDist, isLoop := true, tmax := curaHangDist.outsideMax } : StretchSt ℚ).old
      ((curaHangLines[1]?).getD {}) = ⟨0, 0, 0⟩ := h6.2.2.2
    rw [e]
    exact curaHang_walk fuel
  rw [key]

end GCodeUtils
