import Verif.Props.CuraHang

/-
  C64: a Skeinforge program on which the filter never ends.
-/

set_option linter.unusedSectionVars false

namespace GCodeUtils

open Spec

/-- An edge of one short move: the walk from the travel move before it goes around that one move for ever. -/
def skeinHang : List Str := [c!"(<edgeWidth> 0.4 </edgeWidth>)", c!"(<edge> outer )", c!"G1 X0 Y0", c!"M101", c!"G1 X0.1 Y0 E1", c!"M103", c!"(</edge>)"]

/-- The lines of the first layer of `skeinHang`, with marks. -/
def skeinHangLines : List (PyLine ℚ) := markedLayer .skeinforge skeinHang 0

/-- A layer of `skeinHang`, with marks. -/
def skeinHangLayer (i : ℕ) : Layer ℚ := ((marksQ .skeinforge 1 skeinHang)[i]?).getD { lines := [] }

/-- The widths used for `skeinHang`. -/
def skeinHangDist : StretchDist ℚ := setEdgeWidth (StretchRepo.default 1) (4 / 10)

theorem skeinHang_walk (fuel : ℕ) :
    relStretch rSqrt fuel skeinHangDist (some ⟨0, 0, 0⟩) .fwdLegacy skeinHangLines ((2 : ℕ) + 1) ⟨0, 0⟩ = .error .outOfFuel := by
  have e3 : lineAt skeinHangLines (((2 : ℕ) : ℤ) + 1) = some ((lineAt skeinHangLines 3).getD {}) ∧ isXYMove ((lineAt skeinHangLines 3).getD {}) = false ∧
      (marked extrusionOffMarker ((lineAt skeinHangLines 3).getD {}) && ItKind.stopOnOff .fwdLegacy) = false := by decide +kernel
  have e4 : lineAt skeinHangLines 4 = some ((lineAt skeinHangLines 4).getD {}) ∧ isXYMove ((lineAt skeinHangLines 4).getD {}) = true ∧
      (marked extrusionOffMarker ((lineAt skeinHangLines 4).getD {}) && ItKind.stopOnOff .fwdLegacy) = false := by decide +kernel
  have e5 : lineAt skeinHangLines 5 = some ((lineAt skeinHangLines 5).getD {}) ∧ resetIndex .fwdLegacy skeinHangLines 5 = .ok 4 ∧
      (marked extrusionOffMarker ((lineAt skeinHangLines 5).getD {}) && ItKind.stopOnOff .fwdLegacy) = true := by decide +kernel
  have t : ∀ k, getNextLoop .fwdLegacy skeinHangLines (k + 1) { idx := 4, first := some 3 } = .ok ((lineAt skeinHangLines 4).getD {}, { idx := 5, first := some 3 }) :=
    fun k => loop_stops e4.1 (by decide) e4.2.2 e4.2.1 k
  have q : ∀ k, getNext (k + 2) .fwdLegacy skeinHangLines { idx := ((2 : ℕ) : ℤ) + 1 } = .ok ((lineAt skeinHangLines 4).getD {}, { idx := 5, first := some 3 }) := by
    intro k
    unfold getNext
    simp only [indexSetup]
    rw [getNextLoop_succ, e3.1]
    simp only [e3.2.1, e3.2.2]
    rw [if_neg (by decide), if_neg (by decide), if_neg (by decide)]
    exact t k
  have r : ∀ k, getNext (k + 2) .fwdLegacy skeinHangLines { idx := 5, first := some 3 } = .ok ((lineAt skeinHangLines 4).getD {}, { idx := 5, first := some 3 }) := by
    intro k
    unfold getNext
    simp only [indexSetup]
    rw [getNextLoop_succ, e5.1]
    simp only [e5.2.2, e5.2.1]
    rw [if_neg (by decide), if_pos trivial]
    exact t k
  have d4 : ¬ skeinHangDist.fromDist ≤ 0 + ((⟨0, 0⟩ : Cx ℚ).sub (pointOf (some ⟨0, 0, 0⟩) ((lineAt skeinHangLines 4).getD {}))).abs rSqrt ∧
      ((pointOf (some ⟨0, 0, 0⟩) ((lineAt skeinHangLines 4).getD {})).sub (pointOf (some ⟨0, 0, 0⟩) ((lineAt skeinHangLines 4).getD {}))).abs rSqrt = 0 := by
    decide +kernel
  unfold relStretch
  match fuel with
  | 0 => rfl
  | 1 => exact relLoop_error (by decide +kernel) _
  | k + 2 =>
    rw [relLoop_step (q k) d4.1]
    exact relLoop_cycle (r k) d4.2 d4.1 _ _ _

/-- C64 fails of the Skeinforge filter too, on an edge of one short move. -/
theorem C64_skeinforge_refuted : GCode.load qEnv skeinHang = .ok (loadQ skeinHang) ∧
    ∀ fuel, (loadQ skeinHang).stretch rSqrt fuel .skeinforge (StretchRepo.default 1) noProfile = .error .outOfFuel := by
  refine ⟨by decide +kernel, fun fuel => ?_⟩
  have h1 : setupFilter .skeinforge (StretchRepo.default 1) noProfile (loadQ skeinHang).allLayers = .ok (some skeinHangDist, marksQ .skeinforge 1 skeinHang) := by
    decide +kernel
  have h2 : marksQ .skeinforge 1 skeinHang = [skeinHangLayer 0, skeinHangLayer 1] := by decide +kernel
  have h3 : (skeinHangLayer 0).lines = skeinHangLines := by decide +kernel
  have h4 : skeinHangLines = ((skeinHangLines[0]?).getD {}) :: ((skeinHangLines[1]?).getD {}) :: ((skeinHangLines[2]?).getD {}) :: skeinHangLines.drop 3 := by
    decide +kernel
  have h5 : loopSwitch { StretchSt.init with dist := some skeinHangDist } ((skeinHangLines[0]?).getD {}) = .ok { StretchSt.init with dist := some skeinHangDist } ∧
      isXYMove ((skeinHangLines[0]?).getD {}) = false ∧ reparse ((skeinHangLines[0]?).getD {}) = .ok ((skeinHangLines[0]?).getD {}) ∧
      skeinHangLines.set 0 ((skeinHangLines[0]?).getD {}) = skeinHangLines := by decide +kernel
  have h6 : loopSwitch { StretchSt.init with dist := some skeinHangDist } ((skeinHangLines[1]?).getD {}) =
      .ok { StretchSt.init with dist := some skeinHangDist, isLoop := true, tmax := skeinHangDist.outsideMax } ∧
      isXYMove ((skeinHangLines[1]?).getD {}) = false ∧ reparse ((skeinHangLines[1]?).getD {}) = .ok ((skeinHangLines[1]?).getD {}) ∧
      skeinHangLines.set 1 ((skeinHangLines[1]?).getD {}) = skeinHangLines := by decide +kernel
  have h7 : loopSwitch { StretchSt.init with dist := some skeinHangDist, isLoop := true, tmax := skeinHangDist.outsideMax } ((skeinHangLines[2]?).getD {}) =
      .ok { StretchSt.init with dist := some skeinHangDist, isLoop := true, tmax := skeinHangDist.outsideMax } ∧ isXYMove ((skeinHangLines[2]?).getD {}) = true ∧
      0 < skeinHangDist.outsideMax ∧ locationFromLine none ((skeinHangLines[2]?).getD {}) = ⟨0, 0, 0⟩ := by decide +kernel
  unfold GCode.stretch
  rw [h1]
  simp only
  rw [h2, stretchLayers, h3]
  have key : stretchLayer rSqrt fuel (Slicer.forward .skeinforge) (Slicer.backward .skeinforge) { StretchSt.init with dist := some skeinHangDist } skeinHangLines 0
      skeinHangLines = .error .outOfFuel := by
    conv_lhs => arg 8; rw [h4]
    refine layer_later (parseLine_skip h5.1 (by rw [h5.2.1]; rfl)) h5.2.2.1 ?_
    rw [h5.2.2.2]
    refine layer_later (parseLine_skip h6.1 (by rw [h6.2.1]; rfl)) h6.2.2.1 ?_
    rw [h6.2.2.2]
    refine layer_here (parseLine_error h7.1 (by rw [h7.2.1]; rfl) h7.2.2.1 rfl ?_)
    have e : locationFromLine ({ StretchSt.init with dist := some skeinHangDist, isLoop := true, tmax := skeinHangDist.outsideMax } : StretchSt ℚ).old
      ((skeinHangLines[2]?).getD {}) = ⟨0, 0, 0⟩ := h7.2.2.2
    rw [e]
    exact skeinHang_walk fuel
  rw [key]

end GCodeUtils
