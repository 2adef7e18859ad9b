import Verif.Props.Alias
import Verif.Props.ArcGeometry
import Verif.Props.Compare
import Verif.Props.Format
import Verif.Props.Lex
import Verif.Props.Stretch
import Verif.Props.Vector3
import Verif.Props.Visit

/-!
Concrete cases for theorems that have none beside them.
-/

set_option linter.unusedSectionVars false

namespace GCodeUtils
open Spec

/-- `C93_stretch_partial`: the square loads and is stretched, the iteration gives its texts with marks, none is nested or has a newline. -/
example : GCode.load qEnv squareS = .ok (loadQ squareS) ∧
    (loadQ squareS).stretch rSqrt 100 .slic3r (StretchRepo.default 1) noProfile = .ok (stretchQ .slic3r 1 squareS) ∧
    ((loadQ squareS).iterStretch rSqrt 100 .slic3r (StretchRepo.default 1) noProfile).map (fun ts => ts.zip squareS |>.filter (fun p => p.1 ≠ p.2) |>.length) ≠ .ok 0 ∧
    (∀ l ∈ program (loadQ squareS), '\n' ∉ l.raw) := by decide +kernel

/-- `C18_all_light_equal`: two light programs with different commands. -/
example : ((GCode.load qEnv [c!"G28", c!"G1 X5 E1"] true).bind (fun g => (GCode.load qEnv [c!"M104 S200"] true).map
    (fun h => (g.eq h, g.lines.map (·.raw), h.lines.map (·.raw))))) = .ok (true, [c!"G28", c!"G1 X5 E1"], [c!"M104 S200"]) := by decide +kernel

/-- `C12_unsplit_stable`: a line whose arguments are rounded the first time. -/
example : ∃ l : PyLine ℚ, l.command = some c!"G1" ∧ IsDecimal c!"1" ∧ (unsplit l).raw = c!"G1 X0.333 E0.66667" ∧
    l.x = some (1 / 3) :=
  ⟨{ command := some c!"G1", x := some (1 / 3), e := some (2 / 3) }, rfl, ⟨c!"1", by decide, by decide, .inl rfl⟩, by decide +kernel, rfl⟩

/-- `C71_normalize`: a vector that is not zero. -/
example : (⟨0, 3, 4⟩ : Vec3 ℚ) ≠ Vec3.zero ∧ (⟨0, 3, 4⟩ : Vec3 ℚ).normalize rSqrt ≠ ⟨0, 3, 4⟩ := by decide +kernel

/-- `C71_normalize_real`. -/
example : ((⟨0, 3, 4⟩ : Vec3 ℝ).normalize Real.sqrt).magnitude Real.sqrt = 1 :=
  C71_normalize_real _ (fun h => by simpa [Vec3.zero] using congrArg Vec3.y h)

/-- `C71_bounds`: the bounds of two vectors, neither above the other. -/
example : (⟨1, 5, 2⟩ : Vec3 ℚ).maximize ⟨3, 4, 2⟩ = ⟨3, 5, 2⟩ ∧ (⟨1, 5, 2⟩ : Vec3 ℚ).minimize ⟨3, 4, 2⟩ = ⟨1, 4, 2⟩ := by decide +kernel

/-- `C71_inplace`, `C71_equality`, `C71_dropAxis`. -/
example : (⟨1, 5, 2⟩ : Vec3 ℚ).isub none = Vec3.zero ∧ (⟨1, 5, 2⟩ : Vec3 ℚ).itruediv 2 = .ok ⟨1 / 2, 5 / 2, 1⟩ ∧
    (⟨1, 5, 2⟩ : Vec3 ℚ).eq ⟨1, 5, 3⟩ = false ∧ (⟨1, 5, 2⟩ : Vec3 ℚ).nonzero = true ∧
    (⟨1, 5, 2⟩ : Vec3 ℚ).dropAxis 2 = (⟨1, 5, 3⟩ : Vec3 ℚ).dropAxis 2 := by decide +kernel

/-- `C40_numbers`: two printed layers of different heights. -/
example : none ∉ floorsG.allZs ∧ floorsG.allLayers[1]?.bind (·.z) = some (3 / 10) ∧ floorsG.allLayers[2]?.bind (·.z) = some (3 / 5) := by
  decide +kernel

/-- `C73_width`: the width of the square is the one its comment gives, and the distances follow. -/
example : setupFilter .slic3r (StretchRepo.default 1) noProfile (loadQ squareS).allLayers =
      .ok (some (setEdgeWidth (StretchRepo.default 1) (1 / 2)), marksQ .slic3r 1 squareS) ∧
    (setEdgeWidth (StretchRepo.default (1 : ℚ)) (1 / 2)).loopMax = 1 / 2 * (StretchRepo.default (1 : ℚ)).loop ∧
    (loadQ squareS).stretch rSqrt 100 .slic3r (StretchRepo.default 1) noProfile = .ok (stretchQ .slic3r 1 squareS) := by decide +kernel

/-- `C11_case_load_partial`: a program and the same in other letters, with a blank more. -/
example (env : Env ℚ) (light : Bool) (home : Home ℚ) : (GCode.load env [c!"g1 x1 f600 ", c!"; Note"] light home).map GCode.eraseText =
    (GCode.load env [c!"G1 X1 F600", c!"; Note"] light home).map GCode.eraseText :=
  C11_case_load_partial env light home [c!"G1 X1 F600", c!"; Note"] [c!"g1 x1 f600 ", c!"; Note"] (.cons (.inr ⟨c!"G1 X1 F600", c!"g1 x1 f600", ⟨⟨[], [], rfl, by decide, by decide⟩, by decide, by decide⟩,
    ⟨⟨[], c!" ", rfl, by decide, by decide⟩, by decide, by decide⟩, by decide, by decide, by decide, by decide, by decide⟩) (.cons (.inl rfl) .nil))

/-- `C57_accepted`: three points of the unit circle, a quarter turn apart. -/
example (mode : RoundMode) : ∃ c, getCircle (realTrig mode) [(1, 0), (0, 1), (-1, 0)] = .ok (false, some c) ∧ c.cx = 0 ∧ c.cy = 0 ∧ c.radius = 1 := by
  have a0 : Complex.arg ⟨1, 0⟩ = 0 := Complex.arg_one
  have a1 : Complex.arg ⟨0, 1⟩ = Real.pi / 2 := Complex.arg_I
  have a2 : Complex.arg ⟨-1, 0⟩ = Real.pi := by
    have : (⟨-1, 0⟩ : ℂ) = -1 := by apply Complex.ext <;> simp
    rw [this, Complex.arg_neg_one]
  have hp := Real.pi_pos
  have hang : angles (realTrig mode) (0, 0) [(1, 0), (0, 1), (-1, 0)] = [Real.pi / 2, Real.pi / 2] := by
    simp only [angles, steps, turn, realTrig, List.tail_cons, List.zip_cons_cons, List.zip_nil_right, List.map_cons, List.map_nil, sub_zero, a0, a1, a2]
    rw [if_neg (by linarith), if_neg (by linarith), if_neg (by linarith), if_neg (by linarith)]
    congr 2; ring
  refine C57_accepted mode _ 0 0 1 (by norm_num) (by norm_num) ?_ ⟨(1, 0), by simp, (0, 1), by simp, (-1, 0), by simp, by simp, ?_, by simp⟩ ?_ ?_ ?_
  · intro p hp
    simp only [List.mem_cons, List.not_mem_nil, or_false] at hp
    rcases hp with rfl | rfl | rfl <;> norm_num
  · intro h; have := congrArg Prod.fst h; norm_num at this
  · norm_num [spread, mean]
  · norm_num [spread, mean]
  · intro v hv
    rw [hang] at hv ⊢
    simp only [mean, List.mem_cons, List.not_mem_nil, or_false, or_self] at hv ⊢
    subst hv
    simp only [List.sum_cons, List.sum_nil, List.length_cons, List.length_nil]
    norm_num
    linarith

end GCodeUtils
