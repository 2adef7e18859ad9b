import Verif.Lemmas.Readable
import Verif.Props.PlacedTime

/-
  C140: layers and estimated times of a file that was moved.
-/

set_option linter.unusedSectionVars false

namespace GCodeUtils

open Spec

variable {α : Type} [Field α] [LinearOrder α] [IsStrictOrderedRing α] [FloorRing α]

theorem feed_carried {dx dy : α} {ls ls' : List (PyLine α)} (h : List.Forall₂ (Carried dx dy) ls ls') :
    (∀ l ∈ ls, Linear l → ∀ f, l.f = some f → 0 ≤ f) → ∀ l ∈ ls', FeedOk l := by
  induction h with
  | nil => intro _ l hl; cases hl
  | @cons a b _ _ h1 _ ih =>
    intro hf l hl
    rcases List.mem_cons.1 hl with rfl | hl
    · intro hL f e
      exact hf a (by simp) ((linear_congr h1.command).1 hL) f (h1.f.symm.trans e)
    · exact ih (fun q hq => hf q (by simp [hq])) l hl

/-- C140 (partial). A file in absolute millimetres without `G92`, whose first X/Y move names both axes and whose numbers have at most three
decimals (five for E) and no negative feed rates, is moved by amounts with at most three decimals. The written file can be read again, it has the same layers at
the same heights with as many lines each, and takes the same time, except for the way to the place. -/
theorem C140_moved_partial {env : Env α} {x y : Option α} {text u : Str} {g : GCode α}
    (hg : GCode.load env (readlines text) = .ok g) (hne : g.lines ≠ []) (h20 : ∀ l ∈ g.lines, ¬ HasCmd l c!"G20")
    (h91 : ∀ l ∈ g.lines, ¬ HasCmd l c!"G91") (h92 : ∀ l ∈ g.lines, ¬ HasCmd l c!"G92")
    (hfeed : ∀ l ∈ g.lines, Linear l → ∀ f, l.f = some f → 0 ≤ f) (hs : ∀ l ∈ g.lines, IsMove l → ShortNumbers l) (hm : ModeStated g.lines) (hf : FirstNamesBoth g.lines)
    (hx : ∃ k : ℤ, x.getD 0 = k / 10 ^ 3) (hy : ∃ k : ℤ, y.getD 0 = k / 10 ^ 3)
    (h : modPipeline env x y false none (readlines text) = .ok u) :
    ∃ g2, GCode.load env (readlines u) = .ok g2 ∧ g2.allZs = g.allZs ∧ g2.zmax = g.zmax ∧
      g2.allLayers.map (·.lines.length) = g.allLayers.map (·.lines.length) ∧ SameTimes env.hypot g g2 := by
  have hF : ∀ l ∈ g.lines, Firm l := fun l hm =>
    ⟨saves_loaded hg h20 (load_no_newline hg) l hm, readsSame_loaded hg h20 l hm, fun k => k.elim (hs l hm) fun k => absurd k (h92 l hm)⟩
  obtain ⟨g', c1, c2⟩ := run_text (o := { x := x, y := y }) h
  rw [hg] at c1
  obtain rfl := Except.ok.inj c1
  have F2 := optLines_firm { x := x, y := y } hx hy hF
  rw [c2]
  have hcar0 : List.Forall₂ (Carried (x.getD 0) (y.getD 0)) g.lines (optLines { x := x, y := y } g.lines) := by
    unfold optLines
    simp only [Bool.false_eq_true, if_false]
    split_ifs with hxy
    · exact scan_carried g.lines (s := TransSt.init x y) h91 h92 (.inr hm)
    · have e : x = none ∧ y = none := by
        cases x <;> cases y <;> simp_all
      obtain ⟨rfl, rfl⟩ := e
      exact List.forall₂_same.2 fun l _ => ⟨rfl, rfl, rfl, rfl, fun _ => by simp, fun _ => rfl⟩
  have hfeed0 : ∀ l ∈ optLines { x := x, y := y } g.lines, FeedOk l := feed_carried hcar0 hfeed
  obtain ⟨g2, k⟩ := load_readable env Home.init _ (fun l hl => ⟨(F2 l hl).saves, (F2 l hl).reads, hfeed0 l hl⟩)
  refine ⟨g2, k, ?_⟩
  have C : List.Forall₂ Copy (optLines { x := x, y := y } g.lines) g2.lines := load_same (fun l hl => ⟨(F2 l hl).saves, (F2 l hl).reads⟩) k
  have hp : List.Forall₂ SameRise g.lines g2.lines := by
    refine pairs_copy SameRise.copy (B := optLines { x := x, y := y } g.lines) ?_ C
    unfold optLines
    simp only [Bool.false_eq_true, if_false]
    split_ifs
    · exact scan_pairs transLine_rise _ _
    · exact List.forall₂_same.2 fun l _ => ⟨rfl, rfl, rfl, fun _ => ⟨rfl, rfl⟩⟩
  obtain ⟨z0, z1, z2, _⟩ := load_level hg k hne hp
  have hcar := pairs_copy Carried.copy hcar0 C
  obtain ⟨out, r1, o1⟩ := load_run' hg
  obtain ⟨out', r1', o1'⟩ := load_run' k
  rw [← o1 rfl] at r1
  rw [← o1' rfl] at r1'
  have hmodes := run_modes _ r1 r1' rfl rfl (hcar.imp fun _ _ q => q.command)
  exact ⟨z0, z1, z2, times_of_displaced hg k (forall2_and (fun _ _ => carried_displaced) hcar hmodes) hf z2⟩

theorem firstNamesBoth_of {a b : List (PyLine α)} {m : PyLine α} (ha : ∀ k ∈ a, ¬ XYMove k) (hm : XYMove m) (h : m.x.isSome = true ∧ m.y.isSome = true) :
    FirstNamesBoth (a ++ m :: b) := by
  intro a' m' b' e h1 h2
  rcases List.append_eq_append_iff.1 e with ⟨c, c1, c2⟩ | ⟨c, c1, c2⟩
  · cases c with
    | nil =>
      obtain ⟨rfl, _⟩ := List.cons.inj c2
      exact h
    | cons q c =>
      obtain ⟨rfl, _⟩ := List.cons.inj c2
      exact absurd hm (h1 m (by rw [c1]; simp))
  · cases c with
    | nil =>
      obtain ⟨rfl, _⟩ := List.cons.inj c2
      exact h
    | cons q c =>
      obtain ⟨rfl, _⟩ := List.cons.inj c2
      exact absurd h2 (ha m' (by rw [c1]; simp))

theorem modeStated_of {a b : List (PyLine α)} (ha : ∀ k ∈ a, ¬ IsMove k) (h : ∃ k ∈ a, HasCmd k c!"G90") : ModeStated (a ++ b) := by
  intro pre l post e hm _
  obtain ⟨k, hk, h90⟩ := h
  rcases List.append_eq_append_iff.1 e with ⟨c, c1, _⟩ | ⟨c, c1, c2⟩
  · exact ⟨k, by rw [c1]; simp [hk], .inl h90⟩
  · cases c with
    | nil => exact ⟨k, by rw [List.append_nil] at c1; rw [← c1]; exact hk, .inl h90⟩
    | cons q c =>
      obtain ⟨rfl, _⟩ := List.cons.inj c2
      exact absurd hm (ha l (by rw [c1]; simp))

/-- Two layers. -/
def storeys : Str := c!"G90\nG1 Z0.3 F7800\nG0 X1 Y2\nG1 X4 Y2 E1.25 F1200\nG1 Z0.6\nG1 X4 Y8 E3\nG4 P500\n"

def storeysG : GCode ℚ := loadQ (readlines storeys)

/-- The hypotheses are met, the moved file can be read, and its way to the place is longer. -/
example : GCode.load qEnv (readlines storeys) = .ok storeysG ∧ storeysG.lines ≠ [] ∧ (∀ l ∈ storeysG.lines, ¬ HasCmd l c!"G20") ∧
    (∀ l ∈ storeysG.lines, ¬ HasCmd l c!"G91") ∧ (∀ l ∈ storeysG.lines, ¬ HasCmd l c!"G92") ∧
    modPipeline qEnv (some 10) none false none (readlines storeys) =
      .ok c!"G90\nG1 Z0.3 F7800\nG0 X11.000 Y2.000\nG1 X14.000 Y2.000 E1.25000 F1200.000\nG1 Z0.6\nG1 X14.000 Y8.000 E3.00000\nG4 P500\n" ∧
    lineTimes qEnv.hypot .rest storeysG.lines = [0, 3 / 650, 3 / 65, 1 / 25, 1 / 40, 31 / 100, 1 / 2] ∧
    (GCode.load qEnv (readlines c!"G90\nG1 Z0.3 F7800\nG0 X11.000 Y2.000\nG1 X14.000 Y2.000 E1.25000 F1200.000\nG1 Z0.6\nG1 X14.000 Y8.000 E3.00000\nG4 P500\n")).map
      (fun g2 => lineTimes qEnv.hypot .rest g2.lines) = .ok [0, 3 / 650, 33 / 200, 1 / 25, 1 / 40, 31 / 100, 1 / 2] := by
  unfold HasCmd; decide +kernel

example : ∀ l ∈ storeysG.lines, IsMove l → ShortNumbers l := by
  have key : ∀ l ∈ storeysG.lines, IsMove l →
      (∀ o ∈ [l.x, l.y, l.z, l.f, l.i, l.j], ∀ v ∈ o, (((v * 10 ^ 3).num : ℚ)) = v * 10 ^ 3) ∧ ∀ v ∈ l.e, (((v * 10 ^ 5).num : ℚ)) = v * 10 ^ 5 := by decide +kernel
  intro l hl hm
  obtain ⟨k1, k2⟩ := key l hl hm
  refine ⟨fun o ho v hv => ⟨(v * 10 ^ 3).num, ?_⟩, fun v hv => ⟨(v * 10 ^ 5).num, ?_⟩⟩
  · rw [k1 o ho v hv]; norm_num
  · rw [k2 v hv]; norm_num

example : ∀ l ∈ storeysG.lines, Linear l → ∀ f ∈ l.f, 0 ≤ f := by decide +kernel

example : ModeStated storeysG.lines ∧ FirstNamesBoth storeysG.lines ∧ ∃ k : ℤ, ((some 10 : Option ℚ).getD 0) = k / 10 ^ 3 := by
  refine ⟨?_, ?_, 10000, by norm_num⟩
  · rw [← List.take_append_drop 1 storeysG.lines]
    exact modeStated_of (by decide +kernel) (by decide +kernel)
  · have e : storeysG.lines = storeysG.lines.take 2 ++ storeysG.lines[2]'(by decide +kernel) :: storeysG.lines.drop 3 := by decide +kernel
    rw [e]
    exact firstNamesBoth_of (by decide +kernel) (by decide +kernel) (by decide +kernel)

/-- Two loaded programs where line `i` takes different times although it is behind an X/Y move and a further linear move. -/
theorem differ {g g' : GCode ℚ} (i : ℕ) {a b rest : List (PyLine ℚ)} {m k : PyLine ℚ} (e : g.lines.take i = (a ++ m :: b) ++ rest) (hm : XYMove m) (hk : k ∈ b) (hL : Linear k)
    (hd : (lineTimes qEnv.hypot .rest g'.lines)[i]? ≠ (lineTimes qEnv.hypot .rest g.lines)[i]?) : ¬ SameTimes qEnv.hypot g g' :=
  fun h => hd (h.lines i (not_arriving hm hk hL e))

def resetText : Str := c!"G90\nG1 Z0.3 F600\nG1 X1 Y2\nG1 X4 Y2 E1.25\nG92 E0\nG1 Z0.6\nG1 X4 Y8 E3\n"
def resetMoved : Str :=
  c!"G90\nG1 Z0.3 F600\nG1 X11.000 Y2.000\nG1 X14.000 Y2.000 E1.25000\nG92 X-10.000 Y0.000 E0.00000\nG1 Z0.6\nG1 X4 Y8 E3\n"

/-- C140 is false for a file that resets the extruder: from the reset on the moves are not displaced (the reset is made to relabel the place instead), and the
estimate, which does not know of relabelling, counts a way back that is not travelled. -/
theorem C140_reset_refuted : GCode.load qEnv (readlines resetText) = .ok (loadQ (readlines resetText)) ∧
    modPipeline qEnv (some 10) none false none (readlines resetText) = .ok resetMoved ∧
    GCode.load qEnv (readlines resetMoved) = .ok (loadQ (readlines resetMoved)) ∧
    ¬ SameTimes qEnv.hypot (loadQ (readlines resetText)) (loadQ (readlines resetMoved)) := by
  refine ⟨by decide +kernel, by decide +kernel, by decide +kernel, ?_⟩
  exact differ 6 (a := (loadQ (readlines resetText)).lines.take 2) (m := (loadQ (readlines resetText)).lines[2]'(by decide +kernel))
    (b := ((loadQ (readlines resetText)).lines.drop 3).take 3) (k := (loadQ (readlines resetText)).lines[3]'(by decide +kernel)) (rest := [])
    (by decide +kernel) (by decide +kernel) (by decide +kernel) (by decide +kernel) (by decide +kernel)

def mixedText : Str := c!"G90\nG1 Z0.3 F600\nG1 X10 Y2\nG1 X14 Y2 E1.25\nG91\nG1 X5\n"
def mixedMoved : Str := c!"G90\nG1 Z0.3 F600\nG1 X20.000 Y2.000\nG1 X24.000 Y2.000 E1.25000\nG91\nG1 X5\n"

/-- C140 is false with relative moves: they are rightly left alone, but the estimate takes their numbers for coordinates. -/
theorem C140_relative_refuted : GCode.load qEnv (readlines mixedText) = .ok (loadQ (readlines mixedText)) ∧
    modPipeline qEnv (some 10) none false none (readlines mixedText) = .ok mixedMoved ∧
    GCode.load qEnv (readlines mixedMoved) = .ok (loadQ (readlines mixedMoved)) ∧
    ¬ SameTimes qEnv.hypot (loadQ (readlines mixedText)) (loadQ (readlines mixedMoved)) := by
  refine ⟨by decide +kernel, by decide +kernel, by decide +kernel, ?_⟩
  exact differ 5 (a := (loadQ (readlines mixedText)).lines.take 2) (m := (loadQ (readlines mixedText)).lines[2]'(by decide +kernel))
    (b := ((loadQ (readlines mixedText)).lines.drop 3).take 2) (k := (loadQ (readlines mixedText)).lines[3]'(by decide +kernel)) (rest := [])
    (by decide +kernel) (by decide +kernel) (by decide +kernel) (by decide +kernel) (by decide +kernel)

end GCodeUtils
