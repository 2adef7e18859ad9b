import Verif.Props.OptionTower
import Verif.Lemmas.Converted

/-
  C138 for all options of the command line tool in one run.
-/

set_option linter.unusedSectionVars false

namespace GCodeUtils

open Spec

variable {α : Type} [Field α] [LinearOrder α] [IsStrictOrderedRing α] [FloorRing α]

theorem emode_step_copy (t : EModeSt) {l l' : PyLine α} (h : Copy l l') : t.step l' = t.step l := by
  obtain ⟨_, h1, h2, h3, h4, h5, _⟩ := id h
  unfold EModeSt.step
  simp only [isMove_args h, hasCmd_args h, ← h2, ← h3, ← h4, ← h5]

theorem emode_run_copy {a b : List (PyLine α)} (h : List.Forall₂ Copy a b) : ∀ t : EModeSt, t.run b = t.run a := by
  induction h with
  | nil => intro t; rfl
  | cons h1 _ ih =>
    intro t
    rw [EModeSt.run, EModeSt.run, emode_step_copy t h1]
    cases t.step _ with
    | none => rfl
    | some t' => exact ih t'

/-- What `NoReset` looks at. -/
def SameLabels (l l' : PyLine α) : Prop := (IsMove l' ↔ IsMove l) ∧ l'.e = l.e ∧ (RelabelsE l' → RelabelsE l)

theorem noReset_cons {l : PyLine α} {ls : List (PyLine α)} (h : IsMove l → l.e ≠ none → ∀ k ∈ ls, ¬ RelabelsE k) (hs : NoReset ls) : NoReset (l :: ls) := by
  intro pre k post e
  cases pre with
  | nil =>
    obtain ⟨rfl, rfl⟩ := List.cons.inj e
    exact h
  | cons p pre =>
    obtain ⟨rfl, rfl⟩ := List.cons.inj e
    exact hs pre k post rfl

theorem noReset_pairs {a b : List (PyLine α)} (h : List.Forall₂ SameLabels a b) : NoReset a → NoReset b := by
  induction h with
  | nil => exact id
  | @cons l l' ls ls' h1 h2 ih =>
    intro k
    refine noReset_cons ?_ (ih (noReset_tail k))
    intro m e q hq hr
    obtain ⟨p, hp, hpq⟩ : ∃ p ∈ ls, SameLabels p q := by
      clear k ih
      induction h2 with
      | nil => simp at hq
      | cons g1 _ ih =>
        rcases List.mem_cons.1 hq with rfl | hq
        · exact ⟨_, by simp, g1⟩
        · obtain ⟨p, hp, hh⟩ := ih hq
          exact ⟨p, by simp [hp], hh⟩
    exact k [] l ls rfl (h1.1.1 m) (h1.2.1 ▸ e) p hp (hpq.2.2 hr)

theorem transLine_labels (s : TransSt α) (l : PyLine α) :
    SameLabels l (transLine s l).2 := by
  have hc := transLine_command s l
  refine ⟨isMove_congr hc, (transLine_rise s l).2.2.1, ?_⟩
  rintro ⟨k1, k2⟩
  have h92 : HasCmd l c!"G92" := (hasCmd_congr hc _).1 k1
  refine ⟨h92, ?_⟩
  rw [(transLine_rise s l).2.2.1] at k2
  rcases k2 with k2 | k2
  · exact .inl k2
  · by_cases he : l.e = none
    · refine .inr ?_
      have m : ¬ IsMove l := not_move_cmd (by decide) h92
      have hval : (transLine s l).2 = (translateG92 s l).2 := by
        unfold transLine
        rw [if_neg m, if_neg (not_two_cmds (by decide) h92), if_neg (not_two_cmds (by decide) h92), if_pos h92]
      by_cases hn : l.x = none ∧ l.y = none ∧ l.z = none
      · exact hn
      · rw [hval] at k2
        obtain ⟨a1, a2, a3, _⟩ := translateG92_args s l hn
        rw [a1, a2, a3] at k2
        simpa using k2
    · exact .inl he

theorem SameLabels.copy (a b c : PyLine α) (h : SameLabels a b) (k : Copy b c) : SameLabels a c := by
  obtain ⟨_, k1, k2, k3, k4, k5, _⟩ := id k
  refine ⟨(isMove_args k).trans h.1, k5.symm.trans h.2.1, fun q => h.2.2 ?_⟩
  unfold RelabelsE at q ⊢
  rw [hasCmd_args k, ← k2, ← k3, ← k4, ← k5] at q
  exact q

theorem pairs_mem {R : PyLine α → PyLine α → Prop} {a b : List (PyLine α)} (h : List.Forall₂ R a b) : ∀ q ∈ b, ∃ p ∈ a, R p q := by
  induction h with
  | nil => intro q hq; simp at hq
  | cons h1 _ ih =>
    intro q hq
    rcases List.mem_cons.1 hq with rfl | hq
    · exact ⟨_, by simp, h1⟩
    · obtain ⟨p, hp, hh⟩ := ih q hq
      exact ⟨p, by simp [hp], hh⟩

/-- The converted program has the heights and layers of the program. -/
theorem convert_levels {env : Env α} {text : Str} {g g2 : GCode α} (hg : GCode.load env (readlines text) = .ok g) (hne : g.lines ≠ [])
    (h20 : ∀ l ∈ g.lines, ¬ HasCmd l c!"G20") (hs : ∀ l ∈ g.lines, IsMove l ∨ HasCmd l c!"G92" → ShortNumbers l)
    (hmode : (({} : EModeSt).run g.lines).isSome = true) (hreset : NoReset g.lines)
    (hzero : ∀ l ∈ g.lines, HasCmd l c!"G92" → l.e = none ∨ l.e = some 0)
    (hg2 : GCode.load env (readlines ((scan relLine RelSt.init g.lines).2.flatMap fun l => l.raw ++ ['\n'])) = .ok g2) :
    g2.zmax = g.zmax ∧ g2.lines.map (·.currentZ) = g.lines.map (·.currentZ) ∧ g2.allLayers.map (·.lines.length) = g.allLayers.map (·.lines.length) := by
  have hF : ∀ l ∈ g.lines, Firm l := fun l hm => ⟨saves_loaded hg h20 (load_no_newline hg) l hm, readsSame_loaded hg h20 l hm, hs l hm⟩
  have F2 := optLines_firm ({ e := true } : ModOptions α) ⟨0, by simp⟩ ⟨0, by simp⟩ hF
  have hc : List.Forall₂ Copy (scan relLine RelSt.init g.lines).2 g2.lines := load_same (fun l hl => ⟨(F2 l hl).saves, (F2 l hl).reads⟩) hg2
  have hl : g.lines = program g := (load_indexed hg).flat
  obtain ⟨g', gr, c1, c2, c3, _⟩ := C114_analysis_partial hg hne (load_no_newline hg) h20 hmode hreset hzero (fun l hl hm _ => hs l hl (.inl hm))
  obtain ⟨g'', f1, f2, _⟩ := filter_program ({ e := true } : ModOptions α) g
  have ef : ({ e := true } : ModOptions α).filter g = g.toRelativeE := rfl
  rw [ef, c1] at f1
  obtain rfl := Except.ok.inj f1
  have ew : g'.write = (scan relLine RelSt.init g.lines).2.flatMap fun l => l.raw ++ ['\n'] := by
    have f2' : program g' = (scan relLine RelSt.init (program g)).2 := f2
    rw [hl, ← f2']
    unfold GCode.write GCode.allLines
    rw [program_def]
  rw [ew, hg2] at c2
  obtain rfl := Except.ok.inj c2
  have hp : List.Forall₂ Level g.lines g2.lines := pairs_copy Level.copy (scan_pairs relLine_level g.lines RelSt.init) hc
  obtain ⟨out, r1, o1⟩ := load_run' hg
  obtain ⟨out', r1', o1'⟩ := load_run' hg2
  rw [← o1 rfl] at r1
  rw [← o1' rfl] at r1'
  refine ⟨c3.z.2.1, run_level _ r1 r1' rfl hp, ?_⟩
  have := congrArg (List.map Prod.snd) c3.layers
  simpa only [List.map_map, Function.comp_def] using this

/-- C138 (partial), all options: a tower that is moved and converted in one run, and a program that is moved and converted in one run and then made a tower, are the
same text. The conditions are those of the two theorems before, no `G92` line is bare, and the program that is only moved can be read. -/
theorem C138_all_partial {env : Env α} {temp : TempFn α} {minZ : α} {x y : Option α} {text v t1 t u1 u : Str} {g g1 : GCode α} (hxy : (x.isSome || y.isSome) = true)
    (hg : GCode.load env (readlines text) = .ok g) (hne : g.lines ≠ []) (h20 : ∀ l ∈ g.lines, ¬ HasCmd l c!"G20")
    (hs : ∀ l ∈ g.lines, IsMove l ∨ HasCmd l c!"G92" → ShortNumbers l)
    (hx : ∃ k : ℤ, x.getD 0 = k / 10 ^ 3) (hy : ∃ k : ℤ, y.getD 0 = k / 10 ^ 3)
    (hbare : ∀ l ∈ g.lines, HasCmd l c!"G92" → ¬ (l.x = none ∧ l.y = none ∧ l.z = none ∧ l.e = none))
    (hmode : (({} : EModeSt).run g.lines).isSome = true) (hreset : NoReset g.lines)
    (hzero : ∀ l ∈ g.lines, HasCmd l c!"G92" → l.e = none ∨ l.e = some 0)
    (hblank : [] ∉ (writeTemp env.mode temp minZ {} g).1)
    (hv : modPipeline env x y false none (readlines text) = .ok v) (hg1 : GCode.load env (readlines v) = .ok g1)
    (h1 : towerRun env temp minZ text = .ok t1) (h2 : modPipeline env x y true none (readlines t1) = .ok t)
    (k1 : modPipeline env x y true none (readlines text) = .ok u1) (k2 : towerRun env temp minZ u1 = .ok u) : u = t := by
  have hF : ∀ l ∈ g.lines, Firm l := fun l hm => ⟨saves_loaded hg h20 (load_no_newline hg) l hm, readsSame_loaded hg h20 l hm, hs l hm⟩
  refine tower_both (o := { x := x, y := y, e := true }) hg hF hx hy hblank h1 h2 k1 k2 ?_
  intro g2 hg2 hc
  have ex : optLines ({ x := x, y := y } : ModOptions α) g.lines = (scan transLine (TransSt.init x y) g.lines).2 := by
    unfold optLines
    simp only [Bool.false_eq_true, if_false]
    rw [if_pos hxy]
  obtain ⟨g0, d1, d2⟩ := run_text (o := ({ x := x, y := y } : ModOptions α)) hv
  rw [hg] at d1
  obtain rfl := Except.ok.inj d1
  rw [ex] at d2
  have F1 := optLines_firm ({ x := x, y := y } : ModOptions α) hx hy hF
  rw [ex] at F1
  rw [d2] at hg1
  have C1 : List.Forall₂ Copy (scan transLine (TransSt.init x y) g.lines).2 g1.lines := load_same (fun l hl => ⟨(F1 l hl).saves, (F1 l hl).reads⟩) hg1
  have R1 : List.Forall₂ SameRise g.lines g1.lines := pairs_copy SameRise.copy (scan_pairs transLine_rise _ _) C1
  have L1 : List.Forall₂ SameLabels g.lines g1.lines :=
    pairs_copy SameLabels.copy (scan_pairs transLine_labels _ _) C1
  obtain ⟨_, z1, z2, z3⟩ := load_level hg hg1 hne R1
  have hne1 : g1.lines ≠ [] := by
    intro k
    rw [k] at R1
    exact hne (List.forall₂_nil_right_iff.1 R1)
  obtain ⟨g3, d3, d4⟩ := run_text (o := ({ x := x, y := y, e := true } : ModOptions α)) k1
  rw [hg] at d3
  obtain rfl := Except.ok.inj d3
  have ex2 : optLines ({ x := x, y := y, e := true } : ModOptions α) g.lines = (scan relLine RelSt.init (scan transLine (TransSt.init x y) g.lines).2).2 := by
    unfold optLines
    simp only [if_true]
    rw [if_pos hxy]
  have C2 : List.Forall₂ Copy (scan relLine RelSt.init (scan transLine (TransSt.init x y) g.lines).2).2 (scan relLine RelSt.init g1.lines).2 :=
    copy_scan (fun s l l' => copy_relLine s) C1 _
  rw [d4, ex2, ← copies_text C2] at hg2
  refine (fun w => ⟨w.1.trans z1, w.2.1.trans z3, w.2.2.trans z2⟩) (convert_levels hg1 hne1 ?_ ?_ ?_ (noReset_pairs L1 hreset) ?_ hg2)
  · intro q hq k
    obtain ⟨p, hp, hpq⟩ := pairs_mem R1 q hq
    exact h20 p hp ((hasCmd_congr hpq.1 _).1 k)
  · intro q hq k
    obtain ⟨p, hp, hpq⟩ := pairs_mem C1 q hq
    have := (F1 p hp).short (by
      rw [isMove_args hpq, hasCmd_args hpq] at k
      exact k)
    obtain ⟨_, k1, k2, k3, k4, k5, k6, k7, k8⟩ := id hpq
    unfold ShortNumbers at this ⊢
    rw [← k2, ← k3, ← k4, ← k5, ← k6, ← k7, ← k8]
    exact this
  · rw [emode_run_copy C1, emode_run_trans _ _ _ hbare]; exact hmode
  · intro q hq k
    obtain ⟨p, hp, hpq⟩ := pairs_mem R1 q hq
    rw [hpq.2.2.1]
    exact hzero p hp ((hasCmd_congr hpq.1 _).1 k)

/-- The other hypotheses on `optG` are shown above; here are the bare lines, the moved program and the two texts. -/
example : (∀ l ∈ optG.lines, HasCmd l c!"G92" → ¬ (l.x = none ∧ l.y = none ∧ l.z = none ∧ l.e = none)) ∧
    (modPipeline qEnv (some 5) (some (1 / 2)) false none (readlines optText)).toOption.isSome = true ∧
    (modPipeline qEnv (some 5) (some (1 / 2)) true none (readlines optText)).bind (towerRun qEnv (continuousTemp 220 200) 0) =
      .ok c!"G90\nM83\nG92 X-5.000 E0.00000\nM104 S210.0\nG1 Z0.3\nG1 X10.000 Y10.500 E1.25000\nG1 Y20.500 E1.25000\nM104 S200.0\nG1 Z0.6\nG1 X0.125 E1.50000\n" := by
  refine ⟨by unfold HasCmd; decide +kernel, by decide +kernel, by decide +kernel⟩

end GCodeUtils
