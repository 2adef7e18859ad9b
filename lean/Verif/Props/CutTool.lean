import Verif.Props.Cut
import Verif.Props.OptionTower

/-
  C144: what is written for the beginning of a program is the beginning of what is written for the program.
-/

set_option linter.unusedSectionVars false

namespace GCodeUtils

open Spec

variable {α : Type} [Field α] [LinearOrder α] [IsStrictOrderedRing α] [FloorRing α]

theorem scan_prefix {σ : Type} (f : σ → PyLine α → σ × PyLine α) (s : σ) {a b : List (PyLine α)} (h : a <+: b) : (scan f s a).2 <+: (scan f s b).2 := by
  obtain ⟨c, rfl⟩ := h
  rw [scan_append]
  exact List.prefix_append _ _

theorem optLines_prefix (o : ModOptions α) {a b : List (PyLine α)} (h : a <+: b) : optLines o a <+: optLines o b := by
  unfold optLines
  simp only
  split_ifs
  · exact scan_prefix _ _ (scan_prefix _ _ h)
  · exact scan_prefix _ _ h
  · exact scan_prefix _ _ h
  · exact h

theorem flatMap_prefix {β γ : Type} (f : β → List γ) {a b : List β} (h : a <+: b) : a.flatMap f <+: b.flatMap f := by
  obtain ⟨c, rfl⟩ := h
  rw [List.flatMap_append]
  exact List.prefix_append _ _

/-! ### an unknown height that is recorded stays recorded -/

/-- The loop knows no height as long as it has closed no layer, and extrusion belongs to lines. -/
structure Started (s : LayerSt α) : Prop where
  same : s.curZ = s.prevZ
  base : s.prevZ = none → s.prevBaseZ = none
  lines : s.hasExtrusion = true → s.curLines ≠ []

/-- An unknown height is recorded, or will be. -/
def Unknowing (s : LayerSt α) : Prop := none ∈ s.allZs ∨ (s.hasExtrusion = true ∧ s.prevZ = none)

theorem nextCurZ_some {c : Option α} {l : PyLine α} (h : nextCurZ c l = none) : c = none := by
  unfold nextCurZ at h
  cases hz : l.z with
  | none => rw [hz] at h; exact h
  | some z =>
    rw [hz] at h
    simp only at h
    split_ifs at h
    · split at h <;> simp at h
    · exact h

theorem started_step {mode : RoundMode} {s : LayerSt α} {l r : PyLine α} {b : Bool} {t t0 : α} (h : Started s) :
    Started (recordLine (stepLayer mode { s with hasExtrusion := s.hasExtrusion || b } l t t0).1 r) ∧
    (Unknowing s → Unknowing (recordLine (stepLayer mode { s with hasExtrusion := s.hasExtrusion || b } l t t0).1 r)) := by
  have hb : s.prevZ = none → ∀ e : Bool, (baseZ mode { s with hasExtrusion := e, curZ := nextCurZ s.curZ l }).1 = none := by
    intro hp e
    unfold baseZ
    simp only [hp]
  unfold stepLayer
  simp only
  split_ifs with h1 h2
  · refine ⟨⟨rfl, fun k => ?_, fun _ => by simp [recordLine]⟩, fun k => ?_⟩
    · have := nextCurZ_some k
      exact absurd (k.trans (this.symm.trans h.same)) h1
    · refine .inl ?_
      show none ∈ addZ _ _ _
      rcases k with k | ⟨k1, k2⟩
      · exact (addZ_prefix _ _ _).subset k
      · simp only [k1, Bool.true_or, k2]
        unfold addZ
        by_cases hm : none ∈ s.allZs
        · exact (show s.allZs <+: _ from addZ_prefix _ _ _).subset hm
        · rw [if_pos (by simpa using hm)]
          simp
  · refine ⟨⟨rfl, fun k => ?_, fun _ => by simp [recordLine]⟩, fun k => ?_⟩
    · have := nextCurZ_some k
      exact absurd (k.trans (this.symm.trans h.same)) h1
    · rcases k with k | ⟨k1, k2⟩
      · exact .inl k
      · exfalso
        apply h2
        show some _ ≠ s.prevBaseZ
        rw [h.base k2]
        simp
  · have e : nextCurZ s.curZ l = s.prevZ := by simpa using h1
    refine ⟨⟨rfl, fun k => ?_, fun _ => by simp [recordLine]⟩, fun k => ?_⟩
    · exact h.base (e.symm.trans k)
    · rcases k with k | ⟨k1, k2⟩
      · exact .inl k
      · exact .inr ⟨by simp [recordLine, k1], e.trans k2⟩

theorem started_build {env : Env α} {light : Bool} {home : Home α} {s s' : BuildSt α} {l0 : PyLine α} (h : buildStep env light home s l0 = .ok s') (hs : Started s.ls) :
    Started s'.ls ∧ (Unknowing s.ls → Unknowing s'.ls) := by
  obtain ⟨m, l, _, h⟩ := buildStep_ok h
  rcases h with ⟨_, rfl⟩ | ⟨cmd, ds, _, _, _, rfl⟩
  · refine ⟨⟨rfl, fun k => hs.base (hs.same.symm.trans k), fun _ => by simp [recordLine]⟩, fun k => ?_⟩
    rcases k with k | ⟨k1, k2⟩
    · exact .inl k
    · exact .inr ⟨k1, hs.same.trans k2⟩
  · exact started_step hs

theorem started_fold {env : Env α} {light : Bool} {home : Home α} (ls : List (PyLine α)) :
    ∀ {s s' : BuildSt α}, ls.foldlM (buildStep env light home) s = .ok s' → Started s.ls → Started s'.ls ∧ (Unknowing s.ls → Unknowing s'.ls) := by
  induction ls with
  | nil => intro s s' h hs; obtain rfl := Except.ok.inj h; exact ⟨hs, id⟩
  | cons l ls ih =>
    intro s s' h hs
    rw [List.foldlM_cons] at h
    cases hb : buildStep env light home s l with
    | error e => rw [hb] at h; cases h
    | ok t =>
      rw [hb] at h
      obtain ⟨h1, h2⟩ := started_build hb hs
      obtain ⟨h3, h4⟩ := ih h h1
      exact ⟨h3, h4 ∘ h2⟩

theorem none_finalize {g : GCode α} {s : BuildSt α} (hs : Started s.ls) : none ∈ (finalize g s).allZs ↔ Unknowing s.ls := by
  show none ∈ (closeLast s.ls s.ds.total s.ds.layerBegin).allZs ↔ _
  unfold closeLast Unknowing
  by_cases hc : s.ls.curLines = []
  · rw [if_pos (by simp [hc])]
    refine ⟨.inl, ?_⟩
    rintro (k | ⟨k, _⟩)
    · exact k
    · exact absurd hc (hs.lines k)
  · rw [if_neg (by simpa [List.isEmpty_iff] using hc)]
    show none ∈ addZ _ _ _ ↔ _
    unfold addZ
    by_cases hx : s.ls.hasExtrusion = true
    · by_cases hm : s.ls.prevZ ∈ s.ls.allZs
      · rw [if_neg (by simp [hm])]
        refine ⟨.inl, ?_⟩
        rintro (k | ⟨_, k⟩)
        · exact k
        · rw [← k]; exact hm
      · rw [if_pos (by simp [hx, hm])]
        simp [hx, eq_comm]
    · rw [if_neg (by simp [hx])]
      simp [hx]

/-- If the heights of the whole are known, those of its beginning are. -/
theorem known_cut {env : Env α} {light : Bool} {home : Home α} {data rest : List Str} (hd : data ≠ []) {g g' : GCode α}
    (h : GCode.load env data light home = .ok g) (h' : GCode.load env (data ++ rest) light home = .ok g') (hz : none ∉ g'.allZs) : none ∉ g.allZs := by
  rcases load_ok h with ⟨hn, _⟩ | ⟨_, s, hs, rfl⟩
  · exact absurd hn hd
  · rcases load_ok h' with ⟨hn, _⟩ | ⟨_, s', hs', rfl⟩
    · exact absurd (List.append_eq_nil_iff.1 hn).1 hd
    · rw [readLines_append, List.foldlM_append, hs] at hs'
      obtain ⟨a, _⟩ := started_fold _ hs ⟨rfl, fun _ => rfl, fun k => by cases k⟩
      obtain ⟨b, c⟩ := started_fold _ hs' a
      rw [none_finalize b] at hz
      rw [none_finalize a]
      exact fun k => hz (c k)

/-! ### the theorems -/

/-- C144, moving and converting. If the tool does its work on a file, it does it on every beginning of the file, and what it writes for the beginning is the
beginning of what it writes for the whole. -/
theorem C144_options {env : Env α} {x y : Option α} {e : Bool} {data rest : List Str} (hd : data ≠ []) {t' : Str}
    (h : modPipeline env x y e none (data ++ rest) = .ok t') : ∃ t, modPipeline env x y e none data = .ok t ∧ t <+: t' := by
  obtain ⟨g', hg', ht'⟩ := run_text (o := { x := x, y := y, e := e }) h
  obtain ⟨g, hg, hp, _⟩ := C143_beginning hd hg'
  have hz' : none ∉ g'.allZs := by
    obtain ⟨_, _, _, _, _, _, _, _, hz, _⟩ := mod_steps hg' h
    exact hz
  obtain ⟨q, hq, _⟩ := filter_program { x := x, y := y, e := e } g
  have hr := one_run hg (known_cut hd hg hg' hz') hq
  refine ⟨_, hr, ?_⟩
  obtain ⟨g2, hg2, ht⟩ := run_text (o := { x := x, y := y, e := e }) hr
  rw [hg] at hg2
  obtain rfl := Except.ok.inj hg2
  rw [ht, ht']
  exact flatMap_prefix _ (optLines_prefix _ hp)

theorem readlines_ne_nil {a : Str} (h : a ≠ []) : readlines a ≠ [] := by
  cases a with
  | nil => exact absurd rfl h
  | cons c a =>
    unfold readlines
    split_ifs
    · simp
    · split <;> simp

theorem readlines_cut (a b : Str) : readlines (a ++ '\n' :: b) = readlines (a ++ ['\n']) ++ readlines b := by
  induction a with
  | nil => simp [readlines]
  | cons c a ih =>
    simp only [List.cons_append, readlines]
    rw [ih]
    by_cases hc : c = '\n'
    · simp [hc]
    · simp only [hc, if_false]
      cases hr : readlines (a ++ ['\n']) with
      | nil => exact absurd hr (readlines_ne_nil (by simp))
      | cons l ls => rfl

/-- C144 for texts, cut at a line break. -/
theorem C144_text {env : Env α} {x y : Option α} {e : Bool} {a b t' : Str}
    (h : modPipeline env x y e none (readlines (a ++ '\n' :: b)) = .ok t') : ∃ t, modPipeline env x y e none (readlines (a ++ ['\n'])) = .ok t ∧ t <+: t' := by
  rw [readlines_cut] at h
  exact C144_options (readlines_ne_nil (by simp)) h

/-! ### the hypotheses are met -/

example : modPipeline qEnv (some 5) (some (1 / 2)) true none (readlines (c!"G90\nM82\nG1 Z0.3\nG1 X10 Y10 E1.25" ++ '\n' :: c!"G1 Y20 E2.5\nG1 Z0.6\n")) =
    .ok c!"G90\nM83\nG1 Z0.3\nG1 X15.000 Y10.500 E1.25000\nG1 Y20.500 E1.25000\nG1 Z0.6\n" ∧
    modPipeline qEnv (some 5) (some (1 / 2)) true none (readlines (c!"G90\nM82\nG1 Z0.3\nG1 X10 Y10 E1.25" ++ ['\n'])) =
    .ok c!"G90\nM83\nG1 Z0.3\nG1 X15.000 Y10.500 E1.25000\n" := by decide +kernel

/-! ### where it is false -/

/-- C144 is false for temperature towers, whose temperatures depend on the greatest height. -/
theorem C144_tower_refuted : ∃ a b : Str,
    towerRun qEnv (continuousTemp 220 200) 0 (a ++ b) =
      .ok c!"G90\nM104 S215.0\nG1 Z0.3\nG1 X1 E1\nM104 S210.0\nG1 Z0.6\nG1 X2 E2\nM104 S200.0\nG1 Z1.2\nG1 X3 E3\n" ∧
    towerRun qEnv (continuousTemp 220 200) 0 a = .ok c!"G90\nM104 S210.0\nG1 Z0.3\nG1 X1 E1\nM104 S200.0\nG1 Z0.6\nG1 X2 E2\n" :=
  ⟨c!"G90\nG1 Z0.3\nG1 X1 E1\nG1 Z0.6\nG1 X2 E2\n", c!"G1 Z1.2\nG1 X3 E3\n", by decide +kernel⟩

end GCodeUtils
