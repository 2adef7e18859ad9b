import Verif.Lemmas.Build

set_option linter.unusedSectionVars false

namespace GCodeUtils

open Spec

variable {α : Type} [Field α] [LinearOrder α] [IsStrictOrderedRing α] [FloorRing α]

/-- Successive processing of lines: from machine `m` over `ls` to `m'`, producing the annotated `out`. -/
inductive Run (home : Home α) : Machine α → List (PyLine α) → Machine α → List (PyLine α) → Prop
  | nil (m) : Run home m [] m []
  | cons {m m1 m' l l' ls out} : processLine home m l = .ok (m1, l') → Run home m1 ls m' out →
      Run home m (l :: ls) m' (l' :: out)

theorem Run.append {home : Home α} {m m1 m2 : Machine α} {a b oa ob : List (PyLine α)}
    (h1 : Run home m a m1 oa) (h2 : Run home m1 b m2 ob) : Run home m (a ++ b) m2 (oa ++ ob) := by
  induction h1 with
  | nil => exact h2
  | cons hp _ ih => exact Run.cons hp (ih h2)

theorem Run.det {home : Home α} {m m1 m2 : Machine α} {a o1 o2 : List (PyLine α)}
    (h1 : Run home m a m1 o1) (h2 : Run home m a m2 o2) : m1 = m2 ∧ o1 = o2 := by
  induction h1 generalizing m2 o2 with
  | nil => cases h2; exact ⟨rfl, rfl⟩
  | cons hp _ ih =>
    cases h2 with
    | cons hp2 hr2 =>
      rw [hp] at hp2
      simp only [Except.ok.injEq, Prod.mk.injEq] at hp2
      obtain ⟨rfl, rfl⟩ := hp2
      obtain ⟨rfl, rfl⟩ := ih hr2
      exact ⟨rfl, rfl⟩

theorem Run.split {home : Home α} {m m2 : Machine α} {a b out : List (PyLine α)}
    (h : Run home m (a ++ b) m2 out) : ∃ m1 oa ob, out = oa ++ ob ∧ Run home m a m1 oa ∧ Run home m1 b m2 ob := by
  induction a generalizing m out with
  | nil => exact ⟨m, [], out, rfl, Run.nil m, h⟩
  | cons x a ih =>
    cases h with
    | cons hp hr =>
      obtain ⟨m1, oa, ob, rfl, h1, h2⟩ := ih hr
      exact ⟨m1, _, ob, rfl, Run.cons hp h1, h2⟩

theorem Run.length {home : Home α} {m m' : Machine α} {a o : List (PyLine α)}
    (h : Run home m a m' o) : o.length = a.length := by
  induction h with
  | nil => rfl
  | cons _ _ ih => simp [ih]

/-- A successful pass of the loading loop contains a run of the machine over its lines. -/
theorem fold_run {env : Env α} {light : Bool} {home : Home α} {ls : List (PyLine α)} {s s' : BuildSt α}
    (h : ls.foldlM (buildStep env light home) s = .ok s') :
    ∃ out, Run home s.m ls s'.m out ∧ s'.done = s.done ++ (if light then ls else out) := by
  induction ls generalizing s with
  | nil =>
    simp only [List.foldlM_nil, pure, Except.pure, Except.ok.injEq] at h
    subst h
    exact ⟨[], Run.nil _, by simp⟩
  | cons l ls ih =>
    rw [foldlM_cons_ok] at h
    obtain ⟨t, h1, h2⟩ := h
    obtain ⟨l', hp, hd⟩ := buildStep_m h1
    obtain ⟨out, hr, hd2⟩ := ih h2
    refine ⟨l' :: out, Run.cons hp hr, ?_⟩
    rw [hd2, hd]
    unfold storedLine
    split_ifs <;> simp

/-- A loaded program is a run of the machine over the read lines. -/
theorem load_run {env : Env α} {data : List Str} {light : Bool} {home : Home α} {g : GCode α}
    (h : GCode.load env data light home = .ok g) :
    ∃ out, Run home Machine.init (readLines data) g.m out ∧
      g.lines = (if light then readLines data else out) := by
  rcases load_ok h with ⟨rfl, rfl⟩ | ⟨_, s, hs, rfl⟩
  · refine ⟨[], Run.nil _, ?_⟩
    simp [readLines, GCode.blank]
  · obtain ⟨out, hr, hd⟩ := fold_run hs
    refine ⟨out, hr, ?_⟩
    have : (finalize (GCode.blank light home) s).lines = s.done := rfl
    rw [this, hd]
    simp [BuildSt.start]

theorem load_keeps {env : Env α} {data : List Str} {light : Bool} {home : Home α} {g : GCode α}
    (h : GCode.load env data light home = .ok g) : g.light = light ∧ g.home = home := by
  rcases load_ok h with ⟨rfl, rfl⟩ | ⟨_, s, hs, rfl⟩ <;> exact ⟨rfl, rfl⟩

theorem load_appendLayer {env : Env α} {data : List Str} {light : Bool} {home : Home α} {g : GCode α}
    (h : GCode.load env data light home = .ok g) :
    g.allLayers.length = g.appendLayerId + 1 ∧ ∃ L, g.allLayers[g.appendLayerId]? = some L ∧ L.lines = [] := by
  rcases load_ok h with ⟨rfl, rfl⟩ | ⟨_, s, hs, rfl⟩
  · exact ⟨rfl, _, rfl, rfl⟩
  · refine ⟨finalize_append _ _, ?_⟩
    refine ⟨{ lines := [], z := none, duration := some 0 }, ?_, rfl⟩
    simp [finalize]

/-- Errors of the duration estimate. -/
theorem stepDur_error {env : Env α} {d : DurSt α} {l : PyLine α} {e : Err} (h : stepDur env d l = .error e) :
    (e = .zeroDivision ∧ (l.command = some c!"G0" ∨ l.command = some c!"G1")) ∨
    (e = .valueError ∧ l.command = some c!"G4" ∧ (findSpecificCode l.raw 'P' : Except Err (Option α)) = .error .valueError) := by
  unfold stepDur at h
  by_cases h1 : (l.isCmd c!"G0" || l.isCmd c!"G1") = true
  · rw [if_pos h1] at h
    simp only at h
    refine Or.inl ⟨?_, by simpa [PyLine.isCmd] using h1⟩
    have aux : ∀ a b c : α, moveDuration a b c = .error e → e = .zeroDivision := by
      intro a b c hm
      unfold moveDuration at hm
      by_cases q : b = a
      · rw [if_pos q] at hm; exact absurd hm (by simp)
      · rw [if_neg q] at hm
        simp only at hm
        split_ifs at hm
        simpa using hm.symm
    split at h
    · rename_i er hm
      simp only [Except.error.injEq] at h
      subst h
      exact aux _ _ _ hm
    · simp at h
  · rw [if_neg h1] at h
    by_cases h2 : l.isCmd c!"G4" = true
    · rw [if_pos h2] at h
      have hv : ∀ er, (findSpecificCode l.raw 'P' : Except Err (Option α)) = .error er → er = .valueError := by
        intro er her
        unfold findSpecificCode at her
        split at her
        · simp at her
        · split at her
          · simp at her
          · simpa using her.symm
      split at h
      · rename_i er hf
        simp only [Except.error.injEq] at h
        subst h
        have := hv _ hf
        subst this
        exact Or.inr ⟨rfl, by simpa [PyLine.isCmd] using h2, hf⟩
      · simp at h
      · simp at h
    · rw [if_neg h2] at h; simp at h

/-- Errors of one loop iteration: from the machine part or from the duration estimate. -/
theorem buildStep_error {env : Env α} {light : Bool} {home : Home α} {s : BuildSt α} {l0 : PyLine α} {e : Err}
    (h : buildStep env light home s l0 = .error e) :
    processLine home s.m l0 = .error e ∨
    ∃ m l, processLine home s.m l0 = .ok (m, l) ∧ stepDur env s.ds l = .error e := by
  unfold buildStep at h
  cases hp : processLine home s.m l0 with
  | error er => rw [hp] at h; simp only [Except.error.injEq] at h; subst h; exact Or.inl rfl
  | ok p =>
    obtain ⟨m, l⟩ := p
    rw [hp] at h
    simp only at h
    right
    refine ⟨m, l, rfl, ?_⟩
    cases hc : l.command with
    | none => rw [hc] at h; simp at h
    | some cmd =>
      rw [hc] at h
      simp only at h
      by_cases he : cmd.isEmpty = true
      · rw [if_pos he] at h; simp at h
      · rw [if_neg he] at h
        cases hd : stepDur env s.ds l with
        | error er => rw [hd] at h; simpa using h
        | ok ds => rw [hd] at h; simp at h

end GCodeUtils
