import Verif.Spec.OptionRuns
import Verif.Props.Runs

/-
  C137: the options of the command line tool given in one run or in several.
-/

set_option linter.unusedSectionVars false

namespace GCodeUtils

open Spec

variable {α : Type} [Field α] [LinearOrder α] [IsStrictOrderedRing α] [FloorRing α]

/-- Same text and same words. -/
def Copy (l l' : PyLine α) : Prop := l'.raw = l.raw ∧ SameArgs l l'

theorem isMove_args {l l' : PyLine α} (h : Copy l l') : IsMove l' ↔ IsMove l := isMove_congr h.2.1.symm

theorem hasCmd_args {l l' : PyLine α} (h : Copy l l') (c : Str) : HasCmd l' c ↔ HasCmd l c := hasCmd_congr h.2.1.symm c

theorem copy_unsplit {k k' : PyLine α} (h : SameArgs k k') : Copy (unsplit k) (unsplit k') := ⟨(unsplit_args h).symm, h⟩

theorem copy_translateMove (s : TransSt α) {l l' : PyLine α} (h : Copy l l') : Copy (translateMove s l) (translateMove s l') := by
  obtain ⟨h0, h1, h2, h3, h4, h5, h6, h7, h8⟩ := id h
  have hD : SameArgs (displaced s.tx s.ty l) (displaced s.tx s.ty l') :=
    ⟨h1, by simp only [displaced]; rw [h2], by simp only [displaced]; rw [h3], h4, h5, h6, h7, h8⟩
  have ht : Touched s l' ↔ Touched s l := by unfold Touched; rw [h2, h3]
  by_cases t : Touched s l
  · rw [(translateMove_touched s l).1 t, (translateMove_touched s l').1 (ht.2 t)]
    exact copy_unsplit hD
  · rw [(translateMove_touched s l).2 t, (translateMove_touched s l').2 (fun k => t (ht.1 k))]
    exact h

theorem translateG92_form (s : TransSt α) (l : PyLine α) : translateG92 s l =
    if l.x = none ∧ l.y = none ∧ l.z = none then ({ s with tx := 0, ty := 0 }, unsplit { l with x := some (-s.tx), y := some (-s.ty) })
    else ({ s with tx := if l.x = none then s.tx else 0, ty := if l.y = none then s.ty else 0 },
      unsplit { l with x := l.x.map (· - s.tx), y := l.y.map (· - s.ty) }) := by
  rcases l with ⟨raw, command, x, y, z, e, f, i, j, im, rel, relE, cx, cy, cz, ce, cf, ct, ex⟩
  unfold translateG92
  cases x <;> cases y <;> simp

theorem copy_translateG92 (s : TransSt α) {l l' : PyLine α} (h : Copy l l') :
    (translateG92 s l').1 = (translateG92 s l).1 ∧ Copy (translateG92 s l).2 (translateG92 s l').2 := by
  obtain ⟨h0, h1, h2, h3, h4, h5, h6, h7, h8⟩ := id h
  rw [translateG92_form, translateG92_form]
  by_cases hn : l.x = none ∧ l.y = none ∧ l.z = none
  · rw [if_pos hn, if_pos (by rw [← h2, ← h3, ← h4]; exact hn)]
    exact ⟨rfl, copy_unsplit ⟨h1, rfl, rfl, h4, h5, h6, h7, h8⟩⟩
  · rw [if_neg hn, if_neg (by rw [← h2, ← h3, ← h4]; exact hn)]
    refine ⟨by simp only [h2, h3], copy_unsplit ⟨h1, ?_, ?_, h4, h5, h6, h7, h8⟩⟩
    · simp only [h2]
    · simp only [h3]

theorem copy_transLine (s : TransSt α) {l l' : PyLine α} (h : Copy l l') :
    (transLine s l').1 = (transLine s l).1 ∧ Copy (transLine s l).2 (transLine s l').2 := by
  unfold transLine
  simp only [isMove_args h, hasCmd_args h]
  by_cases c1 : IsMove l
  · rw [if_pos c1, if_pos c1]
    refine ⟨rfl, ?_⟩
    simp only
    by_cases ha : s.absMode = some true
    · rw [if_pos ha, if_pos ha]; exact copy_translateMove s h
    · rw [if_neg ha, if_neg ha]; exact h
  rw [if_neg c1, if_neg c1]
  by_cases c2 : HasCmd l c!"G90"
  · rw [if_pos c2, if_pos c2]; exact ⟨rfl, h⟩
  rw [if_neg c2, if_neg c2]
  by_cases c3 : HasCmd l c!"G91"
  · rw [if_pos c3, if_pos c3]; exact ⟨rfl, h⟩
  rw [if_neg c3, if_neg c3]
  by_cases c4 : HasCmd l c!"G92"
  · rw [if_pos c4, if_pos c4]; exact copy_translateG92 s h
  · rw [if_neg c4, if_neg c4]; exact ⟨rfl, h⟩

theorem copy_relLine (s : RelSt α) {l l' : PyLine α} (h : Copy l l') :
    (relLine s l').1 = (relLine s l).1 ∧ Copy (relLine s l).2 (relLine s l').2 := by
  obtain ⟨h0, h1, h2, h3, h4, h5, h6, h7, h8⟩ := id h
  unfold relLine
  simp only [isMove_args h, hasCmd_args h]
  by_cases c1 : HasCmd l c!"M83"
  · rw [if_pos c1, if_pos c1]; exact ⟨rfl, h⟩
  rw [if_neg c1, if_neg c1]
  by_cases c2 : HasCmd l c!"M82"
  · rw [if_pos c2, if_pos c2]
    exact ⟨rfl, rfl, rfl, rfl, rfl, rfl, rfl, rfl, rfl, rfl⟩
  rw [if_neg c2, if_neg c2]
  by_cases c3 : HasCmd l c!"G92"
  · rw [if_pos c3, if_pos c3, ← h5, ← h2, ← h3, ← h4]
    cases l.e with
    | some e => exact ⟨rfl, h⟩
    | none =>
      simp only
      split_ifs
      · exact ⟨rfl, h⟩
      · exact ⟨rfl, h⟩
  rw [if_neg c3, if_neg c3]
  by_cases c4 : IsMove l ∧ s.relative = false
  · rw [if_pos c4, if_pos c4, ← h5]
    cases l.e with
    | none => exact ⟨rfl, h⟩
    | some e => exact ⟨rfl, copy_unsplit ⟨h1, h2, h3, h4, rfl, h6, h7, h8⟩⟩
  · rw [if_neg c4, if_neg c4]; exact ⟨rfl, h⟩

theorem copy_scan {σ : Type} {f : σ → PyLine α → σ × PyLine α}
    (hf : ∀ s {l l' : PyLine α}, Copy l l' → (f s l').1 = (f s l).1 ∧ Copy (f s l).2 (f s l').2) {a b : List (PyLine α)} (h : List.Forall₂ Copy a b) :
    ∀ s, List.Forall₂ Copy (scan f s a).2 (scan f s b).2 := by
  induction h with
  | nil => intro s; exact .nil
  | cons h1 _ ih =>
    intro s
    obtain ⟨e1, e2⟩ := hf s h1
    simp only [scan]
    rw [e1]
    exact .cons e2 (ih _)

/-! ### lines that survive being written -/

/-- Writing and reading the line gives its words back. -/
structure Firm (l : PyLine α) : Prop where
  saves : Saves l
  reads : ReadsSame l
  short : Rebuilds l → ShortNumbers l

theorem firm_unsplit {k : PyLine α} (h : Rebuilds k) (hs : ShortNumbers k) : Firm (unsplit k) :=
  ⟨saves_unsplit h, readsSame_unsplit h hs, fun _ => hs⟩

/-- At most three decimals. -/
def Short3 (v : α) : Prop := ∃ k : ℤ, v = k / 10 ^ 3

/-- At most five decimals. -/
def Short5 (v : α) : Prop := ∃ k : ℤ, v = k / 10 ^ 5

theorem short3_zero : Short3 (0 : α) := ⟨0, by simp⟩

theorem short3_sub {a b : α} (ha : Short3 a) (hb : Short3 b) : Short3 (a - b) := by
  obtain ⟨k, rfl⟩ := ha
  obtain ⟨q, rfl⟩ := hb
  exact ⟨k - q, by push_cast; ring⟩

theorem short5_sub {a b : α} (ha : Short5 a) (hb : Short5 b) : Short5 (a - b) := by
  obtain ⟨k, rfl⟩ := ha
  obtain ⟨q, rfl⟩ := hb
  exact ⟨k - q, by push_cast; ring⟩

theorem short_xy {l : PyLine α} {x y : Option α} (h : ShortNumbers l) (hx : ∀ v, x = some v → Short3 v) (hy : ∀ v, y = some v → Short3 v) :
    ShortNumbers { l with x := x, y := y } := by
  refine ⟨?_, h.2⟩
  intro o ho
  simp only [List.mem_cons, List.not_mem_nil, or_false] at ho
  rcases ho with rfl | rfl | rfl | rfl | rfl | rfl
  · exact hx
  · exact hy
  · exact h.1 l.z (by simp)
  · exact h.1 l.f (by simp)
  · exact h.1 l.i (by simp)
  · exact h.1 l.j (by simp)

theorem firm_translateG92 {s : TransSt α} {l : PyLine α} (hx : Short3 s.tx) (hy : Short3 s.ty) (hc : HasCmd l c!"G92") (h : Firm l) :
    (Short3 (translateG92 s l).1.tx ∧ Short3 (translateG92 s l).1.ty) ∧ Firm (translateG92 s l).2 := by
  have hs := h.short (.inr hc)
  have sx : ∀ v, l.x = some v → Short3 v := hs.1 l.x (by simp)
  have sy : ∀ v, l.y = some v → Short3 v := hs.1 l.y (by simp)
  have neg : ∀ {t : α}, Short3 t → Short3 (-t) := fun ht => by have := short3_sub short3_zero ht; rwa [zero_sub] at this
  have less : ∀ (o : Option α) {t : α}, Short3 t → (∀ v, o = some v → Short3 v) → ∀ v, o.map (· - t) = some v → Short3 v := by
    intro o t ht ho v hv
    cases o with
    | none => cases hv
    | some w =>
      simp only [Option.map_some, Option.some.injEq] at hv
      rw [← hv]
      exact short3_sub (ho w rfl) ht
  rw [translateG92_form]
  by_cases hn : l.x = none ∧ l.y = none ∧ l.z = none
  · rw [if_pos hn]
    refine ⟨⟨short3_zero, short3_zero⟩, ?_⟩
    exact firm_unsplit (k := { l with x := some (-s.tx), y := some (-s.ty) }) (.inr hc)
      (short_xy hs (fun v hv => by obtain rfl := Option.some.inj hv; exact neg hx) (fun v hv => by obtain rfl := Option.some.inj hv; exact neg hy))
  · rw [if_neg hn]
    refine ⟨⟨?_, ?_⟩, firm_unsplit (k := { l with x := l.x.map (· - s.tx), y := l.y.map (· - s.ty) }) (.inr hc)
      (short_xy hs (less l.x hx sx) (less l.y hy sy))⟩
    · simp only; split_ifs
      · exact hx
      · exact short3_zero
    · simp only; split_ifs
      · exact hy
      · exact short3_zero

theorem firm_transLine {s : TransSt α} {l : PyLine α} (hx : Short3 s.tx) (hy : Short3 s.ty) (h : Firm l) :
    (Short3 (transLine s l).1.tx ∧ Short3 (transLine s l).1.ty) ∧ Firm (transLine s l).2 := by
  unfold transLine
  by_cases c1 : IsMove l
  · rw [if_pos c1]
    refine ⟨⟨hx, hy⟩, ?_⟩
    simp only
    by_cases ha : s.absMode = some true
    · rw [if_pos ha]
      by_cases ht : Touched s l
      · rw [(translateMove_touched s l).1 ht]
        exact firm_unsplit (.inl c1) (short_displaced (h.short (.inl c1)) hx hy)
      · rw [(translateMove_touched s l).2 ht]; exact h
    · rw [if_neg ha]; exact h
  rw [if_neg c1]
  by_cases c2 : HasCmd l c!"G90"
  · rw [if_pos c2]; exact ⟨⟨hx, hy⟩, h⟩
  rw [if_neg c2]
  by_cases c3 : HasCmd l c!"G91"
  · rw [if_pos c3]; exact ⟨⟨hx, hy⟩, h⟩
  rw [if_neg c3]
  by_cases c4 : HasCmd l c!"G92"
  · rw [if_pos c4]; exact firm_translateG92 hx hy c4 h
  · rw [if_neg c4]; exact ⟨⟨hx, hy⟩, h⟩

theorem firm_m83 : Firm (rawToLine c!"M83" : PyLine α) := by
  refine ⟨saves_m83, ?_, ?_⟩
  · intro home m m' l' _ hp
    obtain ⟨m1, l1, r1, r2⟩ : ∃ m1 l1, processLine home m { raw := c!"M83" } = .ok (m1, l1) ∧ SameArgs (rawToLine c!"M83" : PyLine α) l1 :=
      ⟨_, _, by with_unfolding_all rfl, by with_unfolding_all exact ⟨rfl, rfl, rfl, rfl, rfl, rfl, rfl, rfl⟩⟩
    rw [show (rawToLine c!"M83" : PyLine α).raw = c!"M83" from rfl, r1] at hp
    obtain ⟨rfl, rfl⟩ := Prod.mk.inj (Except.ok.inj hp)
    exact r2
  · rintro (h | h)
    · exact absurd h (not_move_cmd (by decide) (m83_line (α := α)))
    · exact absurd h (not_two_cmds (by decide) (m83_line (α := α)))

theorem firm_relLine {s : RelSt α} {l : PyLine α} (hc : Short5 s.current) (h : Firm l) :
    Short5 (relLine s l).1.current ∧ Firm (relLine s l).2 := by
  unfold relLine
  by_cases c1 : HasCmd l c!"M83"
  · rw [if_pos c1]; exact ⟨hc, h⟩
  rw [if_neg c1]
  by_cases c2 : HasCmd l c!"M82"
  · rw [if_pos c2]; exact ⟨hc, firm_m83⟩
  rw [if_neg c2]
  by_cases c3 : HasCmd l c!"G92"
  · rw [if_pos c3]
    have hs := (h.short (.inr c3)).2
    cases he : l.e with
    | some e => exact ⟨hs e he, h⟩
    | none =>
      simp only
      split_ifs
      · exact ⟨⟨0, by simp⟩, h⟩
      · exact ⟨hc, h⟩
  rw [if_neg c3]
  by_cases c4 : IsMove l ∧ s.relative = false
  · rw [if_pos c4]
    have hs := h.short (.inl c4.1)
    cases he : l.e with
    | none => exact ⟨hc, h⟩
    | some e =>
      refine ⟨hs.2 e he, ?_⟩
      refine firm_unsplit (k := { l with e := some (e - s.current), relativeE := some true }) (.inl c4.1) ⟨hs.1, ?_⟩
      intro v hv
      obtain rfl := Option.some.inj hv
      exact short5_sub (hs.2 e he) hc
  · rw [if_neg c4]; exact ⟨hc, h⟩

theorem firm_scan {σ : Type} {f : σ → PyLine α → σ × PyLine α} (I : σ → Prop) (hf : ∀ s l, I s → Firm l → I (f s l).1 ∧ Firm (f s l).2)
    (ls : List (PyLine α)) : ∀ s, I s → (∀ l ∈ ls, Firm l) → ∀ l ∈ (scan f s ls).2, Firm l := by
  induction ls with
  | nil => intro s _ _ l hl; cases hl
  | cons a ls ih =>
    intro s hs h l hl
    obtain ⟨e1, e2⟩ := hf s a hs (h a (by simp))
    simp only [scan, List.mem_cons] at hl
    rcases hl with rfl | hl
    · exact e2
    · exact ih _ e1 (fun l hl => h l (by simp [hl])) l hl

/-! ### runs -/

/-- The lines after the filters of a group of options. -/
def optLines (o : ModOptions α) (ls : List (PyLine α)) : List (PyLine α) :=
  let ls := if o.x.isSome || o.y.isSome then (scan transLine (TransSt.init o.x o.y) ls).2 else ls
  if o.e then (scan relLine RelSt.init ls).2 else ls

theorem optLines_copy (o : ModOptions α) {a b : List (PyLine α)} (h : List.Forall₂ Copy a b) : List.Forall₂ Copy (optLines o a) (optLines o b) := by
  unfold optLines
  have h1 : List.Forall₂ Copy (if o.x.isSome || o.y.isSome then (scan transLine (TransSt.init o.x o.y) a).2 else a)
      (if o.x.isSome || o.y.isSome then (scan transLine (TransSt.init o.x o.y) b).2 else b) := by
    split_ifs
    · exact copy_scan (fun s l l' => copy_transLine s) h _
    · exact h
  simp only
  by_cases he : o.e = true
  · rw [if_pos he, if_pos he]; exact copy_scan (fun s l l' => copy_relLine s) h1 _
  · rw [if_neg he, if_neg he]; exact h1

theorem optLines_firm (o : ModOptions α) (hx : Short3 (o.x.getD 0)) (hy : Short3 (o.y.getD 0)) {ls : List (PyLine α)} (h : ∀ l ∈ ls, Firm l) :
    ∀ l ∈ optLines o ls, Firm l := by
  unfold optLines
  have h1 : ∀ l ∈ (if o.x.isSome || o.y.isSome then (scan transLine (TransSt.init o.x o.y) ls).2 else ls), Firm l := by
    split_ifs
    · exact firm_scan (fun s => Short3 s.tx ∧ Short3 s.ty) (fun s l hs hl => firm_transLine hs.1 hs.2 hl) ls _ ⟨hx, hy⟩ h
    · exact h
  simp only
  by_cases he : o.e = true
  · rw [if_pos he]
    exact firm_scan (fun s => Short5 s.current) (fun s l hs hl => firm_relLine hs hl) _ _ ⟨0, by simp [RelSt.init]⟩ h1
  · rw [if_neg he]; exact h1

theorem filter_program (o : ModOptions α) (g : GCode α) :
    ∃ g', o.filter g = .ok g' ∧ program g' = optLines o (program g) ∧ g'.allZs = g.allZs := by
  unfold ModOptions.filter optLines
  obtain ⟨g1, h1, h2, h3⟩ : ∃ g1, (if o.x.isSome || o.y.isSome then g.translate o.x o.y else .ok g) = .ok g1 ∧
      program g1 = (if o.x.isSome || o.y.isSome then (scan transLine (TransSt.init o.x o.y) (program g)).2 else program g) ∧ g1.allZs = g.allZs := by
    by_cases hx : (o.x.isSome || o.y.isSome) = true
    · rw [if_pos hx, if_pos hx]
      obtain ⟨g1, a, b, c⟩ := translate_program g o.x o.y
      exact ⟨g1, a, c, by rw [b]⟩
    · rw [if_neg hx, if_neg hx]
      exact ⟨g, rfl, rfl, rfl⟩
  rw [h1]
  simp only
  by_cases he : o.e = true
  · rw [if_pos he, if_pos he, toRelativeE_eq]
    refine ⟨_, rfl, ?_, h3⟩
    rw [← h2, program_def, program_def]
    exact (scanLayers_flat relLine g1.allLayers _).1
  · rw [if_neg he, if_neg he]
    exact ⟨g1, rfl, h2, h3⟩

theorem run_text {env : Env α} {o : ModOptions α} {data : List Str} {t : Str} (h : modPipeline env o.x o.y o.e none data = .ok t) :
    ∃ g : GCode α, GCode.load env data = .ok g ∧ t = (optLines o g.lines).flatMap (fun l => l.raw ++ ['\n']) := by
  cases hg : (GCode.load env data : Except Err (GCode α)) with
  | error e => unfold modPipeline at h; rw [hg] at h; cases h
  | ok g =>
    refine ⟨g, rfl, ?_⟩
    have hl : g.lines = program g := (load_indexed hg).flat
    obtain ⟨g', h1, h2, h3⟩ := filter_program o g
    unfold ModOptions.filter at h1
    cases hf : (if o.x.isSome || o.y.isSome then g.translate o.x o.y else .ok g) with
    | error e => rw [hf] at h1; cases h1
    | ok g1 =>
      rw [hf] at h1
      rw [modPipeline_eq hg hf h1] at h
      unfold modTail at h
      simp only [bind, Except.bind] at h
      cases hz : iteratorZs env.mode 2 g' with
      | error e => rw [hz] at h; cases h
      | ok zs =>
        rw [hz] at h
        simp only [Except.ok.injEq] at h
        rw [← h, GCode.write, GCode.allLines, hl, ← h2, program_def, List.flatMap_def, List.flatMap_def]

theorem optionRuns_cons {env : Env α} {text t : Str} {o : ModOptions α} {os : List (ModOptions α)} (h : optionRuns env text (o :: os) = .ok t) :
    ∃ t1, modPipeline env o.x o.y o.e none (readlines text) = .ok t1 ∧ optionRuns env t1 os = .ok t := by
  simp only [optionRuns, bind, Except.bind] at h
  cases hp : modPipeline env o.x o.y o.e none (readlines text) with
  | error e => rw [hp] at h; cases h
  | ok t1 => rw [hp] at h; exact ⟨t1, rfl, h⟩

theorem copies_text {a b : List (PyLine α)} (h : List.Forall₂ Copy a b) :
    b.flatMap (fun l => l.raw ++ ['\n']) = a.flatMap (fun l => l.raw ++ ['\n']) := by
  induction h with
  | nil => rfl
  | cons h1 _ ih => rw [List.flatMap_cons, List.flatMap_cons, ih, h1.1]

theorem runs_memory {env : Env α} (os : List (ModOptions α)) : ∀ {text t : Str} {gm g : GCode α}, os ≠ [] →
    GCode.load env (readlines text) = .ok g → List.Forall₂ Copy (program gm) g.lines → (∀ l ∈ program gm, Firm l) →
    (∀ o ∈ os, Short3 (o.x.getD 0) ∧ Short3 (o.y.getD 0)) → optionRuns env text os = .ok t →
    ∃ g', inMemory gm os = .ok g' ∧ t = g'.write := by
  induction os with
  | nil => intro _ _ _ _ h; exact absurd rfl h
  | cons o os ih =>
    intro text t gm g _ hg hc hf ho h
    obtain ⟨t1, r1, r2⟩ := optionRuns_cons h
    obtain ⟨g0, hg0, e1⟩ := run_text r1
    rw [hg] at hg0
    obtain rfl := Except.ok.inj hg0
    obtain ⟨gm1, m1, m2, _⟩ := filter_program o gm
    have C := optLines_copy o hc
    have F := optLines_firm o (ho o (by simp)).1 (ho o (by simp)).2 hf
    rw [copies_text C] at e1
    rw [← m2] at e1 F
    simp only [inMemory, bind, Except.bind, m1]
    by_cases hos : os = []
    · subst hos
      simp only [optionRuns, Except.ok.injEq] at r2
      refine ⟨gm1, rfl, ?_⟩
      rw [← r2, e1, GCode.write, GCode.allLines, program_def, List.flatMap_def, List.flatMap_def]
    · obtain ⟨g1, hg1⟩ : ∃ g1 : GCode α, GCode.load env (readlines t1) = .ok g1 := by
        cases os with
        | nil => exact absurd rfl hos
        | cons o' os' =>
          obtain ⟨_, q, _⟩ := optionRuns_cons r2
          obtain ⟨g1, q1, _⟩ := run_text q
          exact ⟨g1, q1⟩
      have hg1' := hg1
      rw [e1] at hg1'
      exact ih hos hg1 (load_same (fun l hl => ⟨(F l hl).saves, (F l hl).reads⟩) hg1') F (fun o' h' => ho o' (by simp [h'])) r2

theorem copy_refl (ls : List (PyLine α)) : List.Forall₂ Copy ls ls := List.forall₂_same.2 fun _ _ => ⟨rfl, rfl, rfl, rfl, rfl, rfl, rfl, rfl, rfl⟩

/-- **C137** (partial).  `gcode_mod` run any number of times, each time on its own output, with any of the options `-x`, `-y` and
`-e` in each run.  The program is in millimetres, the numbers of its moves and of its `G92` lines have at most three decimals
(five for E), and so have the amounts.  When all the runs succeed, the last text is what writing the program once gives
after all the filters have been applied in memory: writing and loading in between changes nothing.  Missing: other
numbers, where it is false, see `C137_decimals_refuted`; pauses, see `C137_pause_refuted`. -/
theorem C137_runs_partial {env : Env α} {text t : Str} {g : GCode α} (os : List (ModOptions α)) (hos : os ≠ [])
    (hg : GCode.load env (readlines text) = .ok g) (h20 : ∀ l ∈ g.lines, ¬ HasCmd l c!"G20")
    (hs : ∀ l ∈ g.lines, IsMove l ∨ HasCmd l c!"G92" → ShortNumbers l)
    (ho : ∀ o ∈ os, (∃ k : ℤ, o.x.getD 0 = k / 10 ^ 3) ∧ ∃ k : ℤ, o.y.getD 0 = k / 10 ^ 3) (h : optionRuns env text os = .ok t) :
    ∃ g', inMemory g os = .ok g' ∧ t = g'.write := by
  have hl : g.lines = program g := (load_indexed hg).flat
  refine runs_memory os hos hg (by rw [← hl]; exact copy_refl _) ?_ ho h
  rw [← hl]
  intro l hm
  exact ⟨saves_loaded hg h20 (load_no_newline hg) l hm, readsSame_loaded hg h20 l hm, hs l hm⟩

/-- One run in terms of the filters. -/
theorem one_run {env : Env α} {o : ModOptions α} {data : List Str} {g g' : GCode α} (hg : GCode.load env data = .ok g) (hz : none ∉ g.allZs)
    (hf : o.filter g = .ok g') : modPipeline env o.x o.y o.e none data = .ok g'.write := by
  obtain ⟨g2, k1, _, k3⟩ := filter_program o g
  rw [hf] at k1
  obtain rfl := Except.ok.inj k1
  unfold ModOptions.filter at hf
  cases hx : (if o.x.isSome || o.y.isSome then g.translate o.x o.y else .ok g) with
  | error e => rw [hx] at hf; cases hf
  | ok g1 =>
    rw [hx] at hf
    rw [modPipeline_eq hg hx hf]
    unfold modTail
    simp only [bind, Except.bind]
    rw [(iteratorZs_ok g').2 (by rw [k3]; exact hz)]

theorem runs_heights {env : Env α} {text t : Str} {g : GCode α} {o : ModOptions α} {os : List (ModOptions α)}
    (hg : GCode.load env (readlines text) = .ok g) (h : optionRuns env text (o :: os) = .ok t) : none ∉ g.allZs := by
  obtain ⟨t1, r1, _⟩ := optionRuns_cons h
  obtain ⟨_, _, _, _, _, _, _, _, hz, _⟩ := mod_steps hg r1
  exact hz

/-- **C137** (partial).  Translating in a first run and converting in a second one gives, character for character, the output of one run with
all the options; so does converting first and translating afterwards, if no `G92` line is without X, Y, Z and E. -/
theorem C137_one_run_partial {env : Env α} {text t : Str} {g : GCode α} (x y : Option α) (hxy : (x.isSome || y.isSome) = true)
    (hg : GCode.load env (readlines text) = .ok g) (h20 : ∀ l ∈ g.lines, ¬ HasCmd l c!"G20")
    (hs : ∀ l ∈ g.lines, IsMove l ∨ HasCmd l c!"G92" → ShortNumbers l)
    (hx : ∃ k : ℤ, x.getD 0 = k / 10 ^ 3) (hy : ∃ k : ℤ, y.getD 0 = k / 10 ^ 3) :
    (optionRuns env text [{ x := x, y := y }, { e := true }] = .ok t → modPipeline env x y true none (readlines text) = .ok t) ∧
    ((∀ l ∈ g.lines, HasCmd l c!"G92" → ¬ (l.x = none ∧ l.y = none ∧ l.z = none ∧ l.e = none)) →
      optionRuns env text [{ e := true }, { x := x, y := y }] = .ok t → modPipeline env x y true none (readlines text) = .ok t) := by
  have hl : g.lines = program g := (load_indexed hg).flat
  have z0 : ∃ k : ℤ, ((none : Option α).getD 0) = k / 10 ^ 3 := ⟨0, by simp⟩
  have F : ∀ g g' : GCode α, ({ x := x, y := y } : ModOptions α).filter g = .ok g' → g.translate x y = .ok g' := by
    intro g g' h
    unfold ModOptions.filter at h
    rw [if_pos hxy] at h
    cases hq : g.translate x y with
    | error e => rw [hq] at h; cases h
    | ok q => rw [hq] at h; simpa using h
  have E : ∀ g g' : GCode α, ({ e := true } : ModOptions α).filter g = .ok g' → g.toRelativeE = .ok g' := by
    intro g g' h
    unfold ModOptions.filter at h
    simpa using h
  have both : ∀ a c : GCode α, g.translate x y = .ok a → a.toRelativeE = .ok c → ({ x := x, y := y, e := true } : ModOptions α).filter g = .ok c := by
    intro a c h1 h2
    unfold ModOptions.filter
    rw [if_pos hxy, h1]
    exact h2
  have two : ∀ (o1 o2 : ModOptions α) (g' : GCode α), inMemory g [o1, o2] = .ok g' → ∃ a, o1.filter g = .ok a ∧ o2.filter a = .ok g' := by
    intro o1 o2 g' h
    simp only [inMemory, bind, Except.bind] at h
    cases h1 : o1.filter g with
    | error e => rw [h1] at h; cases h
    | ok a =>
      rw [h1] at h
      simp only at h
      cases h2 : o2.filter a with
      | error e => rw [h2] at h; cases h
      | ok b => rw [h2] at h; exact ⟨a, rfl, h2.trans h⟩
  constructor
  · intro h
    obtain ⟨g', m1, m2⟩ := C137_runs_partial _ (by simp) hg h20 hs (by
      intro o ho
      simp only [List.mem_cons, List.not_mem_nil, or_false] at ho
      rcases ho with rfl | rfl
      · exact ⟨hx, hy⟩
      · exact ⟨z0, z0⟩) h
    obtain ⟨a, a1, a2⟩ := two _ _ _ m1
    rw [m2]
    exact one_run (o := { x := x, y := y, e := true }) hg (runs_heights hg h) (both a g' (F _ _ a1) (E _ _ a2))
  · intro hb h
    obtain ⟨g', m1, m2⟩ := C137_runs_partial _ (by simp) hg h20 hs (by
      intro o ho
      simp only [List.mem_cons, List.not_mem_nil, or_false] at ho
      rcases ho with rfl | rfl
      · exact ⟨z0, z0⟩
      · exact ⟨hx, hy⟩) h
    obtain ⟨a, a1, a2⟩ := two _ _ _ m1
    obtain ⟨p, q, c, c1, c2, c3, c4⟩ := C88_commute_partial g x y (by rw [← hl]; exact hb)
    have e1 := E _ _ a1
    have e2 := F _ _ a2
    rw [c3] at e1
    obtain rfl := Except.ok.inj e1
    rw [c4] at e2
    obtain rfl := Except.ok.inj e2
    rw [m2]
    exact one_run (o := { x := x, y := y, e := true }) hg (runs_heights hg h) (both p c c1 c2)

/-- A program with absolute extrusion and a reset of the extruder. -/
def optText : Str := c!"G90\nM82\nG92 X0 E0\nG1 Z0.3\nG1 X10 Y10 E1.25 ; draw\nG1 Y20 E2.5\nG1 Z0.6\nG1 X0.125 E4\n"

def optG : GCode ℚ := loadQ (readlines optText)

/-- The hypotheses of `C137_runs_partial` and `C137_one_run_partial` on a program with a reset of the extruder. -/
example : GCode.load qEnv (readlines optText) = .ok optG ∧ (∀ l ∈ optG.lines, ¬ HasCmd l c!"G20") ∧
    (∀ l ∈ optG.lines, IsMove l ∨ HasCmd l c!"G92" → ShortNumbers l) ∧
    (∀ l ∈ optG.lines, HasCmd l c!"G92" → ¬ (l.x = none ∧ l.y = none ∧ l.z = none ∧ l.e = none)) ∧
    (∃ k : ℤ, (some (1 / 2 : ℚ)).getD 0 = k / 10 ^ 3) ∧
    optionRuns qEnv optText [{ x := some 5, y := some (1 / 2) }, { e := true }] =
      .ok c!"G90\nM83\nG92 X-5.000 E0.00000\nG1 Z0.3\nG1 X10.000 Y10.500 E1.25000\nG1 Y20.500 E1.25000\nG1 Z0.6\nG1 X0.125 E1.50000\n" ∧
    optionRuns qEnv optText [{ e := true }, { x := some 5, y := some (1 / 2) }] =
      .ok c!"G90\nM83\nG92 X-5.000 E0.00000\nG1 Z0.3\nG1 X10.000 Y10.500 E1.25000\nG1 Y20.500 E1.25000\nG1 Z0.6\nG1 X0.125 E1.50000\n" := by
  refine ⟨by decide +kernel, by unfold HasCmd; decide +kernel, ?_, by unfold HasCmd; decide +kernel, ⟨500, by norm_num⟩, by decide +kernel, by decide +kernel⟩
  have key : ∀ l ∈ optG.lines,
      (∀ o ∈ [l.x, l.y, l.z, l.f, l.i, l.j], ∀ v ∈ o, (((v * 10 ^ 3).num : ℚ)) = v * 10 ^ 3) ∧ ∀ v ∈ l.e, (((v * 10 ^ 5).num : ℚ)) = v * 10 ^ 5 := by decide +kernel
  intro l hl _
  obtain ⟨k1, k2⟩ := key l hl
  refine ⟨fun o ho v hv => ⟨(v * 10 ^ 3).num, ?_⟩, fun v hv => ⟨(v * 10 ^ 5).num, ?_⟩⟩
  · rw [k1 o ho v hv]; norm_num
  · rw [k2 v hv]; norm_num

/-- C137 is false for numbers with more decimals than are written: the conversion takes differences, and in the second run these are
differences of rounded numbers. -/
theorem C137_decimals_refuted : ∃ text : Str,
    optionRuns qEnv text [{ x := some 5 }, { e := true }] = .ok c!"G90\nM83\nG1 Z0.3\nG1 X15.000 E0.00001\nG1 X25.000 E0.00000\nG1 X35.000 E0.00001\n" ∧
    modPipeline qEnv (some 5) none true none (readlines text) =
      .ok c!"G90\nM83\nG1 Z0.3\nG1 X15.000 E0.00001\nG1 X25.000 E0.00001\nG1 X35.000 E0.00001\n" :=
  ⟨c!"G90\nM82\nG1 Z0.3\nG1 X10 E0.000006\nG1 X20 E0.000012\nG1 X30 E0.000018\n", by decide +kernel⟩

/-- C137 is false when a later run inserts pauses: a program that does not state its extrusion mode has no `M82` to become `M83`, so
the second run takes the small amounts for positions, sees no layer that prints above the first one and inserts no pause. -/
theorem C137_pause_refuted : ∃ text t : Str,
    optionRuns qEnv text [{ e := true }] = .ok t ∧
    modPipeline qEnv none none false (some 2) (readlines t) = .ok t ∧
    modPipeline qEnv none none true (some 2) (readlines text) =
      .ok c!"G1 Z0.2\nG1 X1.000 E1.00000\nG1 Z0.4\nG1 X2.000 E1.00000\nM226\nG1 Z0.6\nG1 X3.000 E1.00000\n" :=
  ⟨c!"G1 Z0.2\nG1 X1 E1\nG1 Z0.4\nG1 X2 E2\nG1 Z0.6\nG1 X3 E3\n",
    c!"G1 Z0.2\nG1 X1.000 E1.00000\nG1 Z0.4\nG1 X2.000 E1.00000\nG1 Z0.6\nG1 X3.000 E1.00000\n", by decide +kernel⟩

/-- C137 is false for the other order if a `G92` has no words: the conversion takes it for a reset of the extruder and pushes 7 mm after
it; after the translation, which adds X and Y to it, the conversion pushes 2 mm. -/
theorem C137_order_refuted : ∃ text : Str,
    optionRuns qEnv text [{ e := true }, { x := some 5, y := some 1 }] =
      .ok c!"G90\nM83\nG1 Z0.3\nG1 X6.000 E5.00000\nG92 X-5.000 Y-1.000\nG1 X2.000 E7.00000\n" ∧
    modPipeline qEnv (some 5) (some 1) true none (readlines text) =
      .ok c!"G90\nM83\nG1 Z0.3\nG1 X6.000 E5.00000\nG92 X-5.000 Y-1.000\nG1 X2.000 E2.00000\n" :=
  ⟨c!"G90\nM82\nG1 Z0.3\nG1 X1 E5\nG92\nG1 X2 E7\n", by decide +kernel⟩

end GCodeUtils
