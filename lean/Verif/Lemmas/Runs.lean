import Verif.Spec.Runs
import Verif.Lemmas.SavedFilters
import Verif.Lemmas.MeasuredRel
import Verif.Props.Mod

/-
  Programs translated, written and loaded again.
-/

set_option linter.unusedSectionVars false

namespace GCodeUtils

open Spec

variable {α : Type} [Field α] [LinearOrder α] [IsStrictOrderedRing α] [FloorRing α]

theorem Kin.trans {a b c : PyLine α} (h : Kin a b) (k : Kin b c) : Kin a c :=
  ⟨k.1.trans h.1, k.2.1.trans h.2.1, k.2.2.1.trans h.2.2.1, k.2.2.2.trans h.2.2.2⟩

theorem none_of_isSome {a b : Option α} (h : a.isSome = b.isSome) : (a = none ↔ b = none) := by
  cases a <;> cases b <;> simp at h ⊢

theorem track_kin {l l' : PyLine α} (h : Kin l l') (t : TrackSt) : t.step l' = t.step l := by
  obtain ⟨h1, h2, h3, h4⟩ := h
  unfold TrackSt.step
  simp only [isMove_congr h1, hasCmd_congr h1, none_of_isSome h2, none_of_isSome h3, none_of_isSome h4, h2, h3, h4]

theorem track_run_kin {ls ls' : List (PyLine α)} (h : List.Forall₂ Kin ls ls') : ∀ t : TrackSt, t.run ls' = t.run ls := by
  induction h with
  | nil => intro t; rfl
  | cons h1 _ ih =>
    intro t
    simp only [TrackSt.run, track_kin h1, ih]

theorem kin_cmd {ls ls' : List (PyLine α)} (h : List.Forall₂ Kin ls ls') {c : Str} (hn : ∀ l ∈ ls, ¬ HasCmd l c) : ∀ l ∈ ls', ¬ HasCmd l c := by
  induction h with
  | nil => intro l hl; cases hl
  | @cons a b as bs h1 _ ih =>
    intro l hl
    rcases List.mem_cons.1 hl with rfl | hl
    · rw [HasCmd, h1.1]; exact hn a (by simp)
    · exact ih (fun l hl => hn l (by simp [hl])) l hl

theorem forall₂_split {β γ : Type} {R : β → γ → Prop} {a : List β} {pre : List γ} {x : γ} {post : List γ} (h : List.Forall₂ R a (pre ++ x :: post)) :
    ∃ pre' x' post', a = pre' ++ x' :: post' ∧ List.Forall₂ R pre' pre ∧ R x' x := by
  induction pre generalizing a with
  | nil =>
    cases h with
    | cons h1 h2 => exact ⟨[], _, _, rfl, .nil, h1⟩
  | cons p pre ih =>
    cases h with
    | cons h1 h2 =>
      obtain ⟨pre', x', post', rfl, k2, k3⟩ := ih h2
      exact ⟨_ :: pre', x', post', rfl, .cons h1 k2, k3⟩

theorem modeStated_kin {ls ls' : List (PyLine α)} (h : List.Forall₂ Kin ls ls') (hm : ModeStated ls) : ModeStated ls' := by
  intro pre l post he hmv hxy
  rw [he] at h
  obtain ⟨pre', l', post', h1, h2, h3⟩ := forall₂_split h
  have : IsMove l' := (isMove_congr h3.1).1 hmv
  obtain ⟨m, hm1, hm2⟩ := hm pre' l' post' h1 this (by
    rcases hxy with k | k
    · exact .inl (fun e => k ((none_of_isSome h3.2.1).2 e))
    · exact .inr (fun e => k ((none_of_isSome h3.2.2.1).2 e)))
  clear h1 h3 h he
  induction h2 with
  | nil => cases hm1
  | @cons a b as bs k1 _ ih =>
    rcases List.mem_cons.1 hm1 with rfl | hm1
    · exact ⟨b, by simp, by unfold HasCmd at hm2 ⊢; rw [k1.1]; exact hm2⟩
    · obtain ⟨m', a1, a2⟩ := ih hm1
      exact ⟨m', List.mem_cons_of_mem _ a1, a2⟩

theorem kin_of_eq {l l' : PyLine α} (h : l.eq l' = true) : Kin l l' := by
  obtain ⟨h1, h2, h3, h4, _⟩ := (C13_eq_iff l l').1 h
  have key : ∀ {a b : Option α}, Within (1 / 1000) a b → b.isSome = a.isSome := by
    intro a b h
    cases a <;> cases b <;> simp [Within] at h ⊢
  exact ⟨h1.symm, key h2, key h3, key h4⟩

theorem kin_translated {tx ty : α} {l l' : PyLine α} (h : Translated tx ty l l') (h92 : ¬ HasCmd l c!"G92") : Kin l l' := by
  obtain ⟨k1, k2⟩ := h.present (.inl h92)
  exact ⟨h.command, k1, k2, by rw [h.rest.1]⟩

theorem clear_unsplit {k : PyLine α} (h : Rebuilds k) : CommandFirst (unsplit k).raw ∧ HomingClear (α := α) (unsplit k).raw := by
  obtain ⟨n, hcmd, hn⟩ := rebuilds_number h
  have hf := findall_unsplit k 'G' n (by decide) hcmd (numLen_rebuilds hn).1
  have hd : dropN (findall (lower (unsplit k).raw)) = some ('g', n) :: lineToks k := by rw [hf]; rfl
  refine ⟨?_, ?_⟩
  · unfold CommandFirst
    rw [hf]
    have : ('G' : Char).toLower = 'g' := by decide
    rw [this]
    trivial
  · unfold HomingClear
    rw [(instr_of_dropN hd).1]
    intro hc
    exfalso
    have : ∀ n ∈ [c!"0", c!"1", c!"2", c!"3", c!"92"], ('g' : Char).toUpper :: n ≠ c!"G28" := by decide
    exact this n hn hc

theorem forall₂_clear {ls ls' : List (PyLine α)}
    (h : List.Forall₂ (fun l l' => l'.raw = l.raw ∨ ∃ k : PyLine α, l'.raw = (unsplit k).raw ∧ Rebuilds k) ls ls')
    (hc : ∀ l ∈ ls, CommandFirst l.raw ∧ HomingClear (α := α) l.raw) : ∀ l ∈ ls', CommandFirst l.raw ∧ HomingClear (α := α) l.raw := by
  induction h with
  | nil => intro l hl; cases hl
  | @cons a b as bs h1 _ ih =>
    intro l hl
    rcases List.mem_cons.1 hl with rfl | hl
    · rcases h1 with h1 | ⟨k, h1, hk⟩
      · rw [h1]; exact hc a (by simp)
      · rw [h1]; exact clear_unsplit hk
    · exact ih (fun l hl => hc l (by simp [hl])) l hl

theorem forall₂_comp {β γ δ : Type} {R : β → γ → Prop} {S : γ → δ → Prop} {T : β → δ → Prop} {a : List β} {b : List γ} {c : List δ}
    (hT : ∀ x y z, R x y → S y z → T x z) (h : List.Forall₂ R a b) (k : List.Forall₂ S b c) : List.Forall₂ T a c := by
  induction h generalizing c with
  | nil => cases k; exact .nil
  | cons h1 _ ih =>
    cases k with
    | cons k1 k2 => exact .cons (hT _ _ _ h1 k1) (ih k2)

/-- One run of the tool that only moves. -/
theorem move_run {env : Env α} {d : Option α × Option α} {data : List Str} {g : GCode α} {t : Str} (hg : GCode.load env data = .ok g)
    (h : modPipeline env d.1 d.2 false none data = .ok t) :
    ∃ g2 : GCode α, (if d.1.isSome || d.2.isSome then g.translate d.1 d.2 = .ok g2 else g2 = g) ∧ none ∉ g.allZs ∧
      t = (program g2).flatMap (fun l => l.raw ++ ['\n']) := by
  obtain ⟨g1, g2, g3, k, s1, s2, s3, s4, hz, s6, s7⟩ := mod_steps hg h
  simp only [Bool.false_eq_true, if_false] at s2
  subst s2
  refine ⟨g2, s1, hz, ?_⟩
  have hk : ∀ i < g2.allLayers.length, k i = 0 := fun i hi => (List.sum_eq_zero_iff.1 s6) (k i) (List.mem_map.2 ⟨i, List.mem_range.2 hi, rfl⟩)
  have : withPauses k g2.allLayers = g2.allLayers := by
    conv_rhs => rw [← withPauses_zero g2.allLayers]
    unfold withPauses
    apply List.ext_getElem (by simp)
    intro i h1 h2
    simp only [List.getElem_mapIdx]
    rw [hk i (by simpa using h1)]
  rw [s7, GCode.write, GCode.allLines, s4, this, program_def, List.flatMap_def, List.flatMap_def]

/-- What a run that only moves leaves on the lines, in memory. -/
theorem move_lines {env : Env α} {d : Option α × Option α} {data : List Str} {g g2 : GCode α} (hg : GCode.load env data = .ok g)
    (h20 : ∀ l ∈ g.lines, ¬ HasCmd l c!"G20") (h92 : ∀ l ∈ g.lines, ¬ HasCmd l c!"G92") (hn : ∀ l ∈ g.lines, '\n' ∉ l.raw)
    (h1 : if d.1.isSome || d.2.isSome then g.translate d.1 d.2 = .ok g2 else g2 = g) :
    (∀ l ∈ program g2, Saves l) ∧ List.Forall₂ Kin g.lines (program g2) ∧
    List.Forall₂ (fun l l' : PyLine α => l'.raw = l.raw ∨ ∃ k : PyLine α, l'.raw = (unsplit k).raw ∧ Rebuilds k) g.lines (program g2) := by
  have hs := saves_loaded hg h20 hn
  have hl : g.lines = program g := (load_indexed hg).flat
  by_cases hx : (d.1.isSome || d.2.isSome) = true
  · rw [if_pos hx] at h1
    obtain ⟨g', k1, _, hprog⟩ := translate_program g d.1 d.2
    rw [h1] at k1
    obtain rfl := Except.ok.inj k1
    rw [← hl] at hprog
    rw [hprog]
    refine ⟨scan_inv (transLine_inv saves_stable) _ _ hs, ?_, ?_⟩
    · have := (scan_forall₂ (R := fun l l' => Translated (TransSt.init d.1 d.2).tx (TransSt.init d.1 d.2).ty l l') _ (transLine_translated (α := α)) g.lines (TransSt.init d.1 d.2) ⟨.inl rfl, .inl rfl⟩).2
      clear hprog hs hn h20 k1 h1 hg
      revert this
      generalize (scan transLine (TransSt.init d.1 d.2) g.lines).2 = out
      intro this
      generalize g.lines = ls at this h92
      induction this with
      | nil => exact .nil
      | @cons a b as bs q1 _ ih => exact .cons (kin_translated q1 (h92 a (by simp))) (ih (fun l hl => h92 l (by simp [hl])))
    · exact (scan_forall₂ (R := fun l l' : PyLine α => l'.raw = l.raw ∨ ∃ k : PyLine α, l'.raw = (unsplit k).raw ∧ Rebuilds k) (fun _ => True)
        (fun s l _ => ⟨trivial, by
          rcases transLine_cases s l with h | ⟨k, k1, _, _, k4⟩
          · exact .inl (by rw [h])
          · exact .inr ⟨k, by rw [k1], k4⟩⟩) g.lines _ trivial).2
  · rw [if_neg hx] at h1
    subst h1
    rw [← hl]
    exact ⟨hs, List.forall₂_same.2 fun l _ => ⟨rfl, rfl, rfl, rfl⟩, List.forall₂_same.2 fun l _ => .inl rfl⟩

/-- Loading what a run wrote. -/
theorem move_again {env : Env α} {g1 : GCode α} {ls : List (PyLine α)} (hs : ∀ l ∈ ls, Saves l)
    (h : GCode.load env (readlines (ls.flatMap (fun l => l.raw ++ ['\n']))) = .ok g1) :
    List.Forall₂ (fun l l' : PyLine α => l'.raw = l.raw ∧ l.eq l' = true) ls g1.lines := by
  rcases load_saves env Home.init ls hs with k | ⟨g, k1, k2⟩
  · rw [h] at k; cases k
  · rw [h] at k1
    obtain rfl := Except.ok.inj k1
    exact k2

/-! ### exact numbers -/

/-- Reading the text of the line gives back its numbers. -/
def ReadsSame (l : PyLine α) : Prop :=
  ∀ (home : Home α) (m m' : Machine α) (l' : PyLine α), m.imperial = false → processLine home m { raw := l.raw } = .ok (m', l') → SameArgs l l'

theorem readsSame_unsplit {k : PyLine α} (h : Rebuilds k) (hs : ShortNumbers k) : ReadsSame (unsplit k) := by
  intro home m m' l' hm hp
  obtain ⟨w1, w2, w3, w4, w5, w6⟩ := rebuilt_all h hp hm
  obtain ⟨c1, c2, _⟩ := rebuilt_reads h hp hm
  obtain ⟨hs1, hs2⟩ := hs
  refine ⟨c1.symm, ?_, ?_, ?_, ?_, ?_, ?_, ?_⟩
  · rw [w1, map_exact (hs1 k.x (by simp))]; rfl
  · rw [w2, map_exact (hs1 k.y (by simp))]; rfl
  · rw [w3, map_exact (hs1 k.z (by simp))]; rfl
  · rw [c2, map_exact hs2]; rfl
  · rw [w4, map_exact (hs1 k.f (by simp))]; rfl
  · rw [w5, map_exact (hs1 k.i (by simp))]; rfl
  · rw [w6, map_exact (hs1 k.j (by simp))]; rfl

theorem readsSame_loaded {env : Env α} {data : List Str} {home : Home α} {g : GCode α} (h : GCode.load env data false home = .ok g)
    (h20 : ∀ l ∈ g.lines, ¬ HasCmd l c!"G20") : ∀ l ∈ g.lines, ReadsSame l := by
  intro l hl home1 m1 m1' l1 hm1 hp1
  rcases load_ok h with ⟨rfl, rfl⟩ | ⟨_, s, hs, rfl⟩
  · simp [GCode.blank] at hl
  · have e0 : (finalize (GCode.blank false home) s).lines = s.done := rfl
    rw [e0] at hl h20
    rw [readLines_bare] at hs
    obtain ⟨out, e1, e2⟩ := fold_readings _ hs rfl h20
    rw [e1] at hl
    simp only [BuildSt.start, List.nil_append] at hl
    obtain ⟨r, hr⟩ : ∃ r, l.raw = r ∧ ∃ m m', m.imperial = false ∧ processLine home m { raw := r } = .ok (m', l) := by
      clear hs e1
      generalize (data.map strip).filter (fun s => !s.isEmpty) = rs at e2
      induction e2 with
      | nil => cases hl
      | cons hh _ ih =>
        rcases List.mem_cons.1 hl with rfl | hl
        · obtain ⟨a, m, m', b, c, _⟩ := hh
          exact ⟨_, a, m, m', b, c⟩
        · exact ih hl
    obtain ⟨rfl, m, m', hm, hp⟩ := hr
    obtain ⟨m2, l2, a1, a2, _⟩ := processLine_free (home' := home1) hp (m1 := m1) (by rw [hm1, hm])
    rw [hp1] at a1
    obtain ⟨rfl, rfl⟩ := Prod.mk.inj (Except.ok.inj a1)
    exact a2

theorem run_same {home : Home α} (ls : List (PyLine α)) : ∀ {m m' : Machine α} {out : List (PyLine α)},
    Run home m (bare (ls.map (·.raw))) m' out → m.imperial = false → (∀ l ∈ ls, Saves l ∧ ReadsSame l) →
    List.Forall₂ (fun l l' => l'.raw = l.raw ∧ SameArgs l l') ls out := by
  induction ls with
  | nil => intro m m' out h hm _; cases h; exact .nil
  | cons l ls ih =>
    intro m m' out h hm hs
    simp only [bare, List.map_cons] at h
    cases h with
    | cons hp hr =>
      have h2 := (hs l (by simp)).2 home m _ _ hm hp
      exact .cons ⟨(processLine_keeps hp).1, h2⟩
        (ih hr (saves_imperial (hs l (by simp)).1 hp (eq_of_sameArgs h2) hm) (fun l hl => hs l (by simp [hl])))

theorem load_same {env : Env α} {home : Home α} {g1 : GCode α} {ls : List (PyLine α)} (hs : ∀ l ∈ ls, Saves l ∧ ReadsSame l)
    (h : GCode.load env (readlines (ls.flatMap (fun l => l.raw ++ ['\n']))) false home = .ok g1) :
    List.Forall₂ (fun l l' : PyLine α => l'.raw = l.raw ∧ SameArgs l l') ls g1.lines := by
  have hw : ls.flatMap (fun l => l.raw ++ ['\n']) = (ls.map (·.raw)).flatMap (fun t => t ++ ['\n']) := by rw [List.flatMap_map]
  have hread : (readLines (readlines (ls.flatMap (fun l => l.raw ++ ['\n']))) : List (PyLine α)) = bare (ls.map (·.raw)) := by
    rw [hw, readLines_readlines]
    · rfl
    · intro t ht
      obtain ⟨l, hl, rfl⟩ := List.mem_map.1 ht
      exact (hs l hl).1.text
  obtain ⟨out, hr, ho⟩ := load_run h
  rw [hread] at hr
  simp only [Bool.false_eq_true, if_false] at ho
  rw [ho]
  exact run_same ls hr rfl hs

/-! ### texts of translated moves -/

/-- The line names an axis that is displaced. -/
def Touched (s : TransSt α) (l : PyLine α) : Prop := (l.x ≠ none ∧ s.tx ≠ 0) ∨ (l.y ≠ none ∧ s.ty ≠ 0)

/-- The line displaced. -/
def displaced (tx ty : α) (l : PyLine α) : PyLine α := { l with x := l.x.map (· + tx), y := l.y.map (· + ty) }

theorem translateMove_touched (s : TransSt α) (l : PyLine α) :
    (Touched s l → translateMove s l = unsplit (displaced s.tx s.ty l)) ∧ (¬ Touched s l → translateMove s l = l) := by
  unfold Touched translateMove displaced
  rcases l with ⟨raw, command, x, y, z, e, f, i, j, im, rel, relE, cx, cy, cz, ce, cf, ct, ex⟩
  by_cases hx : s.tx = 0 <;> by_cases hy : s.ty = 0 <;> cases x <;> cases y <;> simp [hx, hy, unsplit]

theorem unsplit_args {a b : PyLine α} (h : SameArgs a b) : (unsplit a).raw = (unsplit b).raw := by
  obtain ⟨h1, h2, h3, h4, h5, h6, h7, h8⟩ := h
  simp only [unsplit]
  rw [h1, h2, h3, h4, h5, h6, h7, h8]

/-- Moving twice writes what moving once writes, if nothing cancels. -/
theorem translateMove_twice {s1 s2 s3 : TransSt α} {l l1 : PyLine α} (hr : l1.raw = (translateMove s1 l).raw) (ha : SameArgs (translateMove s1 l) l1)
    (hx : s3.tx = s1.tx + s2.tx) (hy : s3.ty = s1.ty + s2.ty) (cx : s1.tx = 0 ∧ s2.tx = 0 ∨ s3.tx ≠ 0) (cy : s1.ty = 0 ∧ s2.ty = 0 ∨ s3.ty ≠ 0) :
    (translateMove s2 l1).raw = (translateMove s3 l).raw := by
  obtain ⟨a1, a2, a3, a4, a5, a6, a7, a8⟩ := translateMove_args s1 l
  obtain ⟨b1, b2, b3, b4, b5, b6, b7, b8⟩ := ha
  have x1 : l1.x = l.x.map (· + s1.tx) := b2.symm.trans a1
  have y1 : l1.y = l.y.map (· + s1.ty) := b3.symm.trans a2
  have n1 : l1.x = none ↔ l.x = none := by rw [x1]; simp
  have n2 : l1.y = none ↔ l.y = none := by rw [y1]; simp
  have hD : SameArgs (displaced s2.tx s2.ty l1) (displaced s3.tx s3.ty l) := by
    refine ⟨b1.symm.trans a8, ?_, ?_, b4.symm.trans a3, b5.symm.trans a4, b6.symm.trans a5, b7.symm.trans a6, b8.symm.trans a7⟩
    · simp only [displaced, x1, hx]; cases l.x <;> simp [add_assoc]
    · simp only [displaced, y1, hy]; cases l.y <;> simp [add_assoc]
  by_cases t2 : Touched s2 l1
  · have t3 : Touched s3 l := by
      rcases t2 with ⟨k1, k2⟩ | ⟨k1, k2⟩
      · refine .inl ⟨fun h => k1 (n1.2 h), ?_⟩
        rcases cx with c | c
        · exact absurd c.2 k2
        · exact c
      · refine .inr ⟨fun h => k1 (n2.2 h), ?_⟩
        rcases cy with c | c
        · exact absurd c.2 k2
        · exact c
    rw [(translateMove_touched s2 l1).1 t2, (translateMove_touched s3 l).1 t3]
    exact unsplit_args hD
  · rw [(translateMove_touched s2 l1).2 t2, hr]
    by_cases t1 : Touched s1 l
    · have t3 : Touched s3 l := by
        rcases t1 with ⟨k1, k2⟩ | ⟨k1, k2⟩
        · refine .inl ⟨k1, ?_⟩
          rcases cx with c | c
          · exact absurd c.1 k2
          · exact c
        · refine .inr ⟨k1, ?_⟩
          rcases cy with c | c
          · exact absurd c.1 k2
          · exact c
      rw [(translateMove_touched s1 l).1 t1, (translateMove_touched s3 l).1 t3]
      apply unsplit_args
      unfold Touched at t2
      refine ⟨rfl, ?_, ?_, rfl, rfl, rfl, rfl, rfl⟩
      · simp only [displaced, hx]
        by_cases h : l.x = none
        · rw [h]; rfl
        · have : s2.tx = 0 := by
            by_contra hne
            exact t2 (.inl ⟨fun k => h (n1.1 k), hne⟩)
          rw [this, add_zero]
      · simp only [displaced, hy]
        by_cases h : l.y = none
        · rw [h]; rfl
        · have : s2.ty = 0 := by
            by_contra hne
            exact t2 (.inr ⟨fun k => h (n2.1 k), hne⟩)
          rw [this, add_zero]
    · have t3 : ¬ Touched s3 l := by
        intro t3
        rcases t3 with ⟨k1, k2⟩ | ⟨k1, k2⟩
        · rw [hx] at k2
          by_cases h1 : s1.tx = 0
          · refine t2 (.inl ⟨fun h => k1 (n1.1 h), fun h2 => k2 (by rw [h1, h2, add_zero])⟩)
          · exact t1 (.inl ⟨k1, h1⟩)
        · rw [hy] at k2
          by_cases h1 : s1.ty = 0
          · refine t2 (.inr ⟨fun h => k1 (n2.1 h), fun h2 => k2 (by rw [h1, h2, add_zero])⟩)
          · exact t1 (.inr ⟨k1, h1⟩)
      rw [(translateMove_touched s1 l).2 t1, (translateMove_touched s3 l).2 t3]

theorem scan_twice (ls : List (PyLine α)) : ∀ {s1 s2 s3 : TransSt α} {ls1 : List (PyLine α)},
    List.Forall₂ (fun l l' : PyLine α => l'.raw = l.raw ∧ SameArgs l l') (scan transLine s1 ls).2 ls1 →
    (∀ l ∈ ls, ¬ HasCmd l c!"G92") → s1.absMode = s2.absMode → s1.absMode = s3.absMode →
    s3.tx = s1.tx + s2.tx → s3.ty = s1.ty + s2.ty → (s1.tx = 0 ∧ s2.tx = 0 ∨ s3.tx ≠ 0) → (s1.ty = 0 ∧ s2.ty = 0 ∨ s3.ty ≠ 0) →
    (scan transLine s2 ls1).2.map (·.raw) = (scan transLine s3 ls).2.map (·.raw) := by
  induction ls with
  | nil =>
    intro s1 s2 s3 ls1 h _ _ _ _ _ _ _
    simp only [scan] at h
    cases h
    rfl
  | cons l ls ih =>
    intro s1 s2 s3 ls1 h h92 m2 m3 hx hy cx cy
    simp only [scan] at h
    cases h with
    | @cons _ l1 _ ls1 h1 h2 =>
      have h92l := h92 l (by simp)
      have hc : l1.command = l.command := h1.2.1.symm.trans (transLine_command s1 l)
      simp only [scan, List.map_cons]
      by_cases hm : IsMove l
      · rw [transLine_move ((isMove_congr hc).2 hm), transLine_move hm]
        rw [transLine_move hm] at h1 h2
        congr 1
        · simp only at h1 ⊢
          rw [← m2, ← m3]
          by_cases hab : s1.absMode = some true
          · rw [if_pos hab, if_pos hab]
            rw [if_pos hab] at h1
            exact translateMove_twice h1.1 h1.2 hx hy cx cy
          · rw [if_neg hab, if_neg hab]
            rw [if_neg hab] at h1
            exact h1.1
        · exact ih h2 (fun l hl => h92 l (by simp [hl])) m2 m3 hx hy cx cy
      · rw [transLine_stay (fun k => hm ((isMove_congr hc).1 k)) (fun k => h92l ((hasCmd_congr hc _).1 k)), transLine_stay hm h92l]
        rw [transLine_stay hm h92l] at h1 h2
        congr 1
        · exact h1.1
        · refine ih h2 (fun l hl => h92 l (by simp [hl])) ?_ ?_ hx hy cx cy
          · simp only [hasCmd_congr hc, m2]
          · simp only [m3]

theorem short_displaced {l : PyLine α} {tx ty : α} (h : ShortNumbers l) (hx : ∃ k : ℤ, tx = k / 10 ^ 3) (hy : ∃ k : ℤ, ty = k / 10 ^ 3) :
    ShortNumbers (displaced tx ty l) := by
  obtain ⟨h1, h2⟩ := h
  obtain ⟨kx, rfl⟩ := hx
  obtain ⟨ky, rfl⟩ := hy
  have add : ∀ (o : Option α) (q : ℤ), (∀ v, o = some v → ∃ k : ℤ, v = k / 10 ^ 3) → ∀ v : α, o.map (· + (q : α) / 10 ^ 3) = some v → ∃ k : ℤ, v = k / 10 ^ 3 := by
    intro o q ho v hv
    cases o with
    | none => cases hv
    | some w =>
      obtain ⟨k, rfl⟩ := ho w rfl
      simp only [Option.map_some, Option.some.injEq] at hv
      exact ⟨k + q, by rw [← hv]; push_cast; ring⟩
  refine ⟨?_, h2⟩
  intro o ho
  simp only [List.mem_cons, List.not_mem_nil, or_false] at ho
  rcases ho with rfl | rfl | rfl | rfl | rfl | rfl
  · exact add _ _ (h1 l.x (by simp))
  · exact add _ _ (h1 l.y (by simp))
  · exact h1 l.z (by simp)
  · exact h1 l.f (by simp)
  · exact h1 l.i (by simp)
  · exact h1 l.j (by simp)

theorem scan_reads {tx ty : α} (hx : ∃ k : ℤ, tx = k / 10 ^ 3) (hy : ∃ k : ℤ, ty = k / 10 ^ 3) (ls : List (PyLine α)) : ∀ {s : TransSt α},
    s.tx = tx → s.ty = ty → (∀ l ∈ ls, ¬ HasCmd l c!"G92") → (∀ l ∈ ls, ReadsSame l) → (∀ l ∈ ls, IsMove l → ShortNumbers l) →
    ∀ l ∈ (scan transLine s ls).2, ReadsSame l ∧ (IsMove l → ShortNumbers l) := by
  induction ls with
  | nil => intro s _ _ _ _ _ l hl; cases hl
  | cons a ls ih =>
    intro s sx sy h92 hr hs l hl
    obtain ⟨k1, k2, _⟩ := transLine_g92free s a (h92 a (by simp))
    simp only [scan, List.mem_cons] at hl
    rcases hl with rfl | hl
    · by_cases hm : IsMove a
      · rw [transLine_move hm]
        simp only
        split_ifs
        · by_cases ht : Touched s a
          · rw [(translateMove_touched s a).1 ht]
            have hd := short_displaced (hs a (by simp) hm) hx hy
            rw [sx, sy]
            exact ⟨readsSame_unsplit (.inl hm) hd, fun _ => hd⟩
          · rw [(translateMove_touched s a).2 ht]
            exact ⟨hr a (by simp), hs a (by simp)⟩
        · exact ⟨hr a (by simp), hs a (by simp)⟩
      · rw [transLine_stay hm (h92 a (by simp))]
        exact ⟨hr a (by simp), hs a (by simp)⟩
    · exact ih (k1.trans sx) (k2.trans sy) (fun l hl => h92 l (by simp [hl])) (fun l hl => hr l (by simp [hl])) (fun l hl => hs l (by simp [hl])) l hl

end GCodeUtils
