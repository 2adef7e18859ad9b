import Verif.Lemmas.ReadsBack
import Verif.Lemmas.Analysis
import Verif.Lemmas.Write
import Verif.Props.Format

/-
  Reading again what was written: which lines come back equal.
-/

set_option linter.unusedSectionVars false

namespace GCodeUtils

open Spec

variable {α : Type} [Field α] [LinearOrder α] [IsStrictOrderedRing α] [FloorRing α]

/-- Whether the words of a line can be read does not depend on the line they are stored in. -/
theorem fold_parse_free {u u' : α} (toks : List Tok) : ∀ {l l2 l' : PyLine α}, toks.foldlM (parseTok u) l = .ok l2 →
    ∃ l2', toks.foldlM (parseTok u') l' = .ok l2' := by
  induction toks with
  | nil => intro l l2 l' _; exact ⟨l', rfl⟩
  | cons t ts ih =>
    intro l l2 l' h
    rw [foldlM_cons_ok] at h
    obtain ⟨l1, h1, h2⟩ := h
    have : ∃ l1', parseTok u' l' t = .ok l1' := by
      unfold parseTok at h1 ⊢
      cases t with
      | none => exact ⟨_, rfl⟩
      | some p =>
        obtain ⟨c, v⟩ := p
        simp only at h1 ⊢
        split_ifs at h1 ⊢ with hc
        · cases hv : (parseFloat v : Option α) with
          | none => rw [hv] at h1; simp at h1
          | some a => exact ⟨_, rfl⟩
        · exact ⟨_, rfl⟩
    obtain ⟨l1', h1'⟩ := this
    obtain ⟨l2', h2'⟩ := ih (l' := l1') h2
    exact ⟨l2', by rw [foldlM_cons_ok]; exact ⟨l1', h1', h2'⟩⟩

/-- Reading a line depends on the state of the machine only through the unit. -/
theorem processLine_free {home home' : Home α} {m m' m1 : Machine α} {r : Str} {l : PyLine α}
    (hp : processLine home m { raw := r } = .ok (m', l)) (hi : m1.imperial = m.imperial) :
    ∃ m1' l1, processLine home' m1 { raw := r } = .ok (m1', l1) ∧ SameArgs l l1 ∧ m1'.imperial = m'.imperial := by
  have ok : ∃ m1' l1, processLine home' m1 { raw := r } = .ok (m1', l1) := by
    rcases processLine_ok hp with ⟨hc, _, _⟩ | ⟨cmd, hc, hne, m2, l2, l3, m4, l4, h1, h2, h3, rfl, rfl⟩
    · unfold processLine
      simp only
      rcases hc with hc | hc <;> rw [hc] <;> exact ⟨_, _, rfl⟩
    · rw [processLine_eq_core]
      unfold processCore
      simp only [hc]
      rw [if_neg (by simpa [List.isEmpty_iff] using hne)]
      have hm : ∃ m5 l5, stepModes m1 (split ({ raw := r } : PyLine α)).1 cmd = .ok (m5, l5) ∧ l5.command = some cmd := by
        unfold stepModes at h1 ⊢
        split_ifs at h1 ⊢ with a1 a2 a3 a4 a5 a6 a7 a8
        · exact ⟨_, _, rfl, hc⟩
        · exact ⟨_, _, rfl, hc⟩
        · exact ⟨_, _, rfl, hc⟩
        · exact ⟨_, _, rfl, hc⟩
        · exact ⟨_, _, rfl, hc⟩
        · exact ⟨_, _, rfl, hc⟩
        · exact ⟨_, _, rfl, hc⟩
        · cases hv : parseInt cmd.tail with
          | none => rw [hv] at h1; simp at h1
          | some t => exact ⟨_, _, rfl, hc⟩
        · exact ⟨_, _, rfl, hc⟩
      obtain ⟨m5, l5, e1, e2⟩ := hm
      rw [e1]
      simp only
      have hcmd2 : l2.command = some cmd := by
        rcases stepModes_shape h1 with ⟨_, _, k1⟩ | ⟨_, k1, _⟩ <;> rw [k1] <;> exact hc
      have hq : ∃ l6, (if cmd.head? = some 'G' then parseCoordinates l5 (split ({ raw := r } : PyLine α)).2 m5.imperial else .ok l5) = .ok l6 := by
        split_ifs at h2 ⊢ with hG
        · unfold parseCoordinates at h2 ⊢
          rw [hcmd2] at h2
          rw [e2]
          simp only at h2 ⊢
          rw [if_neg (by simpa using hG)] at h2 ⊢
          exact fold_parse_free _ h2
        · exact ⟨_, rfl⟩
      obtain ⟨l6, e3⟩ := hq
      rw [e3]
      exact ⟨_, _, rfl⟩
  obtain ⟨m1', l1, ok⟩ := ok
  refine ⟨m1', l1, ok, ?_⟩
  have hc : l1.command = l.command := (processLine_keeps ok).2.1.trans (processLine_keeps hp).2.1.symm
  have i1 := process_imperial hp
  have i2 := process_imperial ok
  have him : m1'.imperial = m'.imperial := by rw [i2.1, i1.1, hc, hi]
  refine ⟨?_, him⟩
  obtain ⟨ws, hws, _⟩ := C76_unique (lower r)
  obtain ⟨e1, e2, e3, e4⟩ := C76_line home hp ws hws
  obtain ⟨f1, f2, f3, f4⟩ := C76_line home' ok ws hws
  have key : ∀ k ∈ c!"xyzefij", l.arg k = l1.arg k := by
    intro k hk
    by_cases hg : (commandOf r ws).bind (·.head?) = some 'G'
    · obtain ⟨cmd, h1, h2⟩ : ∃ cmd, l.command = some cmd ∧ cmd.head? = some 'G' := by
        rw [← e2] at hg
        cases hl : l.command with
        | none => rw [hl] at hg; cases hg
        | some c => rw [hl] at hg; exact ⟨c, rfl, hg⟩
      rw [i1.2 cmd h1 h2 k hk, i2.2 cmd (hc.trans h1) h2 k hk, him]
    · have a1 := e3 hg k hk
      have a2 := f3 hg k hk
      rw [argField_arg] at a1 a2
      rw [a1, a2]
  exact ⟨hc.symm, key 'x' (by decide), key 'y' (by decide), key 'z' (by decide), key 'e' (by decide), key 'f' (by decide), key 'i' (by decide), key 'j' (by decide)⟩

theorem eq_of_sameArgs {a b : PyLine α} (h : SameArgs a b) : a.eq b = true := by
  obtain ⟨h1, h2, h3, h4, h5, h6, h7, h8⟩ := h
  have := C13_refl a
  unfold PyLine.eq at this ⊢
  rw [← h1, ← h2, ← h3, ← h4, ← h5, ← h6, ← h7, ← h8]
  exact this

/-- A line whose own text, read in millimetres, gives a line that compares equal to it. -/
structure Saves (l : PyLine α) : Prop where
  text : strip l.raw = l.raw ∧ l.raw ≠ [] ∧ '\n' ∉ l.raw
  metric : ¬ HasCmd l c!"G20"
  reads : ∀ (home : Home α) (m : Machine α), m.imperial = false → ∃ m' l', processLine home m { raw := l.raw } = .ok (m', l') ∧ l.eq l' = true
  dwell : HasCmd l c!"G4" → ∃ v : Option α, findSpecificCode l.raw 'P' = .ok v

theorem eq_command {a b : PyLine α} (h : a.eq b = true) : a.command = b.command := ((C13_eq_iff a b).1 h).1

theorem saves_imperial {l l' : PyLine α} (h : Saves l) {home : Home α} {m m' : Machine α} (hp : processLine home m { raw := l.raw } = .ok (m', l'))
    (he : l.eq l' = true) (hm : m.imperial = false) : m'.imperial = false := by
  have := (process_imperial hp).1
  rw [this, ← eq_command he, if_neg (by exact h.metric), hm]
  split_ifs <;> rfl

theorem run_saves {home : Home α} (ls : List (PyLine α)) : ∀ {m m' : Machine α} {out : List (PyLine α)},
    Run home m (bare (ls.map (·.raw))) m' out → m.imperial = false → (∀ l ∈ ls, Saves l) →
    m'.imperial = false ∧ List.Forall₂ (fun l l' => l'.raw = l.raw ∧ l.eq l' = true) ls out := by
  induction ls with
  | nil => intro m m' out h hm _; cases h; exact ⟨hm, .nil⟩
  | cons l ls ih =>
    intro m m' out h hm hs
    simp only [bare, List.map_cons] at h
    cases h with
    | cons hp hr =>
      obtain ⟨m1, l1, h1, h2⟩ := (hs l (by simp)).reads home m hm
      rw [hp] at h1
      obtain ⟨rfl, rfl⟩ := Prod.mk.inj (Except.ok.inj h1)
      obtain ⟨h3, h4⟩ := ih hr (saves_imperial (hs l (by simp)) hp h2 hm) (fun l hl => hs l (by simp [hl]))
      exact ⟨h3, .cons ⟨(processLine_keeps hp).1, h2⟩ h4⟩

/-- Loading the written text of lines that save. -/
theorem load_saves (env : Env α) (home : Home α) (ls : List (PyLine α)) (hs : ∀ l ∈ ls, Saves l) :
    GCode.load env (readlines (ls.flatMap (fun l => l.raw ++ ['\n']))) false home = .error .zeroDivision ∨
    ∃ g, GCode.load env (readlines (ls.flatMap (fun l => l.raw ++ ['\n']))) false home = .ok g ∧
      List.Forall₂ (fun l l' => l'.raw = l.raw ∧ l.eq l' = true) ls g.lines := by
  have hw : ls.flatMap (fun l => l.raw ++ ['\n']) = (ls.map (·.raw)).flatMap (fun t => t ++ ['\n']) := by rw [List.flatMap_map]
  have hread : (readLines (readlines (ls.flatMap (fun l => l.raw ++ ['\n']))) : List (PyLine α)) = bare (ls.map (·.raw)) := by
    rw [hw, readLines_readlines]
    · rfl
    · intro t ht
      obtain ⟨l, hl, rfl⟩ := List.mem_map.1 ht
      exact (hs l hl).text
  cases hg : GCode.load env (readlines (ls.flatMap (fun l => l.raw ++ ['\n']))) false home with
  | ok g =>
    refine .inr ⟨g, rfl, ?_⟩
    obtain ⟨out, hr, ho⟩ := load_run hg
    rw [hread] at hr
    simp only [Bool.false_eq_true, if_false] at ho
    rw [ho]
    exact (run_saves ls hr rfl hs).2
  | error e =>
    left
    obtain ⟨hd, hf⟩ := load_error hg
    rw [hread] at hf
    obtain ⟨pre, b, post, s, hsp, hpre, hb⟩ := foldlM_error hf
    obtain ⟨pre', rest, e1, e2, e3⟩ : ∃ a c, ls = a ++ c ∧ pre = bare (a.map (·.raw)) ∧ b :: post = bare (c.map (·.raw)) := by
      simp only [bare, List.map_map] at hsp ⊢
      obtain ⟨a, c, h1, h2, h3⟩ := List.map_eq_append_iff.1 hsp
      exact ⟨a, c, h1, h2.symm, h3.symm⟩
    obtain ⟨l, rest', rfl⟩ : ∃ l r, rest = l :: r := by
      cases rest with
      | nil => simp [bare] at e3
      | cons l r => exact ⟨l, r, rfl⟩
    simp only [bare, List.map_cons, List.cons.injEq] at e3
    have hl : Saves l := hs l (by rw [e1]; simp)
    obtain ⟨out, hr, _⟩ := fold_run hpre
    rw [e2] at hr
    have him := (run_saves pre' hr rfl (fun l hl => hs l (by rw [e1]; simp [hl]))).1
    obtain ⟨m1, l1, p1, p2⟩ := hl.reads home s.m him
    rw [← e3.1] at p1
    rcases buildStep_error hb with hb | ⟨m, l', hp, hd⟩
    · rw [p1] at hb; simp at hb
    · rw [p1] at hp
      obtain ⟨rfl, rfl⟩ := Prod.mk.inj (Except.ok.inj hp)
      rcases stepDur_error hd with ⟨rfl, _⟩ | ⟨_, h4, h5⟩
      · rfl
      · obtain ⟨v, hv⟩ := hl.dwell ((eq_command p2).trans h4)
        rw [(processLine_keeps p1).1, e3.1] at h5
        rw [hv] at h5; simp at h5

/-! ### loaded lines -/

theorem fold_readings {env : Env α} {home : Home α} (rs : List Str) : ∀ {s s' : BuildSt α}, (bare rs).foldlM (buildStep env false home) s = .ok s' →
    s.m.imperial = false → (∀ l ∈ s'.done, ¬ HasCmd l c!"G20") → ∃ out, s'.done = s.done ++ out ∧
      List.Forall₂ (fun r l => l.raw = r ∧ ∃ m m', m.imperial = false ∧ processLine home m { raw := r } = .ok (m', l) ∧
        (HasCmd l c!"G4" → ∃ v : Option α, findSpecificCode l.raw 'P' = .ok v)) rs out := by
  induction rs with
  | nil =>
    intro s s' h _ _
    simp only [bare, List.map_nil, List.foldlM_nil, pure, Except.pure, Except.ok.injEq] at h
    subst h
    exact ⟨[], by simp, .nil⟩
  | cons r rs ih =>
    intro s s' h hm h20
    have hb : (bare (r :: rs) : List (PyLine α)) = { raw := r } :: bare rs := rfl
    rw [hb, foldlM_cons_ok] at h
    obtain ⟨t, h1, h2⟩ := h
    obtain ⟨l, hp, hd⟩ := buildStep_m h1
    have hd' : t.done = s.done ++ [l] := by rw [hd]; rfl
    have hin : l ∈ s'.done := by
      obtain ⟨out, _, ho⟩ := fold_run h2
      rw [ho, hd']; simp
    have hti : t.m.imperial = false := by
      rw [(process_imperial hp).1, if_neg (by exact h20 l hin), hm]; split_ifs <;> rfl
    obtain ⟨out, e1, e2⟩ := ih h2 hti h20
    refine ⟨l :: out, by rw [e1, hd']; simp, .cons ⟨(processLine_keeps hp).1, s.m, t.m, hm, hp, ?_⟩ e2⟩
    intro h4
    obtain ⟨m2, l2, hp2, hh⟩ := buildStep_ok h1
    rw [hp] at hp2
    obtain ⟨rfl, rfl⟩ := Prod.mk.inj (Except.ok.inj hp2)
    rcases hh with ⟨hn, _⟩ | ⟨cmd, ds, hcmd, _, hdur, _⟩
    · exfalso
      rw [HasCmd] at h4
      rcases hn with hn | hn <;> rw [h4] at hn <;> simp at hn
    · unfold stepDur at hdur
      have n0 : (l.isCmd c!"G0" || l.isCmd c!"G1") = false := by
        unfold PyLine.isCmd
        rw [HasCmd] at h4
        rw [h4]; decide
      have n4 : l.isCmd c!"G4" = true := by
        unfold PyLine.isCmd
        rw [HasCmd] at h4
        rw [h4]; decide
      rw [n0, n4] at hdur
      simp only [Bool.false_eq_true, if_false, if_true] at hdur
      cases hv : (findSpecificCode l.raw 'P' : Except Err (Option α)) with
      | error e => rw [hv] at hdur; simp at hdur
      | ok v => exact ⟨v, rfl⟩

/-- Every line of a loaded program in millimetres saves. -/
theorem saves_loaded {env : Env α} {data : List Str} {home : Home α} {g : GCode α} (h : GCode.load env data false home = .ok g)
    (h20 : ∀ l ∈ g.lines, ¬ HasCmd l c!"G20") (hn : ∀ l ∈ g.lines, '\n' ∉ l.raw) : ∀ l ∈ g.lines, Saves l := by
  have hraw := load_raws h
  intro l hl
  have htext : strip l.raw = l.raw ∧ l.raw ≠ [] ∧ '\n' ∉ l.raw := by
    have : l.raw ∈ (data.map strip).filter (fun s => !s.isEmpty) := by rw [← hraw]; exact List.mem_map_of_mem hl
    rw [List.mem_filter, List.mem_map] at this
    obtain ⟨⟨s, _, he⟩, h2⟩ := this
    exact ⟨by rw [← he, strip_strip], by simpa [List.isEmpty_iff] using h2, hn l hl⟩
  rcases load_ok h with ⟨rfl, rfl⟩ | ⟨_, s, hs, rfl⟩
  · simp [GCode.blank] at hl
  · have e0 : (finalize (GCode.blank false home) s).lines = s.done := rfl
    rw [e0] at hl h20
    rw [readLines_bare] at hs
    obtain ⟨out, e1, e2⟩ := fold_readings _ hs rfl h20
    rw [e1] at hl
    simp only [BuildSt.start, List.nil_append] at hl
    obtain ⟨r, _, hr⟩ : ∃ r ∈ (data.map strip).filter (fun s => !s.isEmpty), l.raw = r ∧ ∃ m m', m.imperial = false ∧ processLine home m { raw := r } = .ok (m', l) ∧
        (HasCmd l c!"G4" → ∃ v : Option α, findSpecificCode l.raw 'P' = .ok v) := by
      clear hs e1 htext hraw
      generalize (data.map strip).filter (fun s => !s.isEmpty) = rs at e2 ⊢
      induction e2 with
      | nil => cases hl
      | cons hh _ ih =>
        rcases List.mem_cons.1 hl with rfl | hl
        · exact ⟨_, by simp, hh⟩
        · obtain ⟨r, h1, h2⟩ := ih hl
          exact ⟨r, List.mem_cons_of_mem _ h1, h2⟩
    obtain ⟨rfl, m, m', hm, hp, h4⟩ := hr
    refine ⟨htext, h20 l (by rw [e1]; simpa [BuildSt.start] using hl), ?_, h4⟩
    intro home' m1 hm1
    obtain ⟨m1', l1, a1, a2, _⟩ := processLine_free (home' := home') hp (m1 := m1) (by rw [hm1, hm])
    exact ⟨m1', l1, a1, eq_of_sameArgs a2⟩

/-! ### rebuilt lines -/

/-- The commands the filters rebuild the text of. -/
def Rebuilds (l : PyLine α) : Prop := IsMove l ∨ HasCmd l c!"G92"

theorem rebuilds_number {l : PyLine α} (h : Rebuilds l) : ∃ n, l.command = some ('G' :: n) ∧ n ∈ [c!"0", c!"1", c!"2", c!"3", c!"92"] := by
  rcases h with ⟨c, hc, hl⟩ | h
  · simp only [List.mem_cons, List.not_mem_nil, or_false] at hc
    rcases hc with rfl | rfl | rfl | rfl
    · exact ⟨_, hl, by decide⟩
    · exact ⟨_, hl, by decide⟩
    · exact ⟨_, hl, by decide⟩
    · exact ⟨_, hl, by decide⟩
  · exact ⟨_, h, by decide⟩

theorem argsText_chars (args : List (Char × ℕ × Option α)) (ha : ∀ a ∈ args, a.1 ∈ c!"XYZEFIJ") :
    (∀ c ∈ argsText args, c ∈ c!" XYZEFIJ0123456789.+-") ∧ ∀ c, (argsText args).getLast? = some c → c ∈ c!"0123456789.+-" := by
  induction args with
  | nil => exact ⟨by simp [argsText], by simp [argsText]⟩
  | cons a args ih =>
    obtain ⟨i1, i2⟩ := ih (fun a h => ha a (by simp [h]))
    have e : argsText (a :: args) = fmtArg a.1 a.2.1 a.2.2 ++ argsText args := by simp [argsText]
    have hl := ha a (by simp)
    rw [e]
    have sub : ∀ c ∈ c!"0123456789.+-", c ∈ c!" XYZEFIJ0123456789.+-" := by decide
    have sub2 : ∀ c ∈ c!"XYZEFIJ", c ∈ c!" XYZEFIJ0123456789.+-" := by decide
    obtain ⟨c, d, v⟩ := a
    cases v with
    | none => exact ⟨by simpa [fmtArg] using i1, by simpa [fmtArg] using i2⟩
    | some v =>
      constructor
      · intro k hk
        simp only [fmtArg, List.cons_append, List.mem_cons, List.mem_append] at hk
        rcases hk with rfl | rfl | hk | hk
        · decide
        · exact sub2 _ hl
        · exact sub _ (fmtFixed_chars d v k hk)
        · exact i1 k hk
      · intro k hk
        by_cases hr : argsText args = []
        · rw [hr, List.append_nil] at hk
          have hne := fmtFixed_ne_nil d v
          rw [fmtArg, show (' ' :: c :: fmtFixed d v) = [' ', c] ++ fmtFixed d v from rfl, List.getLast?_append_of_ne_nil _ hne] at hk
          exact fmtFixed_chars d v k (List.mem_of_getLast? hk)
        · rw [List.getLast?_append_of_ne_nil _ hr] at hk
          exact i2 k hk

theorem unsplit_text {l : PyLine α} (h : Rebuilds l) : strip (unsplit l).raw = (unsplit l).raw ∧ (unsplit l).raw ≠ [] ∧ '\n' ∉ (unsplit l).raw ∧
    ¬ Nested (unsplit l).raw := by
  obtain ⟨n, hcmd, hn⟩ := rebuilds_number h
  have hargs : ∀ a ∈ lineArgs l, a.1 ∈ c!"XYZEFIJ" := by
    intro a ha
    simp only [lineArgs, List.mem_cons, List.not_mem_nil, or_false] at ha
    rcases ha with rfl | rfl | rfl | rfl | rfl | rfl | rfl <;> (dsimp only; decide)
  obtain ⟨c1, c2⟩ := argsText_chars (lineArgs l) hargs
  have hr : (unsplit l).raw = 'G' :: (n ++ argsText (lineArgs l)) := by rw [unsplit_raw, hcmd]; rfl
  have hnd : ∀ c ∈ n, c ∈ c!"0123456789.+-" := by
    have : ∀ n ∈ [c!"0", c!"1", c!"2", c!"3", c!"92"], ∀ c ∈ n, c ∈ c!"0123456789.+-" := by decide
    exact this n hn
  have hne : n ≠ [] := by
    have : ∀ n ∈ [c!"0", c!"1", c!"2", c!"3", c!"92"], n ≠ [] := by decide
    exact this n hn
  have hsp : ∀ c ∈ c!"0123456789.+-", isSpace c = false := by decide
  rw [hr]
  refine ⟨strip_of_ends ?_ ?_, by simp, ?_, ?_⟩
  · intro c hc
    simp only [List.head?_cons, Option.some.injEq] at hc
    subst hc; decide
  · intro c hc
    by_cases hnil : argsText (lineArgs l) = []
    · rw [hnil, List.append_nil, show ('G' :: n) = ['G'] ++ n from rfl, List.getLast?_append_of_ne_nil _ hne] at hc
      exact hsp c (hnd c (List.mem_of_getLast? hc))
    · rw [show ('G' :: (n ++ argsText (lineArgs l))) = ('G' :: n) ++ argsText (lineArgs l) from rfl, List.getLast?_append_of_ne_nil _ hnil] at hc
      exact hsp c (c2 c hc)
  · intro hc
    rcases List.mem_cons.1 hc with hc | hc
    · revert hc; decide
    · rcases List.mem_append.1 hc with hc | hc
      · exact absurd (hnd _ hc) (by decide)
      · exact absurd (c1 _ hc) (by decide)
  · rintro ⟨hh, _⟩
    simp at hh

theorem numLen_rebuilds {n : Str} (hn : n ∈ [c!"0", c!"1", c!"2", c!"3", c!"92"]) : numLen n = n.length ∧ IsDecimal n := by
  have : ∀ n ∈ [c!"0", c!"1", c!"2", c!"3", c!"92"], numLen n = n.length ∧ n ≠ [] ∧ ∀ c ∈ n, c ∈ c!"0123456789" := by decide
  obtain ⟨h1, h2, h3⟩ := this n hn
  exact ⟨h1, n, h2, h3, .inl rfl⟩

/-- A rebuilt line saves. -/
theorem saves_unsplit {l : PyLine α} (h : Rebuilds l) : Saves (unsplit l) := by
  obtain ⟨n, hcmd, hn⟩ := rebuilds_number h
  obtain ⟨t1, t2, t3, _⟩ := unsplit_text h
  have hcu : (unsplit l).command = some ('G' :: n) := hcmd
  have hne20 : ∀ n ∈ [c!"0", c!"1", c!"2", c!"3", c!"92"], 'G' :: n ≠ c!"G20" ∧ 'G' :: n ≠ c!"G4" := by decide
  refine ⟨⟨t1, t2, t3⟩, ?_, ?_, ?_⟩
  · intro hc
    rw [HasCmd, hcu, Option.some.injEq] at hc
    exact (hne20 n hn).1 hc
  · intro home m hm
    obtain ⟨l', p1, p2, _⟩ := C12_unsplit_parse l n (numLen_rebuilds hn).2 hcmd
    have heq : l.eq l' = true := by tauto
    have hf := findall_unsplit l 'G' n (by decide) hcmd (numLen_rebuilds hn).1
    have hd : dropN (findall (lower (unsplit l).raw)) = some ('g', n) :: lineToks l := by rw [hf]; rfl
    have hG : ('g' : Char).toUpper = 'G' := by decide
    have hok : ∃ m' l1, processLine home m { raw := (unsplit l).raw } = .ok (m', l1) := by
      rw [processLine_eq_core, split_eq ({ raw := (unsplit l).raw } : PyLine α) hd]
      unfold processCore
      simp only [hG, List.isEmpty_cons, Bool.false_eq_true, if_false]
      have hmode : ∃ m1 l1, stepModes m ({ raw := (unsplit l).raw, command := some ('G' :: n), isMove := moveGcodes.contains ('G' :: n) } : PyLine α) ('G' :: n) = .ok (m1, l1) ∧ l1.command = some ('G' :: n) := by
        unfold stepModes
        simp only [List.head?_cons]
        split_ifs with a1 a2 a3 a4 a5 a6 a7 a8
        · exact ⟨_, _, rfl, rfl⟩
        · exact ⟨_, _, rfl, rfl⟩
        · exact ⟨_, _, rfl, rfl⟩
        · exact ⟨_, _, rfl, rfl⟩
        · exact ⟨_, _, rfl, rfl⟩
        · exact ⟨_, _, rfl, rfl⟩
        · exact ⟨_, _, rfl, rfl⟩
        · exact absurd a8 (by decide)
        · exact ⟨_, _, rfl, rfl⟩
      obtain ⟨m1, l1, e1, e2⟩ := hmode
      rw [e1]
      simp only [List.head?_cons, if_true]
      have hc : ∃ l2, parseCoordinates l1 (some ('g', n) :: lineToks l) m1.imperial = .ok l2 := by
        unfold parseCoordinates
        rw [e2]
        simp only [List.head?_cons, ne_eq, not_true, if_false]
        rw [show ∀ u : α, (some ('g', n) :: lineToks l).foldlM (parseTok u) l1 = (lineToks l).foldlM (parseTok u) l1 from fun u => by
          rw [List.foldlM_cons]
          have : parseTok u l1 (some ('g', n)) = .ok l1 := by
            unfold parseTok; simp only; rw [if_neg (by simp [nonArgLetters])]
          rw [this]; rfl, fold_lineToks]
        exact ⟨_, rfl⟩
      obtain ⟨l2, hl2⟩ := hc
      rw [hl2]
      exact ⟨_, _, rfl⟩
    obtain ⟨m', l1, hok⟩ := hok
    refine ⟨m', l1, hok, ?_⟩
    have hc1 : l1.command = some ('G' :: n) := by
      rw [(processLine_keeps hok).2.1, split_eq ({ raw := (unsplit l).raw } : PyLine α) hd, hG]
    have him : m'.imperial = false := by
      rw [(process_imperial hok).1, hc1, if_neg (by simpa using (hne20 n hn).1), hm]; split_ifs <;> rfl
    have key : ∀ k ∈ c!"xyzefij", l'.arg k = l1.arg k := by
      intro k hk
      rw [(process_imperial hok).2 _ hc1 rfl k hk, him]
      simp only [Bool.false_eq_true, if_false]
      unfold parseCoordinates at p1
      have hcr : (rawToLine (unsplit l).raw : PyLine α).command = some ('G' :: n) := by
        unfold rawToLine; rw [split_eq ({ raw := (unsplit l).raw } : PyLine α) hd, hG]
      rw [hcr] at p1
      simp only [List.head?_cons, ne_eq, not_true, if_false] at p1
      rw [fold_arg _ p1 k hk]
      have hz : (rawToLine (unsplit l).raw : PyLine α).arg k = none := by
        unfold rawToLine; rw [split_eq ({ raw := (unsplit l).raw } : PyLine α) hd]
        simp only [List.mem_cons, List.not_mem_nil, or_false] at hk
        rcases hk with rfl | rfl | rfl | rfl | rfl | rfl | rfl <;> rfl
      have hw : words (unsplit l).raw = ((split ({ raw := (unsplit l).raw } : PyLine α)).2).filterMap id := by
        rw [split_eq ({ raw := (unsplit l).raw } : PyLine α) hd]
        unfold words
        rw [hf]; rfl
      rw [hz, hw]
      simp
    have hsame : SameArgs l' l1 := ⟨by rw [p2, hc1, hcmd], key 'x' (by decide), key 'y' (by decide), key 'z' (by decide), key 'e' (by decide), key 'f' (by decide), key 'i' (by decide), key 'j' (by decide)⟩
    obtain ⟨h1, h2, h3, h4, h5, h6, h7, h8⟩ := hsame
    unfold PyLine.eq at heq ⊢
    rw [← h1, ← h2, ← h3, ← h4, ← h5, ← h6, ← h7, ← h8]
    exact heq
  · intro hc
    rw [HasCmd, hcu, Option.some.injEq] at hc
    exact absurd hc (hne20 n hn).2

/-- A comment at the end changes nothing. -/
theorem saves_comment {l : PyLine α} (h : Saves l) (hN : ¬ Nested l.raw) (hc : ∃ w rest, dropN (findall (lower l.raw)) = some w :: rest) {t : Str} (ht : Trailing t)
    (hlast : ∀ c, t.getLast? = some c → isSpace c = false) : Saves ({ l with raw := l.raw ++ t } : PyLine α) := by
  have hm := sameMeaning_trailing ht hN h.text.2.2 hc
  have htn : t ≠ [] := by
    obtain ⟨sp, u, rfl, _⟩ := ht.form
    simp
  refine ⟨⟨?_, ?_, ?_⟩, h.metric, ?_, ?_⟩
  · show strip (l.raw ++ t) = l.raw ++ t
    refine strip_of_ends ?_ ?_
    · intro c hc'
      obtain ⟨d, hd⟩ : ∃ d, l.raw.head? = some d := by
        cases hr : l.raw with
        | nil => exact absurd hr h.text.2.1
        | cons d ds => exact ⟨d, rfl⟩
      rw [List.head?_append_of_ne_nil _ h.text.2.1, hd, Option.some.injEq] at hc'
      subst hc'
      have := (strip_isStrip l.raw)
      rw [h.text.1] at this
      by_contra hb
      have hb' : isSpace d = true := by simpa using hb
      have h0 := h.text.1
      unfold strip at h0
      cases hr : l.raw with
      | nil => rw [hr] at hd; simp at hd
      | cons d' ds =>
        rw [hr] at hd h0
        simp only [List.head?_cons, Option.some.injEq] at hd
        subst hd
        rw [List.dropWhile_cons_of_pos hb'] at h0
        have hlen := congrArg List.length h0
        simp only [List.length_reverse, List.length_cons] at hlen
        have l1 := List.length_dropWhile_le isSpace (List.dropWhile isSpace ds).reverse
        have l2 := List.length_dropWhile_le isSpace ds
        simp only [List.length_reverse] at l1
        omega
    · intro c hc'
      rw [List.getLast?_append_of_ne_nil _ htn] at hc'
      exact hlast c hc'
  · show l.raw ++ t ≠ []
    simp [h.text.2.1]
  · show '\n' ∉ l.raw ++ t
    intro hc'
    rcases List.mem_append.1 hc' with hc' | hc'
    · exact h.text.2.2 hc'
    · exact (ht.clean _ hc').2.2 rfl
  · intro home m him
    obtain ⟨m', l', p1, p2⟩ := h.reads home m him
    have := sameMeaning_process hm home m
    rw [p1] at this
    exact ⟨_, _, this, p2⟩
  · intro h4
    obtain ⟨v, hv⟩ := h.dwell h4
    refine ⟨v, ?_⟩
    show findSpecificCode (l.raw ++ t) 'P' = _
    rw [← hv]
    unfold findSpecificCode
    rw [findSpecificAux_append_trailing ht l.raw 0 (by simp) h.text.2.2]

end GCodeUtils
