import Verif.Lemmas.Mod
import Verif.Props.Commute
import Verif.Props.Heater

/-
  C94: the gcode_mod command line with all its options, as a printer sees it.
-/

set_option linter.unusedSectionVars false

namespace GCodeUtils

open Spec

variable {α : Type} [Field α] [LinearOrder α] [IsStrictOrderedRing α] [FloorRing α]

/-- Layers with pauses, as text. -/
theorem withPauses_motion (origin : Pos3 α) (p : Printer α) (Ls : List (Layer α)) (k : ℕ → ℕ) :
    SameMotion origin p ((Ls.flatMap (·.lines)).map (·.raw)) (((withPauses k Ls).flatMap (·.lines)).map (·.raw)) ∧
    ((withPauses k Ls).flatMap (·.lines)).length = (Ls.flatMap (·.lines)).length + ((List.range Ls.length).map k).sum := by
  unfold withPauses
  have key : ∀ (Ls : List (Layer α)) (k : ℕ → ℕ), ∃ marked : List (Str × Bool),
      marked.map (·.1) = ((Ls.mapIdx (fun i L => { L with lines := List.replicate (k i) pauseLine ++ L.lines })).flatMap (·.lines)).map (·.raw) ∧
      (marked.filter (·.2)).map (·.1) = (Ls.flatMap (·.lines)).map (·.raw) ∧
      (∀ m ∈ marked, m.2 = false → ∀ p : Printer α, p.line origin m.1 = p) ∧
      marked.length = (Ls.flatMap (·.lines)).length + ((List.range Ls.length).map k).sum := by
    intro Ls
    induction Ls with
    | nil => intro k; exact ⟨[], rfl, rfl, by simp, rfl⟩
    | cons L Ls ih =>
      intro k
      obtain ⟨marked, h1, h2, h3, h4⟩ := ih (fun i => k (i + 1))
      refine ⟨List.replicate (k 0) (c!"M226", false) ++ L.lines.map (fun l => (l.raw, true)) ++ marked, ?_, ?_, ?_, ?_⟩
      · rw [List.mapIdx_cons, List.flatMap_cons, List.map_append, List.map_append, h1]
        simp [Function.comp_def, (pauseLine_raw (α := α)).1]
      · rw [List.filter_append, List.filter_append, List.map_append, h2]
        have e1 : (List.replicate (k 0) (c!"M226", false)).filter (·.2) = [] := by
          rw [List.filter_eq_nil_iff]
          intro m hm
          rw [List.eq_of_mem_replicate hm]
          simp
        have e2 : (L.lines.map (fun l => (l.raw, true))).filter (·.2) = L.lines.map (fun l => (l.raw, true)) := by
          rw [List.filter_eq_self]; simp
        rw [e1, e2]
        simp [Function.comp_def]
      · intro m hm hf
        rw [List.mem_append, List.mem_append] at hm
        rcases hm with (hm | hm) | hm
        · rw [List.eq_of_mem_replicate hm]
          exact fun p => line_pause origin p
        · rw [List.mem_map] at hm
          obtain ⟨l, _, rfl⟩ := hm
          cases hf
        · exact h3 m hm hf
      · rw [List.length_append, List.length_append, h4, List.length_replicate, List.length_map, List.flatMap_cons, List.length_append,
          List.length_cons, List.range_succ_eq_map, List.map_cons, List.sum_cons, List.map_map]
        have : ((List.range Ls.length).map (fun i => k (i + 1))).sum = ((List.range Ls.length).map (k ∘ Nat.succ)).sum := rfl
        omega
  obtain ⟨marked, m1, m2, m3, m4⟩ := key Ls k
  refine ⟨⟨marked, m1, m2, ?_⟩, ?_⟩
  · rw [← m1]
    exact sameMotion_of_marked origin p marked m3
  · have := congrArg List.length m1
    rw [List.length_map, List.length_map] at this
    rw [← this, m4]

/-- The end of the command line, after the filters. -/
def modTail (env : Env α) (p : Option ℤ) (g : GCode α) : Except Err Str := do
  let zs ← iteratorZs env.mode 2 g
  match p with
  | some n =>
    let (_, g) ← accept env.mode 2 zs (pauseVisitor [n]) () g
    .ok g.write
  | none => .ok g.write

theorem modPipeline_eq {env : Env α} {x y : Option α} {e : Bool} {p : Option ℤ} {data : List Str} {g g1 g2 : GCode α} (hg : GCode.load env data = .ok g)
    (h1 : (if x.isSome || y.isSome then g.translate x y else .ok g) = .ok g1) (h2 : (if e then g1.toRelativeE else .ok g1) = .ok g2) :
    modPipeline env x y e p data = modTail env p g2 := by
  unfold modPipeline
  rw [hg]
  simp only [bind, Except.bind]
  by_cases hx : (x.isSome || y.isSome) = true
  · rw [if_pos hx] at h1 ⊢
    rw [h1]
    simp only
    by_cases he : e = true
    · rw [if_pos he] at h2 ⊢
      rw [h2]; rfl
    · rw [if_neg he] at h2 ⊢
      obtain rfl := Except.ok.inj h2; rfl
  · rw [if_neg hx] at h1 ⊢
    obtain rfl := Except.ok.inj h1
    by_cases he : e = true
    · rw [if_pos he] at h2 ⊢
      rw [h2]; rfl
    · rw [if_neg he] at h2 ⊢
      obtain rfl := Except.ok.inj h2; rfl

/-- The steps of the command line. -/
theorem mod_steps {env : Env α} {x y : Option α} {e : Bool} {p : Option ℤ} {data : List Str} {g : GCode α} {text : Str}
    (hg : GCode.load env data = .ok g) (h : modPipeline env x y e p data = .ok text) :
    ∃ (g1 g2 g3 : GCode α) (k : ℕ → ℕ), (if x.isSome || y.isSome then g.translate x y = .ok g1 else g1 = g) ∧ (if e then g1.toRelativeE = .ok g2 else g2 = g1) ∧
      SameShape g.allLayers g2.allLayers ∧ g3.allLayers = withPauses k g2.allLayers ∧ none ∉ g.allZs ∧
      ((List.range g2.allLayers.length).map k).sum = (match p with
        | none => 0
        | some i => (g.allLayers.filter (fun L => codePause env.mode 2 ((heights env.mode 2 g).insertionSort (· ≤ ·)) [i] L.z)).length) ∧
      text = g3.write := by
  obtain ⟨g1, h1, hs1, e1⟩ : ∃ g1, (if x.isSome || y.isSome then g.translate x y else .ok g) = .ok g1 ∧ SameShape g.allLayers g1.allLayers ∧
      g1 = { g with allLayers := g1.allLayers } := by
    by_cases hx : (x.isSome || y.isSome) = true
    · rw [if_pos hx]
      exact ⟨_, translate_eq g x y, scanLayers_shape _ _ _, rfl⟩
    · rw [if_neg hx]
      exact ⟨g, rfl, SameShape.refl _, rfl⟩
  obtain ⟨g2, h2, hs2, e2⟩ : ∃ g2, (if e then g1.toRelativeE else .ok g1) = .ok g2 ∧ SameShape g1.allLayers g2.allLayers ∧
      g2 = { g1 with allLayers := g2.allLayers } := by
    by_cases he : e = true
    · rw [if_pos he]
      exact ⟨_, toRelativeE_eq g1, scanLayers_shape _ _ _, rfl⟩
    · rw [if_neg he]
      exact ⟨g1, rfl, SameShape.refl _, rfl⟩
  rw [modPipeline_eq hg h1 h2] at h
  unfold modTail at h
  simp only [bind, Except.bind] at h
  have e3 : g2 = { g with allLayers := g2.allLayers } := by rw [e2, e1]
  have hz2 : g2.allZs = g.allZs := by rw [e3]
  by_cases hz : none ∈ g.allZs
  · rw [(iteratorZs_ok g2).1 (by rw [hz2]; exact hz)] at h
    cases h
  · rw [(iteratorZs_ok g2).2 (by rw [hz2]; exact hz)] at h
    simp only at h
    have hh : heights env.mode 2 g2 = heights env.mode 2 g := by unfold heights; rw [hz2]
    rw [hh] at h
    have b1 : if x.isSome || y.isSome then g.translate x y = .ok g1 else g1 = g := by
      by_cases hx : (x.isSome || y.isSome) = true
      · rw [if_pos hx] at h1 ⊢; exact h1
      · rw [if_neg hx] at h1 ⊢; exact (Except.ok.inj h1).symm
    have b2 : if e then g1.toRelativeE = .ok g2 else g2 = g1 := by
      by_cases he : e = true
      · rw [if_pos he] at h2 ⊢; exact h2
      · rw [if_neg he] at h2 ⊢; exact (Except.ok.inj h2).symm
    cases p with
    | none =>
      simp only [Except.ok.injEq] at h
      exact ⟨g1, g2, g2, fun _ => 0, b1, b2, hs1.trans hs2, (withPauses_zero _).symm, hz, by simp, h.symm⟩
    | some i =>
      obtain ⟨g', k, k1, k2, k3⟩ := pause_filtered (load_indexed hg) (load_emptyFlat hg) e3 (hs1.trans hs2) (mode := env.mode) (digits := 2) [i]
      simp only at h
      rw [k1] at h
      simp only [Except.ok.injEq] at h
      exact ⟨g1, g2, g', k, b1, b2, hs1.trans hs2, k2, hz, k3, h.symm⟩

theorem relLine_cmd {s : RelSt α} {l : PyLine α} {c : Str} (h : c ≠ c!"M83") : HasCmd (relLine s l).2 c → HasCmd l c := by
  unfold relLine
  by_cases n1 : HasCmd l c!"M83"
  · rw [if_pos n1]; exact id
  · rw [if_neg n1]
    by_cases n2 : HasCmd l c!"M82"
    · rw [if_pos n2]
      intro hc
      unfold HasCmd at hc
      simp only [m83_line, Option.some.injEq] at hc
      exact absurd hc.symm h
    · rw [if_neg n2]
      by_cases n3 : HasCmd l c!"G92"
      · rw [if_pos n3]
        cases l.e with
        | some e => exact id
        | none => simp only; split_ifs <;> exact id
      · rw [if_neg n3]
        by_cases n4 : IsMove l ∧ s.relative = false
        · rw [if_pos n4]
          cases l.e with
          | some e => exact id
          | none => exact id
        · rw [if_neg n4]; exact id

theorem emode_prefix {ls : List (PyLine α)} {u : EModeSt} (h : ({} : EModeSt).run ls = some u) (n : ℕ) : ∃ v, ({} : EModeSt).run (ls.take n) = some v := by
  have := emode_append (ls.take n) (ls.drop n) {}
  rw [List.take_append_drop, h] at this
  cases hq : ({} : EModeSt).run (ls.take n) with
  | none => rw [hq] at this; simp at this
  | some v => exact ⟨v, rfl⟩

/-- What the filters of the command line do, on values and on the form of the lines. -/
theorem mod_values {env : Env α} {x y : Option α} {e : Bool} {data : List Str} {g g1 g2 : GCode α} (hg : GCode.load env data = .ok g)
    (hc : ∀ l ∈ g.lines, CommandFirst l.raw ∧ HomingClear (α := α) l.raw) (h20 : ∀ l ∈ g.lines, ¬ HasCmd l c!"G20")
    (ht : (x.isSome || y.isSome) = true → (∀ l ∈ g.lines, ¬ HasCmd l c!"G92") ∧ ModeStated g.lines)
    (hE : e = true → (({} : EModeSt).run g.lines).isSome = true)
    (h1 : if x.isSome || y.isSome then g.translate x y = .ok g1 else g1 = g) (h2 : if e then g1.toRelativeE = .ok g2 else g2 = g1) :
    (∀ l ∈ program g2, TextForm ⟨0, 0, 0⟩ l) ∧
    (∀ c, c ≠ c!"M83" → (∀ l ∈ g.lines, ¬ HasCmd l c) → ∀ l ∈ program g2, ¬ HasCmd l c) ∧
    (program g2).length = g.lines.length ∧
    ∀ n, ∃ dx dy, (if x.isSome || y.isSome then ∃ t, ({} : TrackSt).run (g.lines.take n) = some t ∧ dx = (if t.x.isPlaced then x.getD 0 else 0) ∧
          dy = (if t.y.isPlaced then y.getD 0 else 0) else dx = 0 ∧ dy = 0) ∧
      let o := (Printer.start : Printer α).run ⟨0, 0, 0⟩ (g.lines.take n)
      let b := (Printer.start : Printer α).run ⟨0, 0, 0⟩ ((program g2).take n)
      b.pos.x = o.pos.x + dx ∧ b.pos.y = o.pos.y + dy ∧ b.pos.z = o.pos.z ∧ b.pushed = o.pushed ∧ b.feed = o.feed ∧ b.rel = o.rel ∧ b.tool = o.tool := by
  have hl : g.lines = program g := (load_indexed hg).flat
  have f0 : ∀ l ∈ g.lines, TextForm ⟨0, 0, 0⟩ l := fun l h => .inl (load_textual hg hc h20 l h)
  -- translation
  have T : (∀ l ∈ program g1, TextForm ⟨0, 0, 0⟩ l) ∧ (∀ c, (∀ l ∈ g.lines, ¬ HasCmd l c) → ∀ l ∈ program g1, ¬ HasCmd l c) ∧
      (program g1).length = g.lines.length ∧
      ((e = true → (({} : EModeSt).run (program g1)).isSome = true)) ∧
      ∀ n, ∃ dx dy, (if x.isSome || y.isSome then ∃ t, ({} : TrackSt).run (g.lines.take n) = some t ∧ dx = (if t.x.isPlaced then x.getD 0 else 0) ∧
          dy = (if t.y.isPlaced then y.getD 0 else 0) else dx = 0 ∧ dy = 0) ∧
      let o := (Printer.start : Printer α).run ⟨0, 0, 0⟩ (g.lines.take n)
      let b := (Printer.start : Printer α).run ⟨0, 0, 0⟩ ((program g1).take n)
      b.pos.x = o.pos.x + dx ∧ b.pos.y = o.pos.y + dy ∧ b.pos.z = o.pos.z ∧ b.pushed = o.pushed ∧ b.feed = o.feed ∧ b.rel = o.rel ∧ b.tool = o.tool := by
    by_cases hx : (x.isSome || y.isSome) = true
    · rw [if_pos hx] at h1
      obtain ⟨h92, hm⟩ := ht hx
      obtain ⟨g', k1, k2, k3⟩ := C27_translation_partial g x y ⟨0, 0, 0⟩ Printer.start
      obtain ⟨g'', k1', _, hprog⟩ := translate_program g x y
      rw [h1] at k1 k1'
      obtain rfl := Except.ok.inj k1
      obtain rfl := Except.ok.inj k1'
      rw [← hl] at hprog k2 k3
      refine ⟨?_, ?_, k2, ?_, ?_⟩
      · rw [hprog]
        exact scan_all (P := fun l => TextForm ⟨0, 0, 0⟩ l ∧ ¬ HasCmd l c!"G92") transLine (fun s l h => transLine_form h.1 h.2) g.lines _ (fun l h => ⟨f0 l h, h92 l h⟩)
      · intro c hcc
        rw [hprog]
        exact scan_all (P := fun l => ¬ HasCmd l c) (Q := fun l => ¬ HasCmd l c) transLine (fun s l h => by rwa [hasCmd_congr (transLine_command s l)]) g.lines _ hcc
      · intro he
        rw [hprog, emode_run_trans _ _ _ (fun l h h' => absurd h' (h92 l h))]
        exact hE he
      · intro n
        have hsub : ∀ l ∈ g.lines.take n, l ∈ g.lines := fun l hl => List.mem_of_mem_take hl
        obtain ⟨t, htr⟩ := track_g92free (g.lines.take n) (t := {}) (.inl rfl) (.inl rfl) (fun l hl => h92 l (hsub l hl))
          (.inr (fun pre l post he hmv hxy => by
            refine hm pre l (post ++ g.lines.drop n) ?_ hmv hxy
            conv_lhs => rw [← List.take_append_drop n g.lines, he]
            simp))
        obtain ⟨e1, e2, e3, e4, _⟩ := k3 n t htr
        refine ⟨_, _, by rw [if_pos hx]; exact ⟨t, htr, rfl, rfl⟩, e1, e2, e3, ?_, ?_, ?_, ?_⟩
        · have := congrArg Printer.pushed e4; exact this
        · have := congrArg Printer.feed e4; exact this
        · have := congrArg Printer.rel e4; exact this
        · have := congrArg Printer.tool e4; exact this
    · rw [if_neg hx] at h1
      subst h1
      rw [← hl]
      exact ⟨f0, fun c h => h, rfl, hE, fun n => ⟨0, 0, by rw [if_neg hx]; exact ⟨rfl, rfl⟩, by simp, by simp, rfl, rfl, rfl, rfl, rfl⟩⟩
  obtain ⟨t1, t2, t3, t4, t5⟩ := T
  by_cases he : e = true
  · rw [if_pos he] at h2
    obtain ⟨g', k1, k2, k3⟩ := C31_conversion_partial g1 ⟨0, 0, 0⟩ Printer.start rfl
    obtain ⟨g'', k1', _, hprog⟩ := toRelativeE_program g1
    rw [h2] at k1 k1'
    obtain rfl := Except.ok.inj k1
    obtain rfl := Except.ok.inj k1'
    refine ⟨?_, ?_, by rw [k2, t3], ?_⟩
    · rw [hprog]
      exact scan_all (P := TextForm ⟨0, 0, 0⟩) relLine (fun s l h => relLine_form h) _ _ t1
    · intro c h83 hcc
      rw [hprog]
      exact scan_all (P := fun l => ¬ HasCmd l c) (Q := fun l => ¬ HasCmd l c) relLine (fun s l h h' => h (relLine_cmd h83 h')) _ _ (t2 c hcc)
    · intro n
      obtain ⟨u, hu⟩ := Option.isSome_iff_exists.1 (t4 he)
      obtain ⟨v, hv⟩ := emode_prefix hu n
      obtain ⟨f1, f2, f3, f4⟩ := k3 n v hv
      obtain ⟨dx, dy, d0, d1, d2, d3, d4, d5, d6, d7⟩ := t5 n
      refine ⟨dx, dy, d0, ?_, ?_, ?_, ?_, ?_, ?_, ?_⟩
      · rw [f3]; exact d1
      · rw [f3]; exact d2
      · rw [f3]; exact d3
      · rw [f2]; exact d4
      · rw [f4]; exact d5
      · rw [f1]; exact d6
      · rw [f1]; exact d7
  · rw [if_neg he] at h2
    subst h2
    exact ⟨t1, fun c _ h => t2 c h, t3, t5⟩

/-- A printer reading the lines of the changed program against one reading the input. -/
theorem mod_motion {env : Env α} {x y : Option α} {e : Bool} {data : List Str} {g g1 g2 : GCode α} (hg : GCode.load env data = .ok g)
    (hc : ∀ l ∈ g.lines, CommandFirst l.raw ∧ HomingClear (α := α) l.raw) (h20 : ∀ l ∈ g.lines, ¬ HasCmd l c!"G20")
    (ht : (x.isSome || y.isSome) = true → (∀ l ∈ g.lines, ¬ HasCmd l c!"G92") ∧ ModeStated g.lines)
    (hE : e = true → (({} : EModeSt).run g.lines).isSome = true)
    (s1 : if x.isSome || y.isSome then g.translate x y = .ok g1 else g1 = g) (s2 : if e then g1.toRelativeE = .ok g2 else g2 = g1) :
    ∀ n, ∃ dx dy, (if x.isSome || y.isSome then ∃ t, ({} : TrackSt).run (g.lines.take n) = some t ∧ dx = (if t.x.isPlaced then x.getD 0 else 0) ∧
          dy = (if t.y.isPlaced then y.getD 0 else 0) else dx = 0 ∧ dy = 0) ∧
        let a := (Printer.start : Printer α).final ⟨0, 0, 0⟩ ((g.lines.take n).map (·.raw))
        let b := (Printer.start : Printer α).final ⟨0, 0, 0⟩ (((program g2).map (·.raw)).take n)
        (|b.pos.x - (a.pos.x + dx)| ≤ n * (5 / 10 ^ 4) ∧ |b.pos.y - (a.pos.y + dy)| ≤ n * (5 / 10 ^ 4) ∧ |b.pos.z - a.pos.z| ≤ n * (5 / 10 ^ 4)) ∧
        ((∀ l ∈ g.lines, ¬ HasCmd l c!"G91" ∧ ¬ HasCmd l c!"G92") →
          |b.pos.x - (a.pos.x + dx)| ≤ 5 / 10 ^ 4 ∧ |b.pos.y - (a.pos.y + dy)| ≤ 5 / 10 ^ 4 ∧ |b.pos.z - a.pos.z| ≤ 5 / 10 ^ 4) ∧
        |b.pushed - a.pushed| ≤ n * (5 / 10 ^ 6) ∧ b.rel = a.rel ∧ b.tool = a.tool := by
  obtain ⟨v1, v2, v3, v4⟩ := mod_values hg hc h20 ht hE s1 s2
  intro n
  obtain ⟨dx, dy, d0, d1, d2, d3, d4, _, d6, d7⟩ := v4 n
  refine ⟨dx, dy, d0, ?_⟩
  intro a b
  have ha : a = Printer.start.run ⟨0, 0, 0⟩ (g.lines.take n) := (load_exec hg hc n).symm
  have hsub : ∀ l ∈ (program g2).take n, l ∈ program g2 := fun l hl => List.mem_of_mem_take hl
  have hb : b = Printer.start.final ⟨0, 0, 0⟩ (((program g2).take n).map (·.raw)) := by
    show Printer.final _ _ _ = _
    rw [List.map_take]
  have w20 := v2 c!"G20" (by decide) h20
  have near := forms_near (home := ⟨0, 0, 0⟩) ((program g2).take n) (w := Printer.start) (q := Printer.start) (k := 0)
    ((Near.self _).mono (by simp) (by simp) (by simp)) rfl (fun l hl => v1 l (hsub l hl)) (fun l hl => w20 l (hsub l hl))
  rw [← hb] at near
  rw [← ha] at d1 d2 d3 d4 d6 d7
  have hlen : ((0 + ((program g2).take n).length : ℕ) : α) ≤ n := by
    have : ((program g2).take n).length ≤ n := by simp
    exact_mod_cast (by omega : 0 + ((program g2).take n).length ≤ n)
  have near2 : (∀ l ∈ g.lines, ¬ HasCmd l c!"G91" ∧ ¬ HasCmd l c!"G92") →
      Near (5 / 10 ^ 4) 0 (((0 + ((program g2).take n).length : ℕ) : α) * (5 / 10 ^ 6)) b (Printer.start.run ⟨0, 0, 0⟩ ((program g2).take n)) := by
    intro hn
    have w91 := v2 c!"G91" (by decide) (fun l hl => (hn l hl).1)
    have w92 := v2 c!"G92" (by decide) (fun l hl => (hn l hl).2)
    have := forms_near_abs (home := ⟨0, 0, 0⟩) ((program g2).take n) (w := Printer.start) (q := Printer.start) (k := 0)
      ((Near.self _).mono (by norm_num) (le_refl _) (by simp)) rfl rfl (fun l hl => v1 l (hsub l hl))
      (fun l hl => ⟨w20 l (hsub l hl), w91 l (hsub l hl), w92 l (hsub l hl)⟩)
    rw [← hb] at this
    exact this
  clear_value a b
  generalize Printer.start.run ⟨0, 0, 0⟩ ((program g2).take n) = q at near near2 d1 d2 d3 d4 d6 d7
  rw [← d1, ← d2, ← d3, ← d4, ← d6, ← d7]
  refine ⟨⟨near.px.trans (by nlinarith), near.py.trans (by nlinarith), near.pz.trans (by nlinarith)⟩, ?_, ?_, near.rel, near.tool⟩
  · intro hn
    exact ⟨(near2 hn).px, (near2 hn).py, (near2 hn).pz⟩
  · rw [near.push]
    exact near.e.trans (by nlinarith)

/-- **C94** (partial).  The gcode_mod command line, with any of `-x`, `-y`, `-e` and `-p`, as a printer sees it.  The program
is in millimetres; if it is to be moved, it has no `G92` and states its distance mode before its first X/Y move; if it is to be
converted, it is in the class of C31.  When the command line succeeds, the written text is a list `out` of lines, each followed
by a newline.  Without pauses `out` is `base`, a list with one line for each line of the input.  With `-p i` it is `base` with
one more line for each printed layer with number `i`, and those lines do not move anything.  A printer reading `base` is, after
any number of lines, where one reading the input is, displaced by the requested amount on each axis placed since homing,
up to 0.0005 mm per line (0.0005 mm in all without `G91` and `G92`), and has pushed the same filament up to 0.000005 per line.
Missing: programs outside those classes, where the claim is false, see `C27_g92_refuted` and `C31_unstated_refuted`. -/
theorem C94_mod_partial {env : Env α} {x y : Option α} {e : Bool} {p : Option ℤ} {data : List Str} {g : GCode α} {text : Str}
    (hg : GCode.load env data = .ok g) (h : modPipeline env x y e p data = .ok text)
    (hc : ∀ l ∈ g.lines, CommandFirst l.raw ∧ HomingClear (α := α) l.raw) (h20 : ∀ l ∈ g.lines, ¬ HasCmd l c!"G20")
    (ht : (x.isSome || y.isSome) = true → (∀ l ∈ g.lines, ¬ HasCmd l c!"G92") ∧ ModeStated g.lines)
    (hE : e = true → (({} : EModeSt).run g.lines).isSome = true) :
    ∃ base out : List Str, text = out.flatMap (· ++ ['\n']) ∧ base.length = g.lines.length ∧ (p = none → out = base) ∧
      SameMotion ⟨0, 0, 0⟩ (Printer.start : Printer α) base out ∧
      (∀ i, p = some i → ∃ due : List (Layer α), due.Sublist g.allLayers ∧ (∀ L ∈ due, ShouldPause env.mode 2 g [i] L.z) ∧
        (∀ L ∈ g.allLayers, ShouldPause env.mode 2 g [i] L.z → L ∈ due) ∧ out.length = base.length + due.length) ∧
      ∀ n, ∃ dx dy, (if x.isSome || y.isSome then ∃ t, ({} : TrackSt).run (g.lines.take n) = some t ∧ dx = (if t.x.isPlaced then x.getD 0 else 0) ∧
          dy = (if t.y.isPlaced then y.getD 0 else 0) else dx = 0 ∧ dy = 0) ∧
        let a := (Printer.start : Printer α).final ⟨0, 0, 0⟩ ((g.lines.take n).map (·.raw))
        let b := (Printer.start : Printer α).final ⟨0, 0, 0⟩ (base.take n)
        (|b.pos.x - (a.pos.x + dx)| ≤ n * (5 / 10 ^ 4) ∧ |b.pos.y - (a.pos.y + dy)| ≤ n * (5 / 10 ^ 4) ∧ |b.pos.z - a.pos.z| ≤ n * (5 / 10 ^ 4)) ∧
        ((∀ l ∈ g.lines, ¬ HasCmd l c!"G91" ∧ ¬ HasCmd l c!"G92") →
          |b.pos.x - (a.pos.x + dx)| ≤ 5 / 10 ^ 4 ∧ |b.pos.y - (a.pos.y + dy)| ≤ 5 / 10 ^ 4 ∧ |b.pos.z - a.pos.z| ≤ 5 / 10 ^ 4) ∧
        |b.pushed - a.pushed| ≤ n * (5 / 10 ^ 6) ∧ b.rel = a.rel ∧ b.tool = a.tool := by
  obtain ⟨g1, g2, g3, k, s1, s2, s3, s4, _, s6, s7⟩ := mod_steps hg h
  obtain ⟨v1, v2, v3, v4⟩ := mod_values hg hc h20 ht hE s1 s2
  obtain ⟨m1, m2⟩ := withPauses_motion ⟨0, 0, 0⟩ (Printer.start : Printer α) g2.allLayers k
  have hp2 : g2.allLayers.flatMap (·.lines) = program g2 := by rw [program_def, List.flatMap_def]
  rw [hp2] at m1 m2
  refine ⟨(program g2).map (·.raw), ((withPauses k g2.allLayers).flatMap (·.lines)).map (·.raw), ?_, by rw [List.length_map, v3], ?_, m1, ?_, ?_⟩
  · rw [s7, GCode.write, GCode.allLines, s4, List.flatMap_map]
  · intro hp
    subst hp
    simp only at s6
    have hk : ∀ i < g2.allLayers.length, k i = 0 := by
      intro i hi
      exact (List.sum_eq_zero_iff.1 s6) (k i) (List.mem_map.2 ⟨i, List.mem_range.2 hi, rfl⟩)
    have : withPauses k g2.allLayers = g2.allLayers := by
      conv_rhs => rw [← withPauses_zero g2.allLayers]
      unfold withPauses
      apply List.ext_getElem (by simp)
      intro i h1 h2
      simp only [List.getElem_mapIdx]
      rw [hk i (by simpa using h1)]
    rw [this, hp2]
  · intro i hp
    subst hp
    simp only at s6
    refine ⟨_, List.filter_sublist (p := fun L : Layer α => codePause env.mode 2 ((heights env.mode 2 g).insertionSort (· ≤ ·)) [i] L.z), ?_, ?_, ?_⟩
    · intro L hL
      rw [← codePause_iff]
      exact (List.mem_filter.1 hL).2
    · intro L hL hs
      exact List.mem_filter.2 ⟨hL, by rw [codePause_iff]; exact hs⟩
    · rw [List.length_map, List.length_map, m2, s6]
  · exact mod_motion hg hc h20 ht hE s1 s2

/-- A program for all the options. -/
def modSample : List Str :=
  [c!"G28", c!"G90", c!"M82", c!"G1 Z0.3", c!"G1 X10 Y10 E1 ; draw", c!"G1 Y20 E2.5", c!"G1 Z0.6", c!"G1 X0 E4", c!"G1 X5.0004 E5"]

example : GCode.load qEnv modSample = .ok (loadQ modSample) ∧
    (∀ l ∈ (loadQ modSample).lines, CommandFirst l.raw ∧ HomingClear (α := ℚ) l.raw) ∧ (∀ l ∈ (loadQ modSample).lines, ¬ HasCmd l c!"G20") ∧
    (∀ l ∈ (loadQ modSample).lines, ¬ HasCmd l c!"G91" ∧ ¬ HasCmd l c!"G92") ∧ (({} : EModeSt).run (loadQ modSample).lines).isSome = true ∧
    modPipeline qEnv (some 5) none true (some 1) modSample =
      .ok c!"G28\nG90\nM83\nG1 Z0.3\nG1 X15.000 Y10.000 E1.00000\nG1 Y20.000 E1.50000\nM226\nG1 Z0.6\nG1 X5.000 E1.50000\nG1 X10.000 E1.00000\n" := by
  decide +kernel
example : ModeStated (loadQ modSample).lines := by
  intro pre l post he hm hxy
  have hl : (loadQ modSample).lines.take 2 ++ (loadQ modSample).lines.drop 2 = pre ++ l :: post := by rw [← he]; simp
  have h2 : ∀ m ∈ (loadQ modSample).lines.take 2, ¬ IsMove m := by decide +kernel
  have h90 : ∃ m ∈ (loadQ modSample).lines.take 2, HasCmd m c!"G90" := by decide +kernel
  obtain ⟨m, hm1, hm2⟩ := h90
  rcases List.append_eq_append_iff.1 hl with ⟨as, h1, _⟩ | ⟨bs, h1, h3⟩
  · exact ⟨m, by rw [h1]; simp [hm1], .inl hm2⟩
  · cases bs with
    | nil => rw [List.append_nil] at h1; exact ⟨m, by rw [← h1]; exact hm1, .inl hm2⟩
    | cons b bs =>
      obtain ⟨rfl, _⟩ := List.cons.inj h3
      exact absurd hm (h2 l (by rw [h1]; simp))

/-- C94, when it fails: once the program has been loaded, the command line raises exactly if an extruding line was recorded at
an unknown height, whatever the options, and then TypeError. -/
theorem C94_raises {env : Env α} {data : List Str} {g : GCode α} (hg : GCode.load env data = .ok g) (x y : Option α) (e : Bool) (p : Option ℤ) :
    (none ∉ g.allZs → ∃ text, modPipeline env x y e p data = .ok text) ∧ (none ∈ g.allZs → modPipeline env x y e p data = .error .typeError) := by
  obtain ⟨g1, h1, hs1, e1⟩ : ∃ g1, (if x.isSome || y.isSome then g.translate x y else .ok g) = .ok g1 ∧ SameShape g.allLayers g1.allLayers ∧
      g1 = { g with allLayers := g1.allLayers } := by
    by_cases hx : (x.isSome || y.isSome) = true
    · rw [if_pos hx]
      exact ⟨_, translate_eq g x y, scanLayers_shape _ _ _, rfl⟩
    · rw [if_neg hx]
      exact ⟨g, rfl, SameShape.refl _, rfl⟩
  obtain ⟨g2, h2, hs2, e2⟩ : ∃ g2, (if e then g1.toRelativeE else .ok g1) = .ok g2 ∧ SameShape g1.allLayers g2.allLayers ∧
      g2 = { g1 with allLayers := g2.allLayers } := by
    by_cases he : e = true
    · rw [if_pos he]
      exact ⟨_, toRelativeE_eq g1, scanLayers_shape _ _ _, rfl⟩
    · rw [if_neg he]
      exact ⟨g1, rfl, SameShape.refl _, rfl⟩
  rw [modPipeline_eq hg h1 h2]
  unfold modTail
  simp only [bind, Except.bind]
  have e3 : g2 = { g with allLayers := g2.allLayers } := by rw [e2, e1]
  have hz2 : g2.allZs = g.allZs := by rw [e3]
  constructor
  · intro hz
    rw [(iteratorZs_ok g2).2 (by rw [hz2]; exact hz)]
    simp only
    have hh : heights env.mode 2 g2 = heights env.mode 2 g := by unfold heights; rw [hz2]
    rw [hh]
    cases p with
    | none => exact ⟨_, rfl⟩
    | some i =>
      obtain ⟨g', k, k1, _⟩ := pause_filtered (load_indexed hg) (load_emptyFlat hg) e3 (hs1.trans hs2) (mode := env.mode) (digits := 2) [i]
      simp only
      rw [k1]
      exact ⟨_, rfl⟩
  · intro hz
    rw [(iteratorZs_ok g2).1 (by rw [hz2]; exact hz)]

/-- Both cases of `C94_raises`: `-e` alone fails on a program that extrudes before it names a height. -/
example : none ∈ (loadQ [c!"M82", c!"G1 X10 E1"]).allZs ∧ modPipeline qEnv (none : Option ℚ) none true none [c!"M82", c!"G1 X10 E1"] = .error .typeError ∧
    none ∉ (loadQ modSample).allZs := by decide +kernel

end GCodeUtils
