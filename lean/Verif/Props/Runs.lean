import Verif.Lemmas.Runs
import Verif.Props.Pauses

/-
  C116: translations made by several runs of the command line tool.
-/

set_option linter.unusedSectionVars false

namespace GCodeUtils

open Spec

variable {α : Type} [Field α] [LinearOrder α] [IsStrictOrderedRing α] [FloorRing α]

theorem moveRuns_cons {env : Env α} {text t : Str} {d : Option α × Option α} {ds : List (Option α × Option α)} (h : moveRuns env text (d :: ds) = .ok t) :
    ∃ t1, modPipeline env d.1 d.2 false none (readlines text) = .ok t1 ∧ moveRuns env t1 ds = .ok t := by
  simp only [moveRuns, bind, Except.bind] at h
  cases hp : modPipeline env d.1 d.2 false none (readlines text) with
  | error e => rw [hp] at h; cases h
  | ok t1 => rw [hp] at h; exact ⟨t1, rfl, h⟩

theorem moveRuns_loads {env : Env α} {text t : Str} {d : Option α × Option α} {ds : List (Option α × Option α)} (h : moveRuns env text (d :: ds) = .ok t) :
    ∃ g, GCode.load env (readlines text) = .ok g := by
  obtain ⟨t1, h1, _⟩ := moveRuns_cons h
  unfold modPipeline at h1
  cases hg : GCode.load env (readlines text) with
  | error e => rw [hg] at h1; cases h1
  | ok g => exact ⟨g, rfl⟩

/-- **C116** (partial).  `gcode_mod -x dx -y dy` run any number of times, each time on its own output.  The program is in
millimetres, has no `G92`, and states its distance mode before its first X/Y move.  When all the runs succeed, the last text
has one line for each line of the input, and a printer reading it is, after any number of lines, where one reading the input
is, displaced by the sum of the amounts on each axis placed since homing: up to 0.0005 mm per run and per line (0.0005 mm per
run without `G91`), with the same filament pushed up to 0.000005 per run and per line.  Missing: programs outside that
class, where already one run goes wrong, see `C27_g92_refuted`. -/
theorem C116_moves_partial {env : Env α} (ds : List (Option α × Option α)) : ∀ {text t : Str} {g : GCode α}, ds ≠ [] →
    GCode.load env (readlines text) = .ok g → moveRuns env text ds = .ok t →
    (∀ l ∈ g.lines, CommandFirst l.raw ∧ HomingClear (α := α) l.raw) → (∀ l ∈ g.lines, ¬ HasCmd l c!"G20") →
    (∀ l ∈ g.lines, ¬ HasCmd l c!"G92") → ModeStated g.lines →
    ∃ out : List Str, t = out.flatMap (· ++ ['\n']) ∧ out.length = g.lines.length ∧
      ∀ n, ∃ s, ({} : TrackSt).run (g.lines.take n) = some s ∧
        let dx := if s.x.isPlaced then sumX ds else 0
        let dy := if s.y.isPlaced then sumY ds else 0
        let a := (Printer.start : Printer α).final ⟨0, 0, 0⟩ ((g.lines.take n).map (·.raw))
        let b := (Printer.start : Printer α).final ⟨0, 0, 0⟩ (out.take n)
        (|b.pos.x - (a.pos.x + dx)| ≤ ds.length * (n * (5 / 10 ^ 4)) ∧ |b.pos.y - (a.pos.y + dy)| ≤ ds.length * (n * (5 / 10 ^ 4)) ∧
          |b.pos.z - a.pos.z| ≤ ds.length * (n * (5 / 10 ^ 4))) ∧
        ((∀ l ∈ g.lines, ¬ HasCmd l c!"G91") →
          |b.pos.x - (a.pos.x + dx)| ≤ ds.length * (5 / 10 ^ 4) ∧ |b.pos.y - (a.pos.y + dy)| ≤ ds.length * (5 / 10 ^ 4) ∧
          |b.pos.z - a.pos.z| ≤ ds.length * (5 / 10 ^ 4)) ∧
        |b.pushed - a.pushed| ≤ ds.length * (n * (5 / 10 ^ 6)) ∧ b.rel = a.rel ∧ b.tool = a.tool := by
  induction ds with
  | nil => intro _ _ _ h; exact absurd rfl h
  | cons d ds ih =>
    intro text t g _ hg h hc h20 h92 hm
    obtain ⟨t1, r1, r2⟩ := moveRuns_cons h
    obtain ⟨g2, s1, _, s3⟩ := move_run hg r1
    have M := mod_motion hg hc h20 (fun _ => ⟨h92, hm⟩) (e := false) (by simp) s1 (g2 := g2) (by simp)
    obtain ⟨L1, L2, L3⟩ := move_lines hg h20 h92 (load_no_newline hg) s1
    -- the first run
    have F : ∀ n, ∃ s, ({} : TrackSt).run (g.lines.take n) = some s ∧
        let dx := if s.x.isPlaced then d.1.getD 0 else 0
        let dy := if s.y.isPlaced then d.2.getD 0 else 0
        let a := (Printer.start : Printer α).final ⟨0, 0, 0⟩ ((g.lines.take n).map (·.raw))
        let b := (Printer.start : Printer α).final ⟨0, 0, 0⟩ (((program g2).map (·.raw)).take n)
        (|b.pos.x - (a.pos.x + dx)| ≤ n * (5 / 10 ^ 4) ∧ |b.pos.y - (a.pos.y + dy)| ≤ n * (5 / 10 ^ 4) ∧ |b.pos.z - a.pos.z| ≤ n * (5 / 10 ^ 4)) ∧
        ((∀ l ∈ g.lines, ¬ HasCmd l c!"G91") →
          |b.pos.x - (a.pos.x + dx)| ≤ 5 / 10 ^ 4 ∧ |b.pos.y - (a.pos.y + dy)| ≤ 5 / 10 ^ 4 ∧ |b.pos.z - a.pos.z| ≤ 5 / 10 ^ 4) ∧
        |b.pushed - a.pushed| ≤ n * (5 / 10 ^ 6) ∧ b.rel = a.rel ∧ b.tool = a.tool := by
      intro n
      obtain ⟨s, hs⟩ := track_g92free (g.lines.take n) (t := {}) (.inl rfl) (.inl rfl) (fun l hl => h92 l (List.mem_of_mem_take hl))
        (.inr (fun pre l post he hmv hxy => by
          refine hm pre l (post ++ g.lines.drop n) ?_ hmv hxy
          conv_lhs => rw [← List.take_append_drop n g.lines, he]
          simp))
      obtain ⟨dx, dy, m0, m1, m2, m3, m4, m5⟩ := M n
      have e : dx = (if s.x.isPlaced then d.1.getD 0 else 0) ∧ dy = (if s.y.isPlaced then d.2.getD 0 else 0) := by
        by_cases hx : (d.1.isSome || d.2.isSome) = true
        · rw [if_pos hx] at m0
          obtain ⟨s', q1, q2, q3⟩ := m0
          rw [hs] at q1
          obtain rfl := Option.some.inj q1
          exact ⟨q2, q3⟩
        · rw [if_neg hx] at m0
          have h1 : d.1 = none := by
            cases h : d.1 with
            | none => rfl
            | some v => rw [h] at hx; simp at hx
          have h2 : d.2 = none := by
            cases h : d.2 with
            | none => rfl
            | some v => rw [h] at hx; simp at hx
          rw [m0.1, m0.2, h1, h2]
          simp
      obtain ⟨rfl, rfl⟩ := e
      exact ⟨s, hs, m1, fun hn => m2 (fun l hl => ⟨hn l hl, h92 l hl⟩), m3, m4, m5⟩
    have hlen : (program g2).length = g.lines.length := L2.length_eq.symm
    by_cases hds : ds = []
    · subst hds
      simp only [moveRuns, Except.ok.injEq] at r2
      refine ⟨(program g2).map (·.raw), by rw [← r2, s3, List.flatMap_map], by rw [List.length_map, hlen], ?_⟩
      simpa [sumX, sumY] using F
    · obtain ⟨d', ds', rfl⟩ : ∃ d' ds', ds = d' :: ds' := by
        cases ds with
        | nil => exact absurd rfl hds
        | cons a b => exact ⟨a, b, rfl⟩
      obtain ⟨g1, hg1⟩ := moveRuns_loads r2
      have hg1' := hg1
      rw [s3] at hg1'
      have A := move_again L1 hg1'
      have K : List.Forall₂ Kin g.lines g1.lines := forall₂_comp (fun x y z h1 h2 => Kin.trans h1 (kin_of_eq h2.2)) L2 A
      have C : List.Forall₂ (fun l l' : PyLine α => l'.raw = l.raw ∨ ∃ k : PyLine α, l'.raw = (unsplit k).raw ∧ Rebuilds k) g.lines g1.lines :=
        forall₂_comp (fun x y z h1 h2 => by rw [h2.1]; exact h1) L3 A
      have R : g1.lines.map (·.raw) = (program g2).map (·.raw) := by
        generalize program g2 = a at A
        generalize g1.lines = b at A
        clear * - A
        induction A with
        | nil => rfl
        | cons h1 _ ih => rw [List.map_cons, List.map_cons, ih, h1.1]
      obtain ⟨out, o1, o2, o3⟩ := ih hds hg1 r2 (forall₂_clear C hc) (kin_cmd K h20) (kin_cmd K h92) (modeStated_kin K hm)
      refine ⟨out, o1, by rw [o2, K.length_eq], ?_⟩
      intro n
      obtain ⟨s, f1, f2, f3, f4, f5, f6⟩ := F n
      obtain ⟨s', p1, p2, p3, p4, p5, p6⟩ := o3 n
      have : s' = s := by
        rw [track_run_kin (List.forall₂_take n K), f1] at p1
        exact (Option.some.inj p1).symm
      subst this
      have hab : (g1.lines.take n).map (·.raw) = ((program g2).map (·.raw)).take n := by rw [List.map_take, R]
      rw [hab] at p2 p3 p4 p5 p6
      refine ⟨s', f1, ?_⟩
      simp only at f2 f3 f4 f5 f6 p2 p3 p4 p5 p6 ⊢
      have sx : (if s'.x.isPlaced then sumX (d :: d' :: ds') else 0) = (if s'.x.isPlaced then d.1.getD 0 else 0) + (if s'.x.isPlaced then sumX (d' :: ds') else 0) := by
        split_ifs <;> simp [sumX]
      have sy : (if s'.y.isPlaced then sumY (d :: d' :: ds') else 0) = (if s'.y.isPlaced then d.2.getD 0 else 0) + (if s'.y.isPlaced then sumY (d' :: ds') else 0) := by
        split_ifs <;> simp [sumY]
      rw [sx, sy]
      have hl : (((d :: d' :: ds').length : ℕ) : α) = ((d' :: ds').length : ℕ) + 1 := by push_cast [List.length_cons]; ring
      rw [hl]
      generalize (if s'.x.isPlaced then d.1.getD 0 else 0) = ux at f2 f3 ⊢
      generalize (if s'.y.isPlaced then d.2.getD 0 else 0) = uy at f2 f3 ⊢
      generalize (if s'.x.isPlaced then sumX (d' :: ds') else 0) = vx at p2 p3 ⊢
      generalize (if s'.y.isPlaced then sumY (d' :: ds') else 0) = vy at p2 p3 ⊢
      generalize (((d' :: ds').length : ℕ) : α) = k at p2 p3 p4 ⊢
      have tri : ∀ {a b c u v p q : α}, |b - (a + u)| ≤ p → |c - (b + v)| ≤ k * p → |c - (a + (u + v))| ≤ (k + 1) * p := by
        intro a b c u v p q h1 h2
        have := abs_add_le (b - (a + u)) (c - (b + v))
        rw [show b - (a + u) + (c - (b + v)) = c - (a + (u + v)) by ring] at this
        linarith
      have tri0 : ∀ {a b c p : α}, |b - a| ≤ p → |c - b| ≤ k * p → |c - a| ≤ (k + 1) * p := by
        intro a b c p h1 h2
        have := abs_add_le (b - a) (c - b)
        rw [show b - a + (c - b) = c - a by ring] at this
        linarith
      refine ⟨⟨tri (q := 0) f2.1 p2.1, tri (q := 0) f2.2.1 p2.2.1, tri0 f2.2.2 p2.2.2⟩, ?_, tri0 f4 p4, p5.trans f5, p6.trans f6⟩
      intro hn
      obtain ⟨a1, a2, a3⟩ := f3 hn
      obtain ⟨b1, b2, b3⟩ := p3 (kin_cmd K hn)
      exact ⟨tri (q := 0) a1 b1, tri (q := 0) a2 b2, tri0 a3 b3⟩

theorem scan_idle (ls : List (PyLine α)) : ∀ {s : TransSt α}, s.tx = 0 → s.ty = 0 → (∀ l ∈ ls, ¬ HasCmd l c!"G92") → (scan transLine s ls).2 = ls := by
  induction ls with
  | nil => intro s _ _ _; rfl
  | cons a ls ih =>
    intro s hx hy h92
    obtain ⟨k1, k2, _⟩ := transLine_g92free s a (h92 a (by simp))
    simp only [scan]
    rw [ih (k1.trans hx) (k2.trans hy) (fun l hl => h92 l (by simp [hl]))]
    congr 1
    by_cases hm : IsMove a
    · rw [transLine_move hm]
      simp only
      split_ifs
      · exact (translateMove_touched s a).2 (by unfold Touched; simp [hx, hy])
      · rfl
    · rw [transLine_stay hm (h92 a (by simp))]

/-- The text written by one run that only moves. -/
theorem move_text {env : Env α} {x y : Option α} {data : List Str} {g : GCode α} (hg : GCode.load env data = .ok g) (hz : none ∉ g.allZs)
    (h92 : ∀ l ∈ g.lines, ¬ HasCmd l c!"G92") :
    modPipeline env x y false none data = .ok ((scan transLine (TransSt.init x y) g.lines).2.flatMap (fun l => l.raw ++ ['\n'])) := by
  have hl : g.lines = program g := (load_indexed hg).flat
  have tail : ∀ g2 : GCode α, g2.allZs = g.allZs → modTail env none g2 = .ok ((program g2).flatMap (fun l => l.raw ++ ['\n'])) := by
    intro g2 h2
    unfold modTail
    simp only [bind, Except.bind]
    rw [(iteratorZs_ok g2).2 (by rw [h2]; exact hz)]
    simp only
    rw [GCode.write, GCode.allLines, program_def, List.flatMap_def, List.flatMap_def]
  by_cases hx : (x.isSome || y.isSome) = true
  · obtain ⟨g2, h1, h2, h3⟩ := translate_program g x y
    rw [modPipeline_eq (g1 := g2) (g2 := g2) hg (by rw [if_pos hx]; exact h1) (by simp), tail g2 (by rw [h2]), h3, hl]
  · rw [modPipeline_eq (g1 := g) (g2 := g) hg (by rw [if_neg hx]) (by simp), tail g rfl, ← hl]
    have h1 : x = none := by cases x <;> simp at hx ⊢
    have h2 : y = none := by cases y <;> simp at hx ⊢
    subst h1 h2
    rw [scan_idle g.lines (by rfl) (by rfl) h92]

theorem one_run_from {env : Env α} {text : Str} {g : GCode α} (hg : GCode.load env (readlines text) = .ok g) (h20 : ∀ l ∈ g.lines, ¬ HasCmd l c!"G20")
    (h92 : ∀ l ∈ g.lines, ¬ HasCmd l c!"G92") (hs : ∀ l ∈ g.lines, IsMove l → ShortNumbers l) (ds : List (Option α × Option α)) :
    ∀ (d : Option α × Option α) (t : Str), moveRuns env text (d :: ds) = .ok t →
    (∀ c ∈ d :: ds, (∃ k : ℤ, c.1.getD 0 = k / 10 ^ 3) ∧ ∃ k : ℤ, c.2.getD 0 = k / 10 ^ 3) →
    (∀ pre, pre <+: d :: ds → (sumX pre ≠ 0 ∨ ∀ c ∈ pre, c.1.getD 0 = 0) ∧ (sumY pre ≠ 0 ∨ ∀ c ∈ pre, c.2.getD 0 = 0)) →
    modPipeline env (some (sumX (d :: ds))) (some (sumY (d :: ds))) false none (readlines text) = .ok t := by
  induction ds with
  | nil =>
    intro d t h _ _
    obtain ⟨t1, h1, h2⟩ := moveRuns_cons h
    obtain ⟨_, _, hz, _⟩ := move_run hg h1
    simp only [moveRuns, Except.ok.injEq] at h2
    subst h2
    rw [move_text hg hz h92] at h1 ⊢
    rw [← h1]
    have : TransSt.init (some (sumX [d])) (some (sumY [d])) = TransSt.init d.1 d.2 := by
      simp [TransSt.init, sumX, sumY]
    rw [this]
  | cons d' ds ih =>
    intro d t h hk hpre
    obtain ⟨t1, h1, h2⟩ := moveRuns_cons h
    obtain ⟨t2, h3, h4⟩ := moveRuns_cons h2
    obtain ⟨_, _, hz, _⟩ := move_run hg h1
    obtain ⟨g1, hg1⟩ := moveRuns_loads h2
    obtain ⟨_, _, hz1, _⟩ := move_run hg1 h3
    have e1 := move_text (x := d.1) (y := d.2) hg hz h92
    rw [h1] at e1
    have e1' := Except.ok.inj e1
    have S : ∀ l ∈ (scan transLine (TransSt.init d.1 d.2) g.lines).2, Saves l ∧ ReadsSame l := by
      intro l hl
      exact ⟨scan_inv (transLine_inv saves_stable) _ _ (saves_loaded hg h20 (load_no_newline hg)) l hl,
        (scan_reads (hk d (by simp)).1 (hk d (by simp)).2 g.lines (s := TransSt.init d.1 d.2) rfl rfl h92 (readsSame_loaded hg h20) hs l hl).1⟩
    have hg1' := hg1
    rw [e1'] at hg1'
    have A := load_same S hg1'
    have h92' : ∀ l ∈ g1.lines, ¬ HasCmd l c!"G92" := by
      have B : ∀ l ∈ (scan transLine (TransSt.init d.1 d.2) g.lines).2, ¬ HasCmd l c!"G92" :=
        scan_all (P := fun l => ¬ HasCmd l c!"G92") (Q := fun l => ¬ HasCmd l c!"G92") transLine (fun s l h => by rwa [hasCmd_congr (transLine_command s l)]) g.lines _ h92
      revert B
      generalize (scan transLine (TransSt.init d.1 d.2) g.lines).2 = a at A
      generalize g1.lines = b at A
      clear * - A
      induction A with
      | nil => intro _ l hl; cases hl
      | @cons x y xs ys k1 _ ih =>
        intro B l hl
        rcases List.mem_cons.1 hl with rfl | hl
        · rw [hasCmd_congr k1.2.1.symm]; exact B x (by simp)
        · exact ih (fun l hl => B l (by simp [hl])) l hl
    have c2 := hpre [d, d'] ⟨ds, rfl⟩
    have two : modPipeline env (some (d.1.getD 0 + d'.1.getD 0)) (some (d.2.getD 0 + d'.2.getD 0)) false none (readlines text) = .ok t2 := by
      rw [move_text hg hz h92, ← h3, move_text hg1 hz1 h92']
      have := scan_twice g.lines (s1 := TransSt.init d.1 d.2) (s2 := TransSt.init d'.1 d'.2)
        (s3 := TransSt.init (some (d.1.getD 0 + d'.1.getD 0)) (some (d.2.getD 0 + d'.2.getD 0))) A h92 rfl rfl rfl rfl
        (by
          rcases c2.1 with k | k
          · exact .inr (by simpa [sumX, TransSt.init] using k)
          · exact .inl ⟨k d (by simp), k d' (by simp)⟩)
        (by
          rcases c2.2 with k | k
          · exact .inr (by simpa [sumY, TransSt.init] using k)
          · exact .inl ⟨k d (by simp), k d' (by simp)⟩)
      have join : ∀ ls : List (PyLine α), ls.flatMap (fun l => l.raw ++ ['\n']) = (ls.map (·.raw)).flatMap (fun t => t ++ ['\n']) := fun ls => by rw [List.flatMap_map]
      rw [join, join, this]
    have sx : sumX (d :: d' :: ds) = sumX ((some (d.1.getD 0 + d'.1.getD 0), some (d.2.getD 0 + d'.2.getD 0)) :: ds) := by
      simp [sumX, add_assoc]
    have sy : sumY (d :: d' :: ds) = sumY ((some (d.1.getD 0 + d'.1.getD 0), some (d.2.getD 0 + d'.2.getD 0)) :: ds) := by
      simp [sumY, add_assoc]
    rw [sx, sy]
    refine ih (some (d.1.getD 0 + d'.1.getD 0), some (d.2.getD 0 + d'.2.getD 0)) t ?_ ?_ ?_
    · simp only [moveRuns, bind, Except.bind, two]
      exact h4
    · intro c hc
      rcases List.mem_cons.1 hc with rfl | hc
      · obtain ⟨⟨a, ha⟩, b, hb⟩ := hk d (by simp)
        obtain ⟨⟨a', ha'⟩, b', hb'⟩ := hk d' (by simp)
        refine ⟨⟨a + a', ?_⟩, b + b', ?_⟩
        · simp only [Option.getD_some, ha, ha']; push_cast; ring
        · simp only [Option.getD_some, hb, hb']; push_cast; ring
      · exact hk c (by simp [hc])
    · intro pre hp
      cases pre with
      | nil => exact ⟨.inr (by simp), .inr (by simp)⟩
      | cons c pre =>
        obtain ⟨rest, hr⟩ := hp
        simp only [List.cons_append, List.cons.injEq] at hr
        obtain ⟨rfl, hr⟩ := hr
        obtain ⟨q1, q2⟩ := hpre (d :: d' :: pre) ⟨rest, by simp [hr]⟩
        constructor
        · rcases q1 with q | q
          · left; simpa [sumX, add_assoc] using q
          · right
            intro c hc
            rcases List.mem_cons.1 hc with rfl | hc
            · simp [q d (by simp), q d' (by simp)]
            · exact q c (by simp [hc])
        · rcases q2 with q | q
          · left; simpa [sumY, add_assoc] using q
          · right
            intro c hc
            rcases List.mem_cons.1 hc with rfl | hc
            · simp [q d (by simp), q d' (by simp)]
            · exact q c (by simp [hc])

/-- **C116** (partial).  If moreover the numbers of the moves have at most three decimals (five for E), the amounts have at most
three decimals, and on each axis the amounts so far never cancel, then the last text is, character for character, what one
run with the sums writes.  Missing: other numbers and amounts, where the texts can differ, see `C116_text_refuted`. -/
theorem C116_one_run_partial {env : Env α} {text t : Str} {g : GCode α} (ds : List (Option α × Option α)) (hds : ds ≠ [])
    (hg : GCode.load env (readlines text) = .ok g) (h : moveRuns env text ds = .ok t) (h20 : ∀ l ∈ g.lines, ¬ HasCmd l c!"G20")
    (h92 : ∀ l ∈ g.lines, ¬ HasCmd l c!"G92") (hs : ∀ l ∈ g.lines, IsMove l → ShortNumbers l)
    (hk : ∀ c ∈ ds, (∃ k : ℤ, c.1.getD 0 = k / 10 ^ 3) ∧ ∃ k : ℤ, c.2.getD 0 = k / 10 ^ 3)
    (hpre : ∀ pre, pre <+: ds → (sumX pre ≠ 0 ∨ ∀ c ∈ pre, c.1.getD 0 = 0) ∧ (sumY pre ≠ 0 ∨ ∀ c ∈ pre, c.2.getD 0 = 0)) :
    modPipeline env (some (sumX ds)) (some (sumY ds)) false none (readlines text) = .ok t := by
  cases ds with
  | nil => exact absurd rfl hds
  | cons d ds => exact one_run_from hg h20 h92 hs ds d t h hk hpre

/-- A program to be moved by several runs. -/
def runsText : Str := c!"G28\nG90\nG1 Z0.3\nG1 X10 Y10 E1 ; draw\nG1 Y20 E2.5\nG1 Z0.6\nG1 X0.125 E4\n"

def runsG : GCode ℚ := loadQ (readlines runsText)

/-- **C116, refuted for texts.**  Moving by 0.0004 twice leaves `X10` where it is, moving once by 0.0008 moves it by 0.001;
moving there and back again rewrites the line and drops its comment. -/
theorem C116_text_refuted :
    moveRuns qEnv runsText [(some (4 / 10000), none), (some (4 / 10000), none)] =
      .ok c!"G28\nG90\nG1 Z0.3\nG1 X10.000 Y10.000 E1.00000\nG1 Y20 E2.5\nG1 Z0.6\nG1 X0.125 E4.00000\n" ∧
    modPipeline qEnv (some (8 / 10000)) none false none (readlines runsText) =
      .ok c!"G28\nG90\nG1 Z0.3\nG1 X10.001 Y10.000 E1.00000\nG1 Y20 E2.5\nG1 Z0.6\nG1 X0.126 E4.00000\n" ∧
    moveRuns qEnv runsText [(some 5, none), (some (-5), none)] =
      .ok c!"G28\nG90\nG1 Z0.3\nG1 X10.000 Y10.000 E1.00000\nG1 Y20 E2.5\nG1 Z0.6\nG1 X0.125 E4.00000\n" ∧
    modPipeline qEnv (some 0) none false none (readlines runsText) = .ok runsText := by decide +kernel

/-- The hypotheses of C116 are met: three runs, two of them on both axes. -/
example : GCode.load qEnv (readlines runsText) = .ok runsG ∧ (∀ l ∈ runsG.lines, CommandFirst l.raw ∧ HomingClear (α := ℚ) l.raw) ∧
    (∀ l ∈ runsG.lines, ¬ HasCmd l c!"G20") ∧ (∀ l ∈ runsG.lines, ¬ HasCmd l c!"G92") ∧ (∀ l ∈ runsG.lines, ¬ HasCmd l c!"G91") ∧
    moveRuns qEnv runsText [(some 5, some 1), (none, some (5 / 2)), (some (-2), some (-1))] =
      .ok c!"G28\nG90\nG1 Z0.3\nG1 X13.000 Y12.500 E1.00000\nG1 Y22.500 E2.50000\nG1 Z0.6\nG1 X3.125 E4.00000\n" := by
  unfold HasCmd; decide +kernel

example : ModeStated runsG.lines := by
  have h2 : runsG.lines.length = 7 ∧ (∀ m ∈ runsG.lines.take 2, ¬ IsMove m) ∧ ∃ m ∈ runsG.lines.take 2, HasCmd m c!"G90" := by decide +kernel
  intro pre l post he hm _
  obtain ⟨_, h3, m, h4, h5⟩ := h2
  refine ⟨m, ?_, .inl h5⟩
  have hlen : 2 ≤ pre.length := by
    by_contra hc
    refine h3 l ?_ hm
    rw [he, List.take_append]
    refine List.mem_append.2 (.inr ?_)
    obtain ⟨k, hk⟩ : ∃ k, 2 - pre.length = k + 1 := ⟨1 - pre.length, by omega⟩
    rw [hk, List.take_succ_cons]
    exact List.mem_cons_self
  rw [he, List.take_append_of_le_length hlen] at h4
  exact List.mem_of_mem_take h4

example : (∀ l ∈ runsG.lines, IsMove l → ShortNumbers l) ∧
    (∀ c ∈ [(some 5, some 1), (none, some (5 / 2)), (some (-2), some (-1))], (∃ k : ℤ, c.1.getD 0 = (k : ℚ) / 10 ^ 3) ∧ ∃ k : ℤ, c.2.getD 0 = (k : ℚ) / 10 ^ 3) ∧
    (∀ pre, pre <+: [((some 5 : Option ℚ), (some 1 : Option ℚ)), (none, some (5 / 2)), (some (-2), some (-1))] →
      (sumX pre ≠ 0 ∨ ∀ c ∈ pre, c.1.getD 0 = 0) ∧ (sumY pre ≠ 0 ∨ ∀ c ∈ pre, c.2.getD 0 = 0)) ∧
    modPipeline qEnv (some (sumX [(some 5, some 1), (none, some (5 / 2)), (some (-2), some (-1))]))
      (some (sumY [(some 5, some 1), (none, some (5 / 2)), (some (-2), some (-1))])) false none (readlines runsText) =
      .ok c!"G28\nG90\nG1 Z0.3\nG1 X13.000 Y12.500 E1.00000\nG1 Y22.500 E2.50000\nG1 Z0.6\nG1 X3.125 E4.00000\n" := by
  refine ⟨?_, ?_, ?_, by decide +kernel⟩
  · have key : ∀ l ∈ runsG.lines, IsMove l →
        (∀ o ∈ [l.x, l.y, l.z, l.f, l.i, l.j], ∀ v ∈ o, (((v * 10 ^ 3).num : ℚ)) = v * 10 ^ 3) ∧ ∀ v ∈ l.e, (((v * 10 ^ 5).num : ℚ)) = v * 10 ^ 5 := by decide +kernel
    intro l hl hm
    obtain ⟨k1, k2⟩ := key l hl hm
    refine ⟨fun o ho v hv => ⟨(v * 10 ^ 3).num, ?_⟩, fun v hv => ⟨(v * 10 ^ 5).num, ?_⟩⟩
    · rw [k1 o ho v hv]; norm_num
    · rw [k2 v hv]; norm_num
  · intro c hc
    simp only [List.mem_cons, List.not_mem_nil, or_false] at hc
    rcases hc with rfl | rfl | rfl
    · exact ⟨⟨5000, by norm_num⟩, ⟨1000, by norm_num⟩⟩
    · exact ⟨⟨0, by norm_num⟩, ⟨2500, by norm_num⟩⟩
    · exact ⟨⟨-2000, by norm_num⟩, ⟨-1000, by norm_num⟩⟩
  · intro pre hp
    rw [← List.mem_inits] at hp
    revert pre
    decide +kernel

end GCodeUtils
