import Verif.Lemmas.Simulate
import Verif.Lemmas.Format
import Verif.Spec.Exec

/-
  Executing the argument values of loaded lines is executing their texts.
-/

set_option linter.unusedSectionVars false

namespace GCodeUtils

open Spec

variable {α : Type} [Field α] [LinearOrder α] [IsStrictOrderedRing α] [FloorRing α]

/-- A command not starting with G, M or T does nothing. -/
theorem exec_inert (home : Pos3 α) (p : Printer α) {l : PyLine α} {r : Str} (hl : l.command = some r)
    (h : r.head? ≠ some 'G' ∧ r.head? ≠ some 'M' ∧ r.head? ≠ some 'T') : p.exec home l = p := by
  unfold Printer.exec
  rw [hl]
  obtain ⟨hG, hM, hT⟩ := h
  have hne : ∀ (d : Char) (n : Str), d ∈ c!"GMT" → r ≠ d :: n := by
    intro d n hd hr
    simp only [List.mem_cons, List.not_mem_nil, or_false] at hd
    rcases hd with rfl | rfl | rfl
    · exact hG (by rw [hr]; rfl)
    · exact hM (by rw [hr]; rfl)
    · exact hT (by rw [hr]; rfl)
  have h0 : ¬ r ∈ [c!"G0", c!"G1", c!"G2", c!"G3"] := by
    simp only [List.mem_cons, List.not_mem_nil, or_false]
    rintro (h | h | h | h) <;> exact hne _ _ (by decide) h
  simp only [if_neg h0, if_neg (hne 'G' _ (by decide)), if_neg (hne 'M' _ (by decide))]
  split
  · exact absurd rfl (hne 'T' _ (by decide))
  · rfl

theorem step_unit (home : Pos3 α) (p : Printer α) (cmd : Str) (ws : List (Char × Str)) (h1 : cmd ≠ c!"G20") (h2 : cmd ≠ c!"G21") :
    (p.step home cmd ws).unit = p.unit := by
  unfold Printer.step
  simp only [if_neg h1, if_neg h2]
  by_cases a0 : cmd ∈ [c!"G0", c!"G1", c!"G2", c!"G3"]
  · rw [if_pos a0]; rfl
  · rw [if_neg a0]
    by_cases a1 : cmd = c!"G28"
    · rw [if_pos a1]; rfl
    · rw [if_neg a1]
      by_cases a2 : cmd = c!"G90"
      · rw [if_pos a2]; rfl
      · rw [if_neg a2]
        by_cases a3 : cmd = c!"G91"
        · rw [if_pos a3]; rfl
        · rw [if_neg a3]
          by_cases a4 : cmd = c!"G92"
          · rw [if_pos a4]; rfl
          · rw [if_neg a4]
            by_cases a5 : cmd = c!"M82"
            · rw [if_pos a5]; rfl
            · rw [if_neg a5]
              by_cases a6 : cmd = c!"M83"
              · rw [if_pos a6]; rfl
              · rw [if_neg a6]; split <;> rfl

/-- Executing words is executing the values they give. -/
theorem exec_eq_step (home : Pos3 α) (p : Printer α) {l : PyLine α} {cmd : Str} {ws : List (Char × Str)}
    (hl : l.command = some cmd) (hv : cmd.head? = some 'G' → ∀ k ∈ c!"xyzef", l.arg k = value p.unit ws k)
    (hh : cmd = c!"G28" → ∀ c ∈ c!"xyz", (value p.unit ws c).isSome = ws.any (·.1 == c)) :
    p.exec home l = p.step home cmd ws := by
  unfold Printer.exec Printer.step
  rw [hl]
  simp only
  by_cases a0 : cmd ∈ [c!"G0", c!"G1", c!"G2", c!"G3"]
  · have hG : cmd.head? = some 'G' := by
      simp only [List.mem_cons, List.not_mem_nil, or_false] at a0
      rcases a0 with rfl | rfl | rfl | rfl <;> rfl
    have := hv hG
    rw [if_pos a0, if_pos a0, ← arg_x, ← arg_y, ← arg_z, ← arg_e, ← arg_f, this _ (by decide), this _ (by decide), this _ (by decide),
      this _ (by decide), this _ (by decide)]
    rfl
  · rw [if_neg a0, if_neg a0]
    by_cases b1 : cmd = c!"G20"
    · rw [if_pos b1, if_pos b1]
    · rw [if_neg b1, if_neg b1]
      by_cases b2 : cmd = c!"G21"
      · rw [if_pos b2, if_pos b2]
      · rw [if_neg b2, if_neg b2]
        by_cases a1 : cmd = c!"G28"
        · have := hv (by rw [a1]; rfl)
          have h2 := hh a1
          rw [if_pos a1, if_pos a1, ← arg_x, ← arg_y, ← arg_z, this _ (by decide), this _ (by decide), this _ (by decide),
            h2 _ (by decide), h2 _ (by decide), h2 _ (by decide)]
          rfl
        · rw [if_neg a1, if_neg a1]
          by_cases a2 : cmd = c!"G90"
          · rw [if_pos a2, if_pos a2]
          · rw [if_neg a2, if_neg a2]
            by_cases a3 : cmd = c!"G91"
            · rw [if_pos a3, if_pos a3]
            · rw [if_neg a3, if_neg a3]
              by_cases a4 : cmd = c!"G92"
              · have := hv (by rw [a4]; rfl)
                rw [if_pos a4, if_pos a4, ← arg_x, ← arg_y, ← arg_z, ← arg_e, this _ (by decide), this _ (by decide), this _ (by decide),
                  this _ (by decide)]
                rfl
              · rw [if_neg a4, if_neg a4]
                rfl

theorem exec_line_any {home : Home α} {m m' : Machine α} {p0 p : Printer α} {r : Str} {l : PyLine α}
    (hp : processLine home m { raw := r } = .ok (m', l)) (hsim : GeoSim m p0) (hin : p.inch = p0.inch) (hc : CommandFirst r)
    (hh : HomingClear (α := α) r) : p.exec home.pos l = p.line home.pos r := by
  obtain ⟨_, hsim2⟩ := process_sim hp hsim hc hh
  have hraw : l.raw = r := (processLine_keeps hp).1
  have hcmd := (processLine_keeps hp).2.1
  have hunit : p.unit = p0.unit := by unfold Printer.unit; rw [hin]
  rcases instr_cases r hc with ⟨h1, h2⟩ | ⟨ts, h1, h2⟩ | ⟨c, v, ts, h1, h2⟩
  · have : l.command = some r := by rw [hcmd]; unfold split; simp only [h1]
    rw [exec_inert _ _ this (not_hasCommand_inert h1)]
    unfold Printer.line; rw [h2]
  · obtain ⟨rfl, rfl⟩ := no_command_line h1 hp
    unfold Printer.line Printer.exec; rw [h2]
  · have hl : ∀ p : Printer α, p.line home.pos r = p.step home.pos (c.toUpper :: v) ((c, v) :: ts.filterMap id) := by
      intro p; unfold Printer.line; rw [h2]
    have h3 := hsim2.command _ _ (by rw [hraw]; exact h2)
    have h4 := hsim2.args _ _ (by rw [hraw]; exact h2)
    unfold HomingClear at hh
    rw [h2] at hh
    simp only at hh
    by_cases hu : (c.toUpper :: v) = c!"G20" ∨ (c.toUpper :: v) = c!"G21"
    · rw [hl]
      unfold Printer.exec Printer.step
      rw [h3.1]
      rcases hu with hu | hu <;> rw [hu] <;> simp
    · push Not at hu
      rw [hl, exec_eq_step home.pos p (ws := (c, v) :: ts.filterMap id) h3.1]
      · intro hG k hk
        rw [h4 k (by revert hk; simp only [List.mem_cons, List.not_mem_nil, or_false]; tauto), if_pos hG, hl, step_unit _ _ _ _ hu.1 hu.2,
          hunit]
      · intro h28
        have hun : p.unit ≠ 0 := by unfold Printer.unit; split <;> norm_num
        exact (homing_flags hun (hh h28)).1

theorem exec_line {home : Home α} {m m' : Machine α} {p : Printer α} {r : Str} {l : PyLine α}
    (hp : processLine home m { raw := r } = .ok (m', l)) (hsim : GeoSim m p) (hc : CommandFirst r)
    (hh : HomingClear (α := α) r) : p.exec home.pos l = p.line home.pos r :=
  exec_line_any hp hsim rfl hc hh

/-- Executing the values of the line is executing its text, as long as the program is in millimetres. -/
def Textual (home : Pos3 α) (l : PyLine α) : Prop := ∀ p : Printer α, p.inch = false → p.exec home l = p.line home l.raw

/-- The printed form of a `G` line, executed in millimetres, does what the rounded values say. -/
theorem line_unsplit (home : Pos3 α) {l : PyLine α} {n : Str} (hcmd : l.command = some ('G' :: n)) (hn : numLen n = n.length)
    (h28 : n ≠ c!"28") (p : Printer α) (hp : p.inch = false) :
    p.line home (unsplit l).raw = p.exec home (reread 1 l { command := l.command }) := by
  have hf := findall_unsplit l 'G' n (by decide) hcmd hn
  have hw : words (unsplit l).raw = ('g', n) :: (lineToks l).filterMap id := by
    unfold words; rw [hf]; rfl
  have hi : instr (unsplit l).raw = some ('G' :: n, ('g', n) :: (lineToks l).filterMap id) := by
    unfold instr; rw [hw]; rfl
  have hu : p.unit = 1 := by unfold Printer.unit; rw [hp]; rfl
  unfold Printer.line
  rw [hi]
  refine (exec_eq_step home p (l := reread 1 l { command := l.command }) hcmd ?_ ?_).symm
  · intro _ k hk
    have hk' : k ∈ c!"xyzefij" := by revert hk; simp only [List.mem_cons, List.not_mem_nil, or_false]; tauto
    have := fold_arg _ (fold_lineToks 1 l { command := l.command }) k hk'
    rw [this, hu]
    have h0 : ({ command := l.command } : PyLine α).arg k = none := by simp [PyLine.arg]
    rw [h0, Option.or_none]
    simp only [value]
    rw [if_neg, Option.or_none]
    rintro ⟨rfl, _⟩
    revert hk; decide
  · intro h; exact absurd (List.cons.inj h).2 h28

theorem exec_inch (home : Pos3 α) (p : Printer α) (l : PyLine α) (h : ¬ HasCmd l c!"G20") (hp : p.inch = false) :
    (p.exec home l).inch = false := by
  unfold Printer.exec
  cases hc : l.command with
  | none => exact hp
  | some cmd =>
    have h20 : cmd ≠ c!"G20" := fun h' => h (by rw [HasCmd, hc, h'])
    simp only [if_neg h20]
    by_cases a0 : cmd ∈ [c!"G0", c!"G1", c!"G2", c!"G3"]
    · rw [if_pos a0]; exact hp
    · rw [if_neg a0]
      by_cases b0 : cmd = c!"G21"
      · rw [if_pos b0]
      · rw [if_neg b0]
        by_cases a1 : cmd = c!"G28"
        · rw [if_pos a1]; exact hp
        · rw [if_neg a1]
          by_cases a2 : cmd = c!"G90"
          · rw [if_pos a2]; exact hp
          · rw [if_neg a2]
            by_cases a3 : cmd = c!"G91"
            · rw [if_pos a3]; exact hp
            · rw [if_neg a3]
              by_cases a4 : cmd = c!"G92"
              · rw [if_pos a4]; exact hp
              · rw [if_neg a4]
                by_cases a5 : cmd = c!"M82"
                · rw [if_pos a5]; exact hp
                · rw [if_neg a5]
                  by_cases a6 : cmd = c!"M83"
                  · rw [if_pos a6]; exact hp
                  · rw [if_neg a6]; split <;> exact hp

theorem run_textual {home : Home α} (texts : List Str) : ∀ {m m' : Machine α} {out : List (PyLine α)},
    Run home m (bare texts) m' out → m.imperial = false → (∀ l ∈ out, ¬ HasCmd l c!"G20") →
    (∀ r ∈ texts, CommandFirst r ∧ HomingClear (α := α) r) → ∀ l ∈ out, Textual home.pos l := by
  induction texts with
  | nil =>
    intro m m' out h _ _ _
    cases h
    simp
  | cons r texts ih =>
    intro m m' out h hs h20 hc
    cases h with
    | cons hp hr =>
      rename_i m1 l' out'
      have hcr := hc r (by simp)
      have hraw := (processLine_keeps hp).1
      have h1 : m1.imperial = false := by
        have := (process_imperial hp).1
        have h20' : ¬ l'.command = some c!"G20" := h20 l' (by simp)
        rw [if_neg h20', hs] at this
        rw [this]; split <;> rfl
      have := ih hr h1 (fun l hl => h20 l (by simp [hl])) (fun r' h' => hc r' (by simp [h']))
      intro l hl
      rcases List.mem_cons.1 hl with rfl | hl
      · intro p hpi
        rw [hraw]
        exact exec_line_any hp (Machine.printer_geo m) (by rw [hpi]; exact hs.symm) hcr.1 hcr.2
      · exact this l hl

/-- The lines of a loaded program in millimetres. -/
theorem load_textual {env : Env α} {data : List Str} {home : Home α} {g : GCode α}
    (h : GCode.load env data false home = .ok g) (hc : ∀ l ∈ g.lines, CommandFirst l.raw ∧ HomingClear (α := α) l.raw)
    (h20 : ∀ l ∈ g.lines, ¬ HasCmd l c!"G20") : ∀ l ∈ g.lines, Textual ⟨home.x, home.y, home.z⟩ l := by
  obtain ⟨out, hr, hl⟩ := load_run' h
  have hout := hl rfl
  rw [← hout] at hr
  refine run_textual _ hr rfl h20 ?_
  intro r hr'
  obtain ⟨l, hl', rfl⟩ := List.mem_map.1 hr'
  exact hc l hl'

theorem run_exec {home : Home α} (texts : List Str) : ∀ {m m' : Machine α} {p : Printer α} {out : List (PyLine α)},
    Run home m (bare texts) m' out → GeoSim m p → (∀ r ∈ texts, CommandFirst r ∧ HomingClear (α := α) r) →
    p.run home.pos out = p.final home.pos texts := by
  induction texts with
  | nil =>
    intro m m' p out h _ _
    cases h
    rfl
  | cons r texts ih =>
    intro m m' p out h hs hc
    cases h with
    | cons hp hr =>
      have hcr := hc r (by simp)
      obtain ⟨g1, _⟩ := process_sim hp hs hcr.1 hcr.2
      have := ih hr g1 (fun r' h' => hc r' (by simp [h']))
      simp only [Printer.run, List.foldl_cons, Printer.final, exec_line hp hs hcr.1 hcr.2] at this ⊢
      exact this

/-- For a loaded program, executing the argument values is executing the texts. -/
theorem load_exec {env : Env α} {data : List Str} {home : Home α} {g : GCode α}
    (h : GCode.load env data false home = .ok g) (hc : ∀ l ∈ g.lines, CommandFirst l.raw ∧ HomingClear (α := α) l.raw) (n : ℕ) :
    (Printer.start : Printer α).run ⟨home.x, home.y, home.z⟩ (g.lines.take n) =
      Printer.start.final ⟨home.x, home.y, home.z⟩ ((g.lines.take n).map (·.raw)) := by
  obtain ⟨out, hr, hl⟩ := load_run' h
  have hout := hl rfl
  rw [← hout] at hr
  have hsp : (bare (g.lines.map (·.raw)) : List (PyLine α)) = bare ((g.lines.take n).map (·.raw)) ++ bare ((g.lines.drop n).map (·.raw)) := by
    unfold bare
    rw [← List.map_append, ← List.map_append, List.take_append_drop]
  rw [hsp] at hr
  obtain ⟨m1, oa, ob, he, h1, h2⟩ := hr.split
  have hlen : oa.length = (g.lines.take n).length := by rw [h1.length]; simp [bare]
  have hoa : oa = g.lines.take n := by
    have := congrArg (List.take oa.length) he
    rw [List.take_left, hlen] at this
    rw [← this]
    simp
  rw [hoa] at h1
  refine run_exec _ h1 init_geo ?_
  intro r hr'
  obtain ⟨l, hl', rfl⟩ := List.mem_map.1 hr'
  exact hc l (List.mem_of_mem_take hl')

end GCodeUtils
