import Verif.Lemmas.Printer
import Verif.Lemmas.Run
import Verif.Lemmas.Append

set_option linter.unusedSectionVars false

namespace GCodeUtils

open Spec

variable {α : Type} [Field α] [LinearOrder α] [IsStrictOrderedRing α] [FloorRing α]

/-- The move commands. -/
abbrev moves : List Str := [c!"G0", c!"G1", c!"G2", c!"G3"]

/-- What loading records on a line, against the reference printer: `p` before, `q` after the line. -/
structure LineSim (p q : Printer α) (l : PyLine α) : Prop where
  noInstr : instr l.raw = none → (∀ k, l.arg k = none) ∧ l.isMove = false ∧ l.extruding = none
  pos : ∀ cmd ws, instr l.raw = some (cmd, ws) → l.currentX = some q.pos.x ∧ l.currentY = some q.pos.y ∧
    l.currentZ = some q.pos.z ∧ l.currentF = some q.feed
  args : ∀ cmd ws, instr l.raw = some (cmd, ws) → ∀ k ∈ c!"xyzefij",
    l.arg k = if cmd.head? = some 'G' then value q.unit ws k else none
  command : ∀ cmd ws, instr l.raw = some (cmd, ws) → l.command = some cmd ∧ (l.isMove = true ↔ cmd ∈ moves)

theorem no_command_line {r : Str} {ts : List Tok} {home : Home α} {m m' : Machine α} {l : PyLine α}
    (h : dropN (findall (lower r)) = none :: ts) (hp : processLine home m { raw := r } = .ok (m', l)) :
    m' = m ∧ l = { raw := r } := by
  have hs : split ({ raw := r } : PyLine α) = ({ raw := r }, none :: ts) := by
    unfold split; simp only [h]; rfl
  rw [processLine_eq_core, hs] at hp
  unfold processCore at hp
  simp only [Except.ok.injEq, Prod.mk.injEq] at hp
  exact ⟨hp.1.symm, hp.2.symm⟩

theorem inch_of_geo {m : Machine α} {p : Printer α} (h : GeoSim m p) :
    (if m.imperial then 254 / 10 else 1 : α) = p.unit := by rw [h.inch]; rfl

theorem stepPos_imperial (home : Home α) (m : Machine α) (l : PyLine α) (cmd : Str) :
    (stepPos home m l cmd).imperial = m.imperial := by
  unfold stepPos
  by_cases h : l.isMove = true
  · rw [if_pos h]
  · rw [if_neg h]
    by_cases h1 : cmd = c!"G28"
    · rw [if_pos h1]; simp only; split_ifs <;> rfl
    · rw [if_neg h1]
      by_cases h2 : cmd = c!"G92"
      · rw [if_pos h2]; simp only; cases l.x <;> cases l.y <;> cases l.z <;> rfl
      · rw [if_neg h2]

/-- One line of the model against the reference printer. -/
theorem process_sim {home : Home α} {m m' : Machine α} {p : Printer α} {r : Str} {l : PyLine α}
    (hp : processLine home m { raw := r } = .ok (m', l)) (hsim : GeoSim m p) (hc : CommandFirst r)
    (hh : HomingClear (α := α) r) : GeoSim m' (p.line home.pos r) ∧ LineSim p (p.line home.pos r) l := by
  have hraw : l.raw = r := (processLine_keeps hp).1
  rcases instr_cases r hc with ⟨h1, h2⟩ | ⟨ts, h1, h2⟩ | ⟨c, v, ts, h1, h2⟩
  · obtain ⟨rfl, h3, h4, h5, _⟩ := process_inert h1 hp
    have hl : p.line home.pos r = p := by unfold Printer.line; rw [h2]
    rw [hl]
    refine ⟨hsim, ⟨fun _ => ⟨fun k => by rw [h3], h4, h5⟩, ?_, ?_, ?_⟩⟩ <;>
      (intro cmd ws h; rw [hraw, h2] at h; simp at h)
  · obtain ⟨rfl, rfl⟩ := no_command_line h1 hp
    have hl : p.line home.pos r = p := by unfold Printer.line; rw [h2]
    rw [hl]
    refine ⟨hsim, ⟨fun _ => ⟨fun k => by simp [PyLine.arg], rfl, rfl⟩, ?_, ?_, ?_⟩⟩ <;>
      (intro cmd ws h; rw [hraw, h2] at h; simp at h)
  · obtain ⟨m1, l1, l2, e1, e2, e3, e4, e5⟩ := process_cmd h1 hp
    have hl : p.line home.pos r = p.step home.pos (c.toUpper :: v) ((c, v) :: ts.filterMap id) := by
      unfold Printer.line; rw [h2]
    unfold HomingClear at hh
    rw [h2] at hh
    simp only at hh
    have g1 := stepPos_geo (home := home) hsim (by rfl) e1 e3 e2 hh
    have g2 : GeoSim m' (p.line home.pos r) := by rw [e4, hl]; exact stepExtrusion_geo g1
    refine ⟨g2, ⟨?_, ?_, ?_, ?_⟩⟩
    · intro h; rw [hraw, h2] at h; simp at h
    · intro cmd ws h
      obtain ⟨k1, k2, k3, k4, _, k5, k6, k7, k8⟩ := stamp_keeps (stepPos home m1 l2 (c.toUpper :: v)) l2 (c.toUpper :: v)
      rw [← g2.px, ← g2.py, ← g2.pz, ← g2.feed, e4, k5, k6, k7, k8, e5]
      exact ⟨k1, k2, k3, k4⟩
    · intro cmd ws h k hk
      rw [hraw, h2] at h
      simp only [Option.some.injEq, Prod.mk.injEq] at h
      obtain ⟨rfl, rfl⟩ := h
      obtain ⟨_, _, _, _, k5, _⟩ := stamp_keeps (stepPos home m1 l2 (c.toUpper :: v)) l2 (c.toUpper :: v)
      have hla : l.arg k = l2.arg k := by rw [e5, ← k5 k]; rfl
      rw [hla, e2 k hk]
      have hi : m1.imperial = m'.imperial := by
        rw [e4]
        obtain ⟨te, ce, me, oe, ex, he⟩ := stepExtrusion_shape (stepPos home m1 l2 (c.toUpper :: v)) (stamp (stepPos home m1 l2 (c.toUpper :: v)) l2) (c.toUpper :: v)
        rw [he]
        exact (stepPos_imperial _ _ _ _).symm
      unfold cmdArgs
      rw [hi, inch_of_geo g2]
    · intro cmd ws h
      rw [hraw, h2] at h
      simp only [Option.some.injEq, Prod.mk.injEq] at h
      obtain ⟨rfl, rfl⟩ := h
      obtain ⟨te, ce, me, oe, ex, he⟩ := stepExtrusion_shape (stepPos home m1 l2 (c.toUpper :: v)) (stamp (stepPos home m1 l2 (c.toUpper :: v)) l2) (c.toUpper :: v)
      obtain ⟨x, y, z, e, f, i, j, hl2⟩ := e3
      have hcm : l1.command = some (c.toUpper :: v) ∧ l1.isMove = moveGcodes.contains (c.toUpper :: v) := by
        rcases stepModes_shape e1 with ⟨_, _, rfl⟩ | ⟨_, rfl, _⟩ <;> exact ⟨rfl, rfl⟩
      rw [e5, he, hl2]
      exact ⟨hcm.1, by rw [show moves = [c!"G0", c!"G1", c!"G2", c!"G3"] from rfl, ← moves_iff, ← hcm.2]; rfl⟩

/-! ### filament -/

/-- The filament accounts agree; `ok`: the E offsets agree too. -/
structure ESim (ok : Bool) (m : Machine α) (p : Printer α) : Prop where
  cur : m.currentE = p.e
  tot : m.totalE = p.pushed
  mx : m.maxE = p.maxPushed
  off : ok = true → m.offsetE = p.eOrg
  le : p.pushed ≤ p.maxPushed

theorem stepPos_e (home : Home α) (m : Machine α) (l : PyLine α) (cmd : Str) :
    (stepPos home m l cmd).currentE = m.currentE ∧ (stepPos home m l cmd).totalE = m.totalE ∧
    (stepPos home m l cmd).maxE = m.maxE ∧ (stepPos home m l cmd).offsetE = m.offsetE := by
  unfold stepPos
  by_cases h : l.isMove = true
  · rw [if_pos h]; exact ⟨rfl, rfl, rfl, rfl⟩
  · rw [if_neg h]
    by_cases h1 : cmd = c!"G28"
    · rw [if_pos h1]; simp only; split_ifs <;> exact ⟨rfl, rfl, rfl, rfl⟩
    · rw [if_neg h1]
      by_cases h2 : cmd = c!"G92"
      · rw [if_pos h2]; simp only; cases l.x <;> cases l.y <;> cases l.z <;> exact ⟨rfl, rfl, rfl, rfl⟩
      · rw [if_neg h2]; exact ⟨rfl, rfl, rfl, rfl⟩

/-- Instructions other than moves and `G92` leave the filament alone. -/
theorem step_e_other (home : Pos3 α) (p : Printer α) (cmd : Str) (ws : List (Char × Str))
    (h1 : cmd ∉ moves) (h2 : cmd ≠ c!"G92") :
    (p.step home cmd ws).e = p.e ∧ (p.step home cmd ws).pushed = p.pushed ∧
    (p.step home cmd ws).maxPushed = p.maxPushed ∧ (p.step home cmd ws).eOrg = p.eOrg := by
  unfold Printer.step
  rw [if_neg h1]
  by_cases a1 : cmd = c!"G20"
  · rw [if_pos a1]; exact ⟨rfl, rfl, rfl, rfl⟩
  rw [if_neg a1]
  by_cases a2 : cmd = c!"G21"
  · rw [if_pos a2]; exact ⟨rfl, rfl, rfl, rfl⟩
  rw [if_neg a2]
  by_cases a3 : cmd = c!"G28"
  · rw [if_pos a3]; exact ⟨rfl, rfl, rfl, rfl⟩
  rw [if_neg a3]
  by_cases a4 : cmd = c!"G90"
  · rw [if_pos a4]; exact ⟨rfl, rfl, rfl, rfl⟩
  rw [if_neg a4]
  by_cases a5 : cmd = c!"G91"
  · rw [if_pos a5]; exact ⟨rfl, rfl, rfl, rfl⟩
  rw [if_neg a5, if_neg h2]
  by_cases a6 : cmd = c!"M82"
  · rw [if_pos a6]; exact ⟨rfl, rfl, rfl, rfl⟩
  rw [if_neg a6]
  by_cases a7 : cmd = c!"M83"
  · rw [if_pos a7]; exact ⟨rfl, rfl, rfl, rfl⟩
  rw [if_neg a7]
  split <;> exact ⟨rfl, rfl, rfl, rfl⟩

/-- One line: filament. -/
theorem process_esim {home : Home α} {m m' : Machine α} {p : Printer α} {ok : Bool} {r : Str} {l : PyLine α}
    (hp : processLine home m { raw := r } = .ok (m', l)) (hsim : GeoSim m p) (hes : ESim ok m p) (hc : CommandFirst r)
    (hcl : ∀ cmd ws, instr r = some (cmd, ws) → cmd ∈ moves → (value p.unit ws 'e').isSome = true →
      p.relE = true ∨ ok = true) :
    ESim (p.eFlag ok r) m' (p.line home.pos r) ∧
      (l.extruding.getD false = true ↔ 0 < (p.line home.pos r).pushed - p.pushed) := by
  rcases instr_cases r hc with ⟨h1, h2⟩ | ⟨ts, h1, h2⟩ | ⟨c, v, ts, h1, h2⟩
  · obtain ⟨rfl, h3, h4, h5, _⟩ := process_inert h1 hp
    have hl : p.line home.pos r = p := by unfold Printer.line; rw [h2]
    have hf : p.eFlag ok r = ok := by unfold Printer.eFlag; rw [h2]
    rw [hl, hf, h5]
    exact ⟨hes, by simp⟩
  · obtain ⟨rfl, rfl⟩ := no_command_line h1 hp
    have hl : p.line home.pos r = p := by unfold Printer.line; rw [h2]
    have hf : p.eFlag ok r = ok := by unfold Printer.eFlag; rw [h2]
    rw [hl, hf]
    exact ⟨hes, by simp⟩
  · obtain ⟨m1, l1, l2, e1, e2, e3, e4, e5⟩ := process_cmd h1 hp
    have hl : p.line home.pos r = p.step home.pos (c.toUpper :: v) ((c, v) :: ts.filterMap id) := by
      unfold Printer.line; rw [h2]
    have hcl' := hcl _ _ h2
    have hf : p.eFlag ok r = if c.toUpper :: v = c!"G92" then
        (match value p.unit ((c, v) :: ts.filterMap id) 'e' with
          | some k => decide (p.e = 2 * k)
          | none => ok) else ok := by unfold Printer.eFlag; rw [h2]; rfl
    rw [hf, hl]
    generalize hcmd : c.toUpper :: v = cmd at *
    generalize hws : (c, v) :: ts.filterMap id = ws at *
    obtain ⟨x, y, z, e, f, i, j, hl2⟩ := e3
    obtain ⟨p1, p2, p3, p4⟩ := stepPos_e home m1 l2 cmd
    have hve : l2.e = cmdArgs (if m1.imperial then 254 / 10 else 1) cmd ws 'e' := by rw [← arg_e, e2 'e' (by decide)]
    by_cases hm : cmd ∈ moves
    · have hG : cmd.head? = some 'G' := by
        simp only [moves, List.mem_cons, List.not_mem_nil, or_false] at hm
        rcases hm with rfl | rfl | rfl | rfl <;> rfl
      have h92 : cmd ≠ c!"G92" := by
        simp only [moves, List.mem_cons, List.not_mem_nil, or_false] at hm
        rcases hm with rfl | rfl | rfl | rfl <;> decide
      rw [if_neg h92]
      have hmv : moveGcodes.contains cmd = true := (moves_iff cmd).2 hm
      rcases stepModes_shape e1 with ⟨_, rfl, hl1⟩ | ⟨hf', _⟩
      swap
      · simp only at hf'; rw [hf'] at hmv; simp at hmv
      unfold cmdArgs at hve
      rw [if_pos hG, inch_of_geo hsim] at hve
      have hst : p.step home.pos cmd ws = p.move ws := by unfold Printer.step; rw [if_pos hm]
      rw [hst]
      have hmv2 : l2.isMove = true := by rw [hl2, hl1]; exact hmv
      have hrel : l2.relativeE = some m1.relativeE := by rw [hl2, hl1]
      have hex0 : l2.extruding = none := by rw [hl2, hl1]
      have hcl2 := hcl' hm
      rw [← hve] at hcl2
      unfold stepExtrusion at e4 e5
      rw [e4]
      have hst1 : (stamp (stepPos home m1 l2 cmd) l2).e = l2.e := rfl
      have hst2 : (stamp (stepPos home m1 l2 cmd) l2).isMove = l2.isMove := rfl
      have hst3 : (stamp (stepPos home m1 l2 cmd) l2).relativeE = l2.relativeE := rfl
      rw [hst1] at e5 ⊢
      unfold Printer.move
      simp only [← hve]
      cases hle : l2.e with
      | none =>
        rw [hle] at e5
        simp only at e5 ⊢
        refine ⟨⟨?_, ?_, ?_, ?_, ?_⟩, ?_⟩
        · rw [p1, hes.cur]; simp [Printer.push]
        · rw [p2, hes.tot]; simp [Printer.push]
        · rw [p3]
          simp only [Printer.push, add_zero]
          rw [hes.mx, max_eq_left hes.le]
        · intro h; rw [p4]; exact hes.off h
        · exact le_max_right _ _
        · rw [e5]; simp [stamp, hex0, Printer.push]
      | some k =>
        rw [hle] at e5
        simp only [hst2, hmv2, hst3, hrel, if_true, Option.getD_some] at e5 ⊢
        rw [hle] at hcl2
        simp only [Option.isSome_some, true_imp_iff] at hcl2
        by_cases hre : m1.relativeE = true
        · rw [if_pos hre] at e5 ⊢
          have hpr : p.relE = true := by rw [← hsim.relE]; exact hre
          have hpush : p.push (some k) = k := by simp [Printer.push, axis, hpr]
          simp only [hpush]
          refine ⟨⟨?_, ?_, ?_, ?_, ?_⟩, ?_⟩
          · simp only [p1, hes.cur]
          · simp only [p2, hes.tot]
          · simp only [p2, p3, hes.tot, hes.mx]
          · intro h; simp only [p4]; exact hes.off h
          · exact le_max_right _ _
          · rw [e5]; simp
        · rw [if_neg hre] at e5 ⊢
          have hpr : p.relE = false := by rw [← hsim.relE]; simpa using hre
          have hok : ok = true := by
            rcases hcl2 with h | h
            · rw [hpr] at h; simp at h
            · exact h
          have ho := hes.off hok
          have hpush : p.push (some k) = p.eOrg + k - p.e := by simp [Printer.push, axis, hpr]
          simp only [hpush]
          refine ⟨⟨?_, ?_, ?_, ?_, ?_⟩, ?_⟩
          · simp only [p4, ho]; ring
          · simp only [p1, p2, p4, hes.tot, ho, hes.cur]; ring
          · simp only [p1, p2, p3, p4, hes.tot, hes.mx, ho, hes.cur]; congr 2; ring
          · intro h; simp only [p4]; exact ho
          · exact le_max_right _ _
          · rw [e5]
            simp only [p1, p4, ho, hes.cur, Option.getD_some, decide_eq_true_eq, add_sub_cancel_left, sub_pos]
            rw [add_comm]
    · have hmf : moveGcodes.contains cmd = false := by
        rw [Bool.eq_false_iff]; intro h; exact hm ((moves_iff cmd).1 h)
      rcases stepModes_shape e1 with ⟨hf', _⟩ | ⟨_, hl1, i', r', re', t', hm1⟩
      · simp only at hf'; rw [hf'] at hmf; simp at hmf
      have hmv2 : l2.isMove = false := by rw [hl2, hl1]; exact hmf
      have hex0 : l2.extruding = none := by rw [hl2, hl1]
      have hex : l.extruding = none := by
        rw [e5]
        unfold stepExtrusion
        have hst1 : (stamp (stepPos home m1 l2 cmd) l2).e = l2.e := rfl
        have hst2 : (stamp (stepPos home m1 l2 cmd) l2).isMove = l2.isMove := rfl
        rw [hst1, hst2, hmv2]
        cases l2.e with
        | none => simp [stamp, hex0]
        | some k =>
          simp only [Bool.false_eq_true, if_false]
          split_ifs <;> simp [stamp, hex0]
      rw [hex]
      have q1 : m1.currentE = m.currentE := by rw [hm1]
      have q2 : m1.totalE = m.totalE := by rw [hm1]
      have q3 : m1.maxE = m.maxE := by rw [hm1]
      have q4 : m1.offsetE = m.offsetE := by rw [hm1]
      by_cases h92 : cmd = c!"G92"
      · have hG : cmd.head? = some 'G' := by rw [h92]; rfl
        have him : m1.imperial = m.imperial := by
          unfold stepModes at e1
          rw [h92] at e1
          simp [moveGcodes] at e1
          rw [← e1.1]
        unfold cmdArgs at hve
        rw [if_pos hG, him, inch_of_geo hsim] at hve
        have hst : p.step home.pos cmd ws = p.setPosition ws := by
          unfold Printer.step
          rw [if_neg hm, h92]
          simp
        rw [hst, if_pos h92]
        unfold Printer.setPosition
        simp only [← hve]
        refine ⟨?_, by simp⟩
        rw [e4]
        unfold stepExtrusion
        have hst1 : (stamp (stepPos home m1 l2 cmd) l2).e = l2.e := rfl
        have hst2 : (stamp (stepPos home m1 l2 cmd) l2).isMove = l2.isMove := rfl
        rw [hst1, hst2, hmv2]
        cases hle : l2.e with
        | none =>
          refine ⟨?_, ?_, ?_, ?_, hes.le⟩
          · simp only [p1, q1, hes.cur]
          · simp only [p2, q2, hes.tot]
          · simp only [p3, q3, hes.mx]
          · simp only [p4, q4, relabel]; exact hes.off
        | some k =>
          simp only [Bool.false_eq_true, if_false]
          rw [if_pos h92]
          refine ⟨?_, ?_, ?_, ?_, hes.le⟩
          · simp only [p1, q1, hes.cur]
          · simp only [p2, q2, hes.tot]
          · simp only [p3, q3, hes.mx]
          · intro h
            have h := of_decide_eq_true h
            simp only [relabel]
            linarith
      · rw [if_neg h92]
        obtain ⟨s1, s2, s3, s4⟩ := step_e_other home.pos p cmd ws hm h92
        refine ⟨?_, by rw [s2]; simp⟩
        rw [e4]
        unfold stepExtrusion
        have hst1 : (stamp (stepPos home m1 l2 cmd) l2).e = l2.e := rfl
        have hst2 : (stamp (stepPos home m1 l2 cmd) l2).isMove = l2.isMove := rfl
        rw [hst1, hst2, hmv2]
        have goal : ESim ok (stepPos home m1 l2 cmd) (p.step home.pos cmd ws) :=
          ⟨by rw [p1, q1, s1, hes.cur], by rw [p2, q2, s2, hes.tot], by rw [p3, q3, s3, hes.mx],
            fun h => by rw [p4, q4, s4]; exact hes.off h, by rw [s2, s3]; exact hes.le⟩
        cases l2.e with
        | none => exact goal
        | some k =>
          simp only [Bool.false_eq_true, if_false]
          rw [if_neg h92]
          exact goal

/-! ### whole runs -/

theorem init_geo : GeoSim (Machine.init : Machine α) Printer.start :=
  ⟨rfl, rfl, rfl, rfl, rfl, rfl, rfl, rfl, rfl, rfl, rfl⟩

theorem init_esim : ESim true (Machine.init : Machine α) Printer.start := ⟨rfl, rfl, rfl, fun _ => rfl, le_refl _⟩

/-- The lines of a list of texts. -/
def bare (texts : List Str) : List (PyLine α) := texts.map (fun s => { raw := s })

theorem readLines_bare (data : List Str) : (readLines data : List (PyLine α)) =
    bare ((data.map strip).filter (fun s => !s.isEmpty)) := rfl

theorem bare_raws (texts : List Str) : (bare texts : List (PyLine α)).map (·.raw) = texts := by
  simp [bare, Function.comp_def]

theorem Run.raws {home : Home α} {m m' : Machine α} {ls out : List (PyLine α)} (h : Run home m ls m' out) :
    out.map (·.raw) = ls.map (·.raw) := by
  induction h with
  | nil => rfl
  | cons hp _ ih => simp [ih, (processLine_keeps hp).1]

theorem final_append (home : Pos3 α) (p : Printer α) (a b : List Str) :
    p.final home (a ++ b) = (p.final home a).final home b := by
  simp [Printer.final]

theorem run_sim {home : Home α} (texts : List Str) : ∀ {m m' : Machine α} {p : Printer α} {out : List (PyLine α)},
    Run home m (bare texts) m' out → GeoSim m p →
    (∀ r ∈ texts, CommandFirst r ∧ HomingClear (α := α) r) →
    GeoSim m' (p.final home.pos texts) ∧
      ∀ pre l post, out = pre ++ l :: post → LineSim (p.final home.pos (pre.map (·.raw)))
        ((p.final home.pos (pre.map (·.raw))).line home.pos l.raw) l := by
  induction texts with
  | nil =>
    intro m m' p out h hs _
    cases h
    exact ⟨hs, fun pre l post he => by simp at he⟩
  | cons r texts ih =>
    intro m m' p out h hs hc
    cases h with
    | cons hp hr =>
      rename_i m1 l' out'
      have hcr := hc r (by simp)
      obtain ⟨g1, g2⟩ := process_sim hp hs hcr.1 hcr.2
      obtain ⟨i1, i2⟩ := ih hr g1 (fun r' h' => hc r' (by simp [h']))
      refine ⟨i1, ?_⟩
      intro pre l post he
      cases pre with
      | nil =>
        simp only [List.nil_append, List.cons.injEq] at he
        obtain ⟨rfl, rfl⟩ := he
        have : l'.raw = r := (processLine_keeps hp).1
        simp only [List.map_nil, Printer.final, List.foldl_nil, this]
        exact g2
      | cons q pre =>
        simp only [List.cons_append, List.cons.injEq] at he
        obtain ⟨rfl, rfl⟩ := he
        have := i2 pre l post rfl
        have hq : l'.raw = r := (processLine_keeps hp).1
        simp only [List.map_cons, Printer.final, List.foldl_cons, hq]
        exact this

theorem run_esim {home : Home α} (texts : List Str) : ∀ {m m' : Machine α} {p : Printer α} {ok : Bool}
    {out : List (PyLine α)},
    Run home m (bare texts) m' out → GeoSim m p → ESim ok m p →
    (∀ r ∈ texts, CommandFirst r ∧ HomingClear (α := α) r) → Printer.EClear home.pos ok p texts →
    (∃ ok', ESim ok' m' (p.final home.pos texts)) ∧
      ∀ pre l post, out = pre ++ l :: post → (l.extruding.getD false = true ↔
        0 < ((p.final home.pos (pre.map (·.raw))).line home.pos l.raw).pushed - (p.final home.pos (pre.map (·.raw))).pushed) := by
  induction texts with
  | nil =>
    intro m m' p ok out h _ he _ _
    cases h
    exact ⟨⟨ok, he⟩, fun pre l post he => by simp at he⟩
  | cons r texts ih =>
    intro m m' p ok out h hs hes hc hcl
    cases h with
    | cons hp hr =>
      rename_i m1 l' out'
      have hcr := hc r (by simp)
      obtain ⟨g1, g2⟩ := process_sim hp hs hcr.1 hcr.2
      obtain ⟨e1, e2⟩ := process_esim hp hs hes hcr.1
        (fun cmd ws hi => by have h1 := hcl.1; rw [hi] at h1; exact h1)
      obtain ⟨i1, i2⟩ := ih hr g1 e1 (fun r' h' => hc r' (by simp [h'])) hcl.2
      refine ⟨i1, ?_⟩
      intro pre l post he
      cases pre with
      | nil =>
        simp only [List.nil_append, List.cons.injEq] at he
        obtain ⟨rfl, rfl⟩ := he
        have : l'.raw = r := (processLine_keeps hp).1
        simp only [List.map_nil, Printer.final, List.foldl_nil, this]
        exact e2
      | cons q pre =>
        simp only [List.cons_append, List.cons.injEq] at he
        obtain ⟨rfl, rfl⟩ := he
        have := i2 pre l post rfl
        have hq : l'.raw = r := (processLine_keeps hp).1
        simp only [List.map_cons, Printer.final, List.foldl_cons, hq]
        exact this

/-- A loaded program as a run over its own texts. -/
theorem load_run' {env : Env α} {data : List Str} {light : Bool} {home : Home α} {g : GCode α}
    (h : GCode.load env data light home = .ok g) :
    ∃ out, Run home Machine.init (bare (g.lines.map (·.raw))) g.m out ∧ (light = false → g.lines = out) := by
  obtain ⟨out, hr, hl⟩ := load_run h
  have hraw : g.lines.map (·.raw) = (readLines data : List (PyLine α)).map (·.raw) := by
    rw [hl]; split_ifs
    · rfl
    · exact hr.raws
  have hb : (bare (g.lines.map (·.raw)) : List (PyLine α)) = readLines data := by
    rw [hraw, readLines_bare, bare_raws]
  rw [hb]
  exact ⟨out, hr, fun hf => by rw [hl, hf]; rfl⟩

/-! ### units, without conditions -/

/-- The unit flag follows the recorded commands. -/
theorem process_imperial {home : Home α} {m m' : Machine α} {r : Str} {l : PyLine α}
    (hp : processLine home m { raw := r } = .ok (m', l)) :
    m'.imperial = (if l.command = some c!"G20" then true else if l.command = some c!"G21" then false else m.imperial) ∧
    (∀ cmd, l.command = some cmd → cmd.head? = some 'G' → ∀ k ∈ c!"xyzefij",
      l.arg k = value (if m'.imperial then 254 / 10 else 1) (words r) k) := by
  have hdrop : ∀ k ∈ c!"xyzefij", ∀ u : α, value u (words r) k = value u ((dropN (findall (lower r))).filterMap id) k := by
    intro k hk u
    unfold words dropN
    cases findall (lower r) with
    | nil => rfl
    | cons t ts =>
      cases t with
      | none => rfl
      | some q =>
        obtain ⟨c, v⟩ := q
        by_cases hc : c = 'n'
        · subst hc
          simp only [List.filterMap_cons, id, value]
          rw [if_neg]
          · simp
          · rintro ⟨rfl, _⟩; revert hk; decide
        · simp only [hc, if_false]
  cases hd : dropN (findall (lower r)) with
  | nil =>
    obtain ⟨rfl, h3, h4, h5, _⟩ := process_inert hd hp
    have hcm : l.command = some r := by
      have hs : split ({ raw := r } : PyLine α) = ({ raw := r, command := some r, isMove := false }, []) := by
        unfold split; simp only [hd]
      have := (processLine_keeps hp).2
      rw [hs] at this
      simpa using this.1
    obtain ⟨hG, _, _⟩ := not_hasCommand_inert hd
    have hne : ∀ n : Str, l.command ≠ some ('G' :: n) := by
      intro n hn; rw [hcm] at hn; simp only [Option.some.injEq] at hn; rw [hn] at hG; exact hG rfl
    refine ⟨by rw [if_neg (hne _), if_neg (hne _)], ?_⟩
    intro cmd hc hg
    rw [hcm] at hc
    simp only [Option.some.injEq] at hc
    subst hc
    exact absurd hg hG
  | cons t ts =>
    cases t with
    | none =>
      obtain ⟨rfl, rfl⟩ := no_command_line hd hp
      exact ⟨rfl, fun cmd hc => by simp at hc⟩
    | some q =>
      obtain ⟨c, v⟩ := q
      obtain ⟨m1, l1, l2, e1, e2, e3, e4, e5⟩ := process_cmd hd hp
      obtain ⟨te, ce, me, oe, ex, he⟩ := stepExtrusion_shape (stepPos home m1 l2 (c.toUpper :: v)) (stamp (stepPos home m1 l2 (c.toUpper :: v)) l2) (c.toUpper :: v)
      have hi : m'.imperial = m1.imperial := by
        rw [e4, he]; exact (stepPos_imperial _ _ _ _)
      obtain ⟨_, _, _, _, k5, _⟩ := stamp_keeps (stepPos home m1 l2 (c.toUpper :: v)) l2 (c.toUpper :: v)
      have hla : ∀ k, l.arg k = l2.arg k := by intro k; rw [e5, ← k5 k]; rfl
      obtain ⟨x, y, z, e, f, i, j, hl2⟩ := e3
      have hcm : l1.command = some (c.toUpper :: v) := by
        rcases stepModes_shape e1 with ⟨_, _, rfl⟩ | ⟨_, rfl, _⟩ <;> rfl
      have hcl : l.command = some (c.toUpper :: v) := by rw [e5, he, hl2]; exact hcm
      refine ⟨?_, ?_⟩
      · rw [hi, hcl]
        simp only [Option.some.injEq]
        generalize c.toUpper :: v = cmd at e1
        unfold stepModes at e1
        simp only at e1
        by_cases a1 : moveGcodes.contains cmd = true
        · rw [if_pos a1] at e1
          simp only [Except.ok.injEq, Prod.mk.injEq] at e1
          have hm := (moves_iff cmd).1 a1
          rw [← e1.1]
          simp only [List.mem_cons, List.not_mem_nil, or_false] at hm
          rcases hm with rfl | rfl | rfl | rfl <;> rfl
        rw [if_neg a1] at e1
        by_cases a2 : cmd = c!"G20"
        · rw [if_pos a2] at e1 ⊢
          simp only [Except.ok.injEq, Prod.mk.injEq] at e1
          rw [← e1.1]
        rw [if_neg a2] at e1 ⊢
        by_cases a3 : cmd = c!"G21"
        · rw [if_pos a3] at e1 ⊢
          simp only [Except.ok.injEq, Prod.mk.injEq] at e1
          rw [← e1.1]
        rw [if_neg a3] at e1 ⊢
        split_ifs at e1
        all_goals first
            | (simp only [Except.ok.injEq, Prod.mk.injEq] at e1; rw [← e1.1])
            | skip
        cases hpi : parseInt cmd.tail with
        | none => rw [hpi] at e1; simp at e1
        | some t =>
          rw [hpi] at e1
          simp only [Except.ok.injEq, Prod.mk.injEq] at e1
          rw [← e1.1]
      · intro cmd hc hg k hk
        rw [hcl] at hc
        simp only [Option.some.injEq] at hc
        rw [hla, e2 k hk, hi, hdrop k hk, hd]
        unfold cmdArgs
        rw [hc, if_pos hg]
        rfl

theorem run_units {home : Home α} (texts : List Str) : ∀ {m m' : Machine α} {out : List (PyLine α)},
    Run home m (bare texts) m' out →
    ∀ pre l post, out = pre ++ l :: post → ∀ cmd, l.command = some cmd → cmd.head? = some 'G' → ∀ k ∈ c!"xyzefij",
      l.arg k = value (if ((pre ++ [l]).map (·.command)).foldl (fun b c => if c = some c!"G20" then true else if c = some c!"G21" then false else b) m.imperial then 254 / 10 else 1) (words l.raw) k := by
  induction texts with
  | nil =>
    intro m m' out h pre l post he
    cases h
    simp at he
  | cons r texts ih =>
    intro m m' out h pre l post he
    cases h with
    | cons hp hr =>
      rename_i m1 l' out'
      obtain ⟨g1, g2⟩ := process_imperial hp
      have hq : l'.raw = r := (processLine_keeps hp).1
      cases pre with
      | nil =>
        simp only [List.nil_append, List.cons.injEq] at he
        obtain ⟨rfl, rfl⟩ := he
        intro cmd hc hg k hk
        rw [g2 cmd hc hg k hk, hq]
        simp only [List.nil_append, List.map_cons, List.map_nil, List.foldl_cons, List.foldl_nil, ← g1]
      | cons q pre =>
        simp only [List.cons_append, List.cons.injEq] at he
        obtain ⟨rfl, rfl⟩ := he
        have := ih hr pre l post rfl
        simp only [List.cons_append, List.map_cons, List.foldl_cons, ← g1]
        exact this

/-! ### inches against millimetres -/

/-- Same printer, other unit. -/
def Printer.withInch (b : Bool) (p : Printer α) : Printer α := { p with inch := b }

theorem inchMm_line (home : Pos3 α) {p : Printer α} {r s : Str} (h : InchMm α r s) :
    ((Printer.withInch true p).line home r) = Printer.withInch true ((Printer.withInch false p).line home s) := by
  unfold Printer.line
  rcases h with ⟨h1, h2⟩ | ⟨cmd, ws, vs, h1, h2, n20, n21, hl, hv⟩
  · rw [h1, h2]; rfl
  · rw [h1, h2]
    simp only
    have hval : ∀ k ∈ c!"xyzef", value ((Printer.withInch true p).unit) ws k = value ((Printer.withInch false p).unit) vs k := by
      intro k hk
      have u1 : (Printer.withInch true p).unit = 254 / 10 := rfl
      have u2 : (Printer.withInch false p).unit = 1 := rfl
      rw [u1, u2, value_scale, hv k hk]
    have hany : ∀ k : Char, ws.any (·.1 == k) = vs.any (·.1 == k) := by
      intro k
      have : ∀ l : List (Char × Str), l.any (·.1 == k) = (l.map (·.1)).any (· == k) := by
        intro l; simp [List.any_map, Function.comp_def]
      rw [this, this, hl]
    unfold Printer.step
    rw [if_neg n20, if_neg n20, if_neg n21, if_neg n21]
    by_cases c1 : cmd ∈ [c!"G0", c!"G1", c!"G2", c!"G3"]
    · rw [if_pos c1, if_pos c1]
      unfold Printer.move
      simp only [hval 'x' (by decide), hval 'y' (by decide), hval 'z' (by decide), hval 'e' (by decide), hval 'f' (by decide)]
      rfl
    rw [if_neg c1, if_neg c1]
    by_cases c2 : cmd = c!"G28"
    · rw [if_pos c2, if_pos c2]
      unfold Printer.homing
      simp only [hany]
      rfl
    rw [if_neg c2, if_neg c2]
    by_cases c3 : cmd = c!"G90"
    · rw [if_pos c3, if_pos c3]; rfl
    rw [if_neg c3, if_neg c3]
    by_cases c4 : cmd = c!"G91"
    · rw [if_pos c4, if_pos c4]; rfl
    rw [if_neg c4, if_neg c4]
    by_cases c5 : cmd = c!"G92"
    · rw [if_pos c5, if_pos c5]
      unfold Printer.setPosition
      simp only [hval 'x' (by decide), hval 'y' (by decide), hval 'z' (by decide), hval 'e' (by decide)]
      rfl
    rw [if_neg c5, if_neg c5]
    by_cases c6 : cmd = c!"M82"
    · rw [if_pos c6, if_pos c6]; rfl
    rw [if_neg c6, if_neg c6]
    by_cases c7 : cmd = c!"M83"
    · rw [if_pos c7, if_pos c7]; rfl
    rw [if_neg c7, if_neg c7]
    split <;> rfl

theorem inch_stays (home : Pos3 α) {p : Printer α} {r s : Str} (h : InchMm α r s) :
    ((Printer.withInch false p).line home s).inch = false := by
  unfold Printer.line
  rcases h with ⟨h1, h2⟩ | ⟨cmd, ws, vs, h1, h2, n20, n21, hl, hv⟩
  · rw [h2]; rfl
  · rw [h2]
    simp only
    unfold Printer.step
    rw [if_neg n20, if_neg n21]
    by_cases c1 : cmd ∈ [c!"G0", c!"G1", c!"G2", c!"G3"]
    · rw [if_pos c1]; rfl
    rw [if_neg c1]
    by_cases c2 : cmd = c!"G28"
    · rw [if_pos c2]; rfl
    rw [if_neg c2]
    by_cases c3 : cmd = c!"G90"
    · rw [if_pos c3]; rfl
    rw [if_neg c3]
    by_cases c4 : cmd = c!"G91"
    · rw [if_pos c4]; rfl
    rw [if_neg c4]
    by_cases c5 : cmd = c!"G92"
    · rw [if_pos c5]; rfl
    rw [if_neg c5]
    by_cases c6 : cmd = c!"M82"
    · rw [if_pos c6]; rfl
    rw [if_neg c6]
    by_cases c7 : cmd = c!"M83"
    · rw [if_pos c7]; rfl
    rw [if_neg c7]
    split <;> rfl

theorem inchMm_final (home : Pos3 α) {rs ss : List Str} (h : List.Forall₂ (InchMm α) rs ss) : ∀ (p : Printer α),
    p.inch = false → (Printer.withInch true p).final home rs = Printer.withInch true (p.final home ss) := by
  induction h with
  | nil => intro p _; rfl
  | cons hrs _ ih =>
    intro p hp
    rename_i r s rs ss _
    have hpf : Printer.withInch false p = p := by cases p; simp only at hp; subst hp; rfl
    have h1 := inchMm_line home (p := p) hrs
    have h2 := inch_stays home (p := p) hrs
    rw [hpf] at h1 h2
    simp only [Printer.final, List.foldl_cons] at ih ⊢
    rw [h1]
    exact ih _ h2

/-! ### the largest amount pushed -/

theorem line_max (home : Pos3 α) (p : Printer α) (r : Str) (h : p.pushed ≤ p.maxPushed) :
    (p.line home r).maxPushed = max p.maxPushed (p.line home r).pushed := by
  unfold Printer.line
  cases instr r with
  | none => simp [h]
  | some q =>
    obtain ⟨cmd, ws⟩ := q
    simp only
    by_cases hm : cmd ∈ moves
    · have : p.step home cmd ws = p.move ws := by unfold Printer.step; rw [if_pos hm]
      rw [this]; rfl
    · by_cases h92 : cmd = c!"G92"
      · have : p.step home cmd ws = p.setPosition ws := by
          subst h92; unfold Printer.step; simp
        rw [this]; simp [Printer.setPosition, h]
      · obtain ⟨_, s2, s3, _⟩ := step_e_other home p cmd ws hm h92
        rw [s2, s3]; simp [h]

theorem final_max (home : Pos3 α) (rs : List Str) : ∀ (p : Printer α), p.pushed ≤ p.maxPushed →
    (p.maxPushed ≤ (p.final home rs).maxPushed) ∧
    (∀ pre, pre <+: rs → (p.final home pre).pushed ≤ (p.final home rs).maxPushed) ∧
    ((p.final home rs).maxPushed = p.maxPushed ∨ ∃ pre, pre <+: rs ∧ (p.final home pre).pushed = (p.final home rs).maxPushed) := by
  induction rs with
  | nil =>
    intro p h
    refine ⟨le_refl _, ?_, Or.inl rfl⟩
    intro pre hp
    rw [List.prefix_nil] at hp
    subst hp; exact h
  | cons r rs ih =>
    intro p h
    have hl := line_max home p r h
    have hle : (p.line home r).pushed ≤ (p.line home r).maxPushed := by rw [hl]; exact le_max_right _ _
    obtain ⟨i1, i2, i3⟩ := ih (p.line home r) hle
    have hf : ∀ qs, p.final home (r :: qs) = (p.line home r).final home qs := fun _ => rfl
    have hmono : p.maxPushed ≤ (p.final home (r :: rs)).maxPushed := by
      rw [hf]; refine le_trans ?_ i1; rw [hl]; exact le_max_left _ _
    refine ⟨hmono, ?_, ?_⟩
    · intro pre hp
      cases pre with
      | nil => exact le_trans h hmono
      | cons q pre =>
        rw [List.cons_prefix_cons] at hp
        obtain ⟨rfl, hp⟩ := hp
        rw [hf, hf]; exact i2 pre hp
    · rcases i3 with i3 | ⟨pre, hp, hpe⟩
      · rw [hf, i3, hl]
        rcases max_cases p.maxPushed (p.line home r).pushed with ⟨e, _⟩ | ⟨e, _⟩
        · exact Or.inl e
        · right
          refine ⟨[r], ?_, ?_⟩
          · rw [List.cons_prefix_cons]; exact ⟨rfl, List.nil_prefix⟩
          · rw [e]; rfl
      · right
        refine ⟨r :: pre, ?_, ?_⟩
        · rw [List.cons_prefix_cons]; exact ⟨rfl, hp⟩
        · rw [hf, hf]; exact hpe

/-- Reference printer in the state of a machine. -/
def Machine.printer (m : Machine α) : Printer α :=
  { inch := m.imperial, rel := m.relative, relE := m.relativeE, tool := m.currentTool
    pos := ⟨m.currentX, m.currentY, m.currentZ⟩, org := ⟨m.offsetX, m.offsetY, m.offsetZ⟩
    e := m.currentE, eOrg := m.offsetE, feed := m.currentF, pushed := m.totalE, maxPushed := m.maxE }

theorem Machine.printer_geo (m : Machine α) : GeoSim m m.printer :=
  ⟨rfl, rfl, rfl, rfl, rfl, rfl, rfl, rfl, rfl, rfl, rfl⟩

theorem append_process {g g' : GCode α} {c : Str} {l : PyLine α} (h : g.append c = .ok (g', some l)) :
    ∃ l', processLine g.home g.m { raw := strip c } = .ok (g'.m, l') := by
  unfold GCode.append at h
  simp only at h
  by_cases he : (strip c).isEmpty = true
  · rw [if_pos he] at h; simp at h
  · rw [if_neg he] at h
    cases hp : processLine g.home g.m { raw := strip c } with
    | error er => rw [hp] at h; simp at h
    | ok q =>
      obtain ⟨m, l'⟩ := q
      rw [hp] at h
      simp only at h
      cases hL : g.allLayers[g.appendLayerId]? with
      | none => rw [hL] at h; simp at h
      | some L =>
        rw [hL] at h
        simp only [Option.map_some, Except.ok.injEq, Prod.mk.injEq] at h
        obtain ⟨rfl, _⟩ := h
        exact ⟨l', rfl⟩

end GCodeUtils
