import Verif.Props.Turned
import Verif.Props.ArcGeometry
import Verif.Lemmas.ArcTurned
import Mathlib.Tactic.IntervalCases

/-
  C133: arc optimisation treats all directions alike.
-/

set_option linter.unusedSectionVars false

namespace GCodeUtils

open Spec

variable {α : Type} [Field α] [LinearOrder α] [IsStrictOrderedRing α] [FloorRing α]

/-- Programs turned by a multiple of a right angle: the optimiser raises the same exception or finds the same arcs, turned, unless a move in
one of the windows it may look at passes through the centre of the fitted circle. -/
theorem C133_lines_partial (mode : RoundMode) {T : Turn} (hT : T.flips = false) {Q : Str → Str → Prop} {g g' : GCode ℝ} (hne : g.allLayers ≠ []) (hne' : g'.allLayers ≠ [])
    (h : List.Forall₂ (fun l l' => TurnedLine T l l' ∧ Q l.raw l'.raw) (program g) (program g'))
    (hw : ∀ ks w pts, Settled none (program g) ks → w <:+: ks → 8 ≤ w.length → List.Forall₂ At w pts → ¬ ThroughCentre pts) :
    (∃ e, g.optimizeArcs (realTrig mode) = .error e ∧ g'.optimizeArcs (realTrig mode) = .error e) ∨
      ∃ o o', g.optimizeArcs (realTrig mode) = .ok o ∧ g'.optimizeArcs (realTrig mode) = .ok o' ∧
        List.Forall₂ (OptimisedTurned T Q) (program o) (program o') := by
  have hwin : WindowsAlike (realTrig mode) T ({} : ArcSt ℝ).queue (program g) := by
    intro ks hk w k h8 pts hp
    exact alike_real hT mode (hw ks w pts hk k h8 ((points_spec _ _).1 hp))
  have hrun := filterLines_turn hT (realTrig mode) (h.imp fun _ _ k => (⟨k.1, k.2⟩ : TurnTwin T Q _ _)) (s := {}) (s' := {}) ⟨.nil, rfl⟩ hwin
  have f1 := optimizeArcs_flat (realTrig mode) g hne
  have f2 := optimizeArcs_flat (realTrig mode) g' hne'
  rcases hrun.outcomes with ⟨e, k1, k2⟩ | ⟨p, p', k1, k2, k3, k4⟩
  · rw [k1] at f1
    rw [k2] at f2
    left
    rcases f1.outcomes with ⟨e1, a, b⟩ | ⟨_, _, _, b, _⟩
    · cases b
      rcases f2.outcomes with ⟨e2, a2, b2⟩ | ⟨_, _, _, b2, _⟩
      · cases b2; exact ⟨_, a, a2⟩
      · cases b2
    · cases b
  · rw [k1] at f1
    rw [k2] at f2
    right
    rcases f1.outcomes with ⟨_, _, b⟩ | ⟨o, _, a, b, r1⟩
    · cases b
    · cases b
      rcases f2.outcomes with ⟨_, _, b2⟩ | ⟨o', _, a2, b2, r2⟩
      · cases b2
      · cases b2
        refine ⟨o, o', a, a2, ?_⟩
        rw [r1, r2]
        exact forall₂_append k4 (forall₂_kept k3.1)

theorem raws_turned {T : Turn} {rs ss : List Str} (h : List.Forall₂ (TurnText T α) rs ss) :
    List.Forall₂ (TurnLine T α) ((rs.map strip).filter (fun s => !s.isEmpty)) ((ss.map strip).filter (fun s => !s.isEmpty)) := by
  induction h with
  | nil => exact .nil
  | cons h _ ih =>
    simp only [List.map_cons]
    rcases h with ⟨h1, h2⟩ | ⟨h1, h2, h3⟩
    · rw [h1, h2]
      exact ih
    · rw [List.filter_cons_of_pos (by simpa using h1), List.filter_cons_of_pos (by simpa using h2)]
      exact .cons h3 ih

theorem forall₂_both {β γ : Type} {R : β → β → Prop} {S : γ → γ → Prop} (f : β → γ) {a b : List β} (h : List.Forall₂ R a b) :
    List.Forall₂ S (a.map f) (b.map f) → List.Forall₂ (fun x y => R x y ∧ S (f x) (f y)) a b := by
  induction h with
  | nil => intro _; exact .nil
  | cons h _ ih =>
    intro hs
    cases hs with
    | cons h2 hs => exact .cons ⟨h, h2⟩ (ih hs)

theorem flatten_layers {T : Turn} {Ls Ls' : List (Layer α)}
    (h : List.Forall₂ (fun L L' => L'.z = L.z ∧ List.Forall₂ (TurnedLine T) L.lines L'.lines) Ls Ls') :
    List.Forall₂ (TurnedLine T) (Ls.flatMap (·.lines)) (Ls'.flatMap (·.lines)) := by
  induction h with
  | nil => exact .nil
  | cons h _ ih => exact forall₂_append h.2 ih

/-- The same for programs that are read: reading and optimising the turned text. -/
theorem C133_program_partial (mode : RoundMode) {T : Turn} (hT : T.flips = false) (env : Env ℝ) (hh : EvenHypot env.hypot) (home : Home ℝ) {rs ss : List Str}
    (h : List.Forall₂ (TurnText T ℝ) rs ss)
    (hw : ∀ g ks w pts, GCode.load env rs false home = .ok g → Settled none (program g) ks → w <:+: ks → 8 ≤ w.length → List.Forall₂ At w pts → ¬ ThroughCentre pts) :
    (∃ e, GCode.load env rs false home = .error e ∧ GCode.load env ss false (T.home home) = .error e) ∨
    ∃ g g', GCode.load env rs false home = .ok g ∧ GCode.load env ss false (T.home home) = .ok g' ∧
      ((∃ e, g.optimizeArcs (realTrig mode) = .error e ∧ g'.optimizeArcs (realTrig mode) = .error e) ∨
        ∃ o o', g.optimizeArcs (realTrig mode) = .ok o ∧ g'.optimizeArcs (realTrig mode) = .ok o' ∧
          List.Forall₂ (OptimisedTurned T (TurnLine T ℝ)) (program o) (program o')) := by
  rcases C132_turned T env hh false home h with ⟨e, a, b⟩ | ⟨g, g', a, b, _, _, _, _, _, _, _, _, _, hl, _⟩
  · exact .inl ⟨e, a, b⟩
  refine .inr ⟨g, g', a, b, ?_⟩
  have e1 : ∀ k : GCode ℝ, program k = k.allLayers.flatMap (·.lines) := fun k => by unfold program layerLines; rw [List.flatMap_def]
  have r1 : (program g).map (·.raw) = (rs.map strip).filter (fun s => !s.isEmpty) := by rw [← load_raws a, (load_indexed a).flat]; rfl
  have r2 : (program g').map (·.raw) = (ss.map strip).filter (fun s => !s.isEmpty) := by rw [← load_raws b, (load_indexed b).flat]; rfl
  refine C133_lines_partial mode hT (load_layers_ne a) (load_layers_ne b) (forall₂_both PyLine.raw ?_ ?_) (fun ks w pts => hw g ks w pts a)
  · rw [e1, e1]; exact flatten_layers hl
  · rw [r1, r2]; exact raws_turned h

/-- For mirror images it is not so: steps longer than the average are compared with the tolerance, with the sign of the rotation, so an
uneven run is one arc counter-clockwise and none clockwise. -/
def shortStepCcw : List Str := [c!"M83", c!"G1 X10.000 Y0 E0.1 F1800", c!"G1 X9.659 Y2.588 E0.26105", c!"G1 X8.660 Y5.000 E0.26105", c!"G1 X8.192 Y5.736 E0.08724",
  c!"G1 X6.428 Y7.660 E0.26105", c!"G1 X4.226 Y9.063 E0.26105", c!"G1 X1.736 Y9.848 E0.26105", c!"G1 X-0.872 Y9.962 E0.26105",
  c!"G1 X-3.420 Y9.397 E0.26105", c!"G1 X-5.736 Y8.192 E0.26105", c!"M107"]
@[inherit_doc shortStepCcw] def shortStepCw : List Str := [c!"M83", c!"G1 X10.000 Y0 E0.1 F1800", c!"G1 X9.659 Y-2.588 E0.26105", c!"G1 X8.660 Y-5.000 E0.26105", c!"G1 X8.192 Y-5.736 E0.08724",
  c!"G1 X6.428 Y-7.660 E0.26105", c!"G1 X4.226 Y-9.063 E0.26105", c!"G1 X1.736 Y-9.848 E0.26105", c!"G1 X-0.872 Y-9.962 E0.26105",
  c!"G1 X-3.420 Y-9.397 E0.26105", c!"G1 X-5.736 Y-8.192 E0.26105", c!"M107"]

theorem C133_mirrored_refuted : List.Forall₂ (TurnText mirrorY ℚ) shortStepCcw shortStepCw ∧
    (program (arcsQ shortStepCcw)).map (·.raw) = [c!"M83", c!"G1 X10.000 Y0 E0.1 F1800",
      c!"G3 X-5.736 Y8.192 E2.18164 F1800.000 I-10.000 J0.000; generated from 9 segments", c!"M107"] ∧
    (program (arcsQ shortStepCw)).map (·.raw) = shortStepCw := by
  refine ⟨turnTexts_sound rfl (by decide +kernel), ?_, ?_⟩ <;> decide +kernel

/-! ### a program that meets the hypotheses -/

theorem settled_moves {p : Option (PyLine α)} {ls ks : List (PyLine α)} (h : Settled p ls ks) : (∀ l ∈ ls, l.command ≠ none) → ks = ls := by
  induction h with
  | done => intro _; rfl
  | own _ _ ih => intro hc; rw [ih fun l hl => hc l (List.mem_cons_of_mem _ hl)]
  | taken p l k hl _ _ _ => intro hc; exact absurd hl (hc l List.mem_cons_self)

/-- Points on the right of the centre. -/
theorem not_through {pts : List (α × α)} (h : ∀ p ∈ pts, 0 < p.1) (hc : ∀ c, FittedAt pts c → c.1 ≤ 0) : ¬ ThroughCentre pts := by
  have key : ∀ c p q : α × α, p ∈ pts → q ∈ pts → c.1 ≤ 0 → ¬ Across c p q := by
    rintro c p q hp hq h0 ⟨s, h1, h2, rfl⟩
    have k1 := h p hp
    have k2 := h q hq
    simp only at h0
    rcases eq_or_lt_of_le h1 with e | e
    · rw [← e] at h0; linarith
    · have := mul_pos e k2
      have := mul_nonneg (sub_nonneg.2 h2) k1.le
      nlinarith
  rintro ⟨c, hf, ⟨p, q, hpq, ha⟩ | ⟨p, q, r, rest, rfl, ha⟩⟩
  · exact key c p q (hpq.subset (by simp)) (hpq.subset (by simp)) (hc c hf) ha
  · exact key c p r (by simp) (by simp) (hc c hf) ha

/-- A quarter of a circle of radius 65 around the origin. -/
def quarterRun (α : Type) [Field α] : List (α × α) := [(65, 0), (63, 16), (60, 25), (56, 33), (52, 39), (39, 52), (33, 56), (25, 60), (16, 63)]

/-- Moves from point to point. -/
def movesTo (raw : α × α → Str) (pts : List (α × α)) : List (PyLine α) :=
  pts.map fun p => { raw := raw p, command := some c!"G1", x := some p.1, y := some p.2, e := some 1, isMove := true, relative := some false,
                     relativeE := some true, currentX := some p.1, currentY := some p.2, currentZ := some 0, currentE := some 0, currentF := some 1800 }

/-- A program of one layer. -/
def oneLayer (ls : List (PyLine α)) : GCode α := { GCode.blank false ⟨0, 0, 0⟩ with allLayers := [{ lines := ls, z := some 0 }] }

example (mode : RoundMode) : (∃ e, (oneLayer (movesTo (fun _ => []) (quarterRun ℝ))).optimizeArcs (realTrig mode) = .error e ∧
      (oneLayer (movesTo (fun _ => []) ((quarterRun ℝ).map (turnPt quarter)))).optimizeArcs (realTrig mode) = .error e) ∨
    ∃ o o', (oneLayer (movesTo (fun _ => []) (quarterRun ℝ))).optimizeArcs (realTrig mode) = .ok o ∧
      (oneLayer (movesTo (fun _ => []) ((quarterRun ℝ).map (turnPt quarter)))).optimizeArcs (realTrig mode) = .ok o' ∧
      List.Forall₂ (OptimisedTurned quarter (· = ·)) (program o) (program o') := by
  have e1 : ∀ ls : List (PyLine ℝ), program (oneLayer ls) = ls := fun ls => by simp [program, layerLines, oneLayer]
  refine C133_lines_partial mode (T := quarter) rfl (by simp [oneLayer]) (by simp [oneLayer]) ?_ ?_
  · rw [e1, e1]
    unfold movesTo
    rw [List.map_map, List.forall₂_map_left_iff, List.forall₂_map_right_iff, List.forall₂_same]
    intro p _
    refine ⟨?_, rfl⟩
    simp [TurnedLine, quarter, Turn.optX, Turn.optY, Turn.x, Turn.y, turnPt, Turn.cmd, Turn.flips, sign]
  · intro ks w pts hk hw h8 hat
    rw [e1] at hk
    have hcmd : ∀ l ∈ movesTo (fun _ => []) (quarterRun ℝ), l.command ≠ none := by
      intro l hl
      obtain ⟨p, _, rfl⟩ := List.mem_map.1 hl
      simp
    rw [settled_moves hk hcmd] at hw
    obtain ⟨a, b, hab⟩ := hw
    obtain ⟨u, B, hu, hua, rfl⟩ := List.map_eq_append_iff.1 hab.symm
    obtain ⟨A, W, rfl, rfl, rfl⟩ := List.map_eq_append_iff.1 hua
    have hW : pts = W := by
      clear hab hua hu h8
      induction W generalizing pts with
      | nil => cases hat; rfl
      | cons p W ih =>
        cases hat with
        | cons h hs =>
          rename_i q _
          rw [ih _ hs]
          obtain ⟨h1, h2⟩ := h
          simp only [Option.some.injEq] at h1 h2
          rw [show p = q from Prod.ext h1 h2]
    subst hW
    rw [List.length_map] at h8
    have hlen : A.length + pts.length + B.length = 9 := by
      have := congrArg List.length hu
      simpa [quarterRun, add_assoc] using this.symm
    have hp : pts = ((quarterRun ℝ).drop A.length).take pts.length := by rw [hu]; simp
    obtain ⟨m, hm⟩ : ∃ m, A.length = m := ⟨_, rfl⟩
    obtain ⟨n, hn⟩ : ∃ n, pts.length = n := ⟨_, rfl⟩
    rw [hm, hn] at hp hlen
    rw [hn] at h8
    clear hm hn hu hab hua hat hk
    have h1 : m ≤ 1 := by omega
    have h2 : n ≤ 9 := by omega
    interval_cases m <;> interval_cases n <;> first | omega | skip
    all_goals
      simp only [quarterRun, List.drop_zero, List.drop_succ_cons, List.take_succ_cons, List.take_zero] at hp
      subst hp
      refine not_through (by simp) ?_
      intro c hf
      simp only [FittedAt, List.map_cons, List.map_nil, List.sum_cons, List.sum_nil, List.length_cons, List.length_nil] at hf
      obtain ⟨f1, f2⟩ := hf
      norm_num at f1 f2
      ring_nf at f1 f2
      linarith

end GCodeUtils
