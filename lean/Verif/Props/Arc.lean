import Verif.Lemmas.Arc
import Verif.Lemmas.Run
import Verif.Props.Common

/-
  C49-C52, C54, C56: the queue of the arc optimiser.
-/

set_option linter.unusedSectionVars false

namespace GCodeUtils

open Spec

variable {α : Type} [Field α] [LinearOrder α] [IsStrictOrderedRing α] [FloorRing α]

theorem load_layers_ne {env : Env α} {data : List Str} {light : Bool} {home : Home α} {g : GCode α}
    (h : GCode.load env data light home = .ok g) : g.allLayers ≠ [] := by
  obtain ⟨h1, _⟩ := load_appendLayer h
  intro hc
  rw [hc] at h1
  simp at h1

theorem optimizeArcs_run {t : Trig α} {g g' : GCode α} (h : g.optimizeArcs t = .ok g') : ∃ s, arcRun (arcOps t) {} g = .ok (s, g') := by
  unfold GCode.optimizeArcs at h
  cases hr : arcRun (arcOps t) {} g with
  | error e => rw [hr] at h; simp [Except.map] at h
  | ok p =>
    rw [hr] at h
    simp only [Except.map, Except.ok.injEq] at h
    exact ⟨p.1, by rw [← h]⟩

/-! ### C49 to C52 -/

/-- C49, for every outcome of the circle tests: whatever the test `valid` answers, the output is the input with windows
of at least 8 moves or comments replaced by one `G2`/`G3` line and at most one generated `G92`. -/
theorem C49_any_test (env : Env α) (data : List Str) (home : Home α) (g g' : GCode α) (h : GCode.load env data false home = .ok g)
    (t : Trig α) (valid : List (PyLine α) → Except Err Bool) (s : ArcSt α) (hr : arcRun ⟨valid, toGcode t⟩ {} g = .ok (s, g')) :
    Rewrites ArcForWindow (program g) (program g') := by
  have := arcRun_rewrites (R := ArcForWindow) (fun _ _ _ _ _ hlen hm he => toGcode_shape hlen hm he) (queueInv_fresh _) (load_layers_ne h) hr
  exact this.2

/-- C49, C51, C52 for the optimiser: the output is the input with windows replaced; each replaced window has at least 8
lines, all moves or comments; it lies on an arc in the sense of `OnArc` (all points and the start point within 0.015 of the
circle, radius at most 200, same feed rate and height, E words on all moves or on none, flow within 15 % of the average);
the generated line is that of `ArcLine` (end point, centre, direction and feed rate). -/
theorem C49_C51_C52_replacement (env : Env α) (data : List Str) (home : Home α) (g g' : GCode α) (h : GCode.load env data false home = .ok g)
    (t : Trig α) (hr : g.optimizeArcs t = .ok g') : Rewrites (ArcReplacement t) (program g) (program g') := by
  obtain ⟨s, hs⟩ := optimizeArcs_run hr
  exact (arcRun_rewrites (R := ArcReplacement t) (fun _ _ _ _ hv hlen hm he => toGcode_spec hv hlen hm he) (queueInv_fresh _) (load_layers_ne h) hs).2

/-- C49 is also true of a filter object that was used before, with what was left in its queue in front. -/
theorem C49_reused (env : Env α) (data : List Str) (home : Home α) (g g' : GCode α) (h : GCode.load env data false home = .ok g)
    (t : Trig α) (s s' : ArcSt α) (hs : QueueInv (arcOps t) s) (hr : arcRun (arcOps t) s g = .ok (s', g')) :
    QueueInv (arcOps t) s' ∧ Rewrites (ArcReplacement t) (s.queue ++ program g) (program g') :=
  arcRun_rewrites (R := ArcReplacement t) (fun _ _ _ _ hv hlen hm he => toGcode_spec hv hlen hm he) hs (load_layers_ne h) hr

/-! ### C50 -/

/-- C50. The commands other than moves are the same lines in the same order; only generated `G92` lines are added, which
can be told by their comment. -/
theorem C50_other_commands (env : Env α) (data : List Str) (home : Home α) (g g' : GCode α) (h : GCode.load env data false home = .ok g)
    (t : Trig α) (hr : g.optimizeArcs t = .ok g') :
    List.Sublist (otherCommands (program g)) (otherCommands (program g')) ∧
    ((∀ l ∈ program g, ¬ IsCorrection l) → otherCommands (program g) = (otherCommands (program g')).filter (fun l => decide (¬ IsCorrection l))) := by
  have hw := rewrites_others (rewrites_mono (fun _ _ _ h => h.1) (C49_C51_C52_replacement env data home g g' h t hr))
  exact ⟨hw.1, fun hx => hw.2 hx _ (fun l => by simp)⟩

/-! ### C54 -/

/-- A comment followed by eight extruding moves. -/
def commentFirst : List Str :=
  [c!"; layer", c!"G1 X1 Y1 E1 F900", c!"G1 X2 Y1 E2", c!"G1 X3 Y1 E3", c!"G1 X4 Y1 E4", c!"G1 X5 Y1 E5", c!"G1 X6 Y1 E6", c!"G1 X7 Y1 E7",
   c!"G1 X8 Y1 E8"]

/-- C54 is false: a comment followed by eight moves that extrude makes the optimiser raise `TypeError` (whatever the
mathematical functions do). -/
theorem C54_refuted : ∃ (data : List Str) (g : GCode ℚ), GCode.load qEnv data = .ok g ∧ ∀ t : Trig ℚ, g.optimizeArcs t = .error .typeError :=
  ⟨commentFirst, loadQ commentFirst, by decide +kernel, fun t => by with_unfolding_all rfl⟩

/-- Never more than eight moves or comments in a row. -/
def Spec.ShortRuns (ls : List (PyLine α)) : Prop :=
  ∀ pre w post, ls = pre ++ w ++ post → (∀ l ∈ w, MoveOrComment l) → w.length ≤ 8

/-- C54 for programs with never more than eight moves or comments in a row: the optimiser does not raise, and keeps all
lines. -/
theorem C54_short_partial (t : Trig α) (g : GCode α) (hne : g.allLayers ≠ []) (h : ShortRuns (program g)) :
    ∃ g', g.optimizeArcs t = .ok g' ∧ List.Forall₂ Kept (program g) (program g') := by
  have e1 : program g = g.allLayers.flatMap (·.lines) := by unfold program layerLines; rw [List.flatMap_def]
  obtain ⟨s', out, h1, h2⟩ := arcFilter_short (ops := arcOps t) (program g) (s := {}) (q0 := []) rfl List.Forall₂.nil (by simp) (fun pre w post he => h pre w post he)
  rw [e1] at h1
  obtain ⟨Ls, h3⟩ := filterLayers_of_flat _ _ _ _ _ h1
  obtain ⟨h4, h5, _⟩ := filterLayers_flat _ _ _ _ _ h3
  rw [h1] at h4
  obtain rfl : out = Ls.flatMap (·.lines) := (Prod.mk.inj (Except.ok.inj h4)).2
  have hLs : Ls ≠ [] := by
    intro hc
    rw [hc] at h5
    exact hne (by simpa using h5.symm)
  unfold GCode.optimizeArcs arcRun runFilter
  rw [parseLayers_eq, h3]
  refine ⟨_, rfl, ?_⟩
  simp only
  by_cases hq : s'.queue.isEmpty = true
  · rw [if_pos hq]
    rw [List.isEmpty_iff] at hq
    rw [hq] at h2
    have : program { g with allLayers := Ls } = Ls.flatMap (·.lines) := by unfold program layerLines; rw [List.flatMap_def]
    rw [this]
    simpa using h2
  · rw [if_neg hq]
    have : program { g with allLayers := modifyLast (fun L => { L with lines := L.lines ++ s'.queue }) Ls } = Ls.flatMap (·.lines) ++ s'.queue := by
      unfold program layerLines
      rw [← List.flatMap_def, modifyLast_flat _ _ hLs]
    rw [this]
    simpa using h2

/-- The sample program has short runs. -/
example : ShortRuns (program sampleG) := by
  intro pre w post he hw
  have hl : (program sampleG).length = 12 := by decide +kernel
  by_contra hc
  push Not at hc
  -- a run of nine lines would contain line 4, a `G28`
  have hlen : pre.length + w.length + post.length = 12 := by rw [← hl, he]; simp; omega
  have key : ((program sampleG)[4]?).map (fun l => (l.inMoves || l.command = none)) = some false := by decide +kernel
  obtain ⟨l, hl4, hn⟩ := Option.map_eq_some_iff.1 key
  rw [he, List.append_assoc, List.getElem?_append_right (by omega), List.getElem?_append_left (by omega)] at hl4
  rw [(moveOrComment_of l).2 (hw l (List.mem_of_getElem? hl4))] at hn
  simp at hn

/-! ### C56 -/

/-- C56 is false: the first program's last move is still in the queue when the second program is filtered, and comes out in
front of it. -/
theorem C56_refuted : ∃ (d1 d2 : List Str) (g1 g2 : GCode ℚ), GCode.load qEnv d1 = .ok g1 ∧ GCode.load qEnv d2 = .ok g2 ∧
    ∀ t : Trig ℚ, ∃ s, (arcRun (arcOps t) {} g1).map (·.1) = .ok s ∧
      (arcRun (arcOps t) s g2).map (fun r => (program r.2).map (·.raw)) = .ok [c!"G1 X1 Y1 E1", c!"G1 X2 Y2 E2"] ∧
      (arcRun (arcOps t) {} g2).map (fun r => (program r.2).map (·.raw)) = .ok [c!"G1 X2 Y2 E2"] :=
  ⟨[c!"G1 X1 Y1 E1"], [c!"G1 X2 Y2 E2"], loadQ [c!"G1 X1 Y1 E1"], loadQ [c!"G1 X2 Y2 E2"], by decide +kernel, by decide +kernel,
    fun t => ⟨(okOr ({}, loadQ []) (arcRun (arcOps t) {} (loadQ [c!"G1 X1 Y1 E1"]))).1, by with_unfolding_all rfl, by with_unfolding_all rfl, by with_unfolding_all rfl⟩⟩

/-- C56, what is true: a filter object that has nothing pending behaves as a fresh one. -/
theorem C56_nothing_pending_partial (t : Trig α) (g : GCode α) (s : ArcSt α) (hs : s.queue = []) (hi : QueueInv (arcOps t) s) :
    arcRun (arcOps t) s g = arcRun (arcOps t) {} g := by
  have : s = {} := by
    obtain ⟨q, v⟩ := s
    simp only at hs
    subst hs
    cases v with
    | false => rfl
    | true =>
      have := (hi.valid rfl).1
      simp at this
  rw [this]

example : QueueInv (arcOps (⟨id, id, fun _ _ => 0, 3, .halfEven⟩ : Trig ℚ)) {} := queueInv_fresh _

end GCodeUtils
