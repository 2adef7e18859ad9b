import Verif.Props.Reuse
import Verif.Props.ArcElsewhere

/-
  C127: arc optimisation works piece by piece; commands other than moves separate the pieces, layers do not.
-/

set_option linter.unusedSectionVars false

namespace GCodeUtils

open Spec

variable {α : Type} [Field α] [LinearOrder α] [IsStrictOrderedRing α] [FloorRing α]

theorem optimizeArcs_text (t : Trig α) (g : GCode α) (hne : g.allLayers ≠ []) :
    (g.optimizeArcs t).map program = (filterLines (arcFilter (arcOps t)) {} (program g)).map (fun p => p.2 ++ p.1.queue) := by
  have h := optimizeArcs_flat t g hne
  cases hg : g.optimizeArcs t with
  | error e =>
    rw [hg] at h
    cases hf : filterLines (arcFilter (arcOps t)) {} (program g) with
    | error e' => rw [hf] at h; simp only [Except.map]; exact congrArg _ h
    | ok p => rw [hf] at h; exact h.elim
  | ok o =>
    rw [hg] at h
    cases hf : filterLines (arcFilter (arcOps t)) {} (program g) with
    | error e' => rw [hf] at h; exact h.elim
    | ok p => rw [hf] at h; simp only [Except.map]; exact congrArg _ h

/-- C127: the division into layers plays no part. Two programs with the same lines, in whatever layers, are optimised to the
same lines, or raise the same error. -/
theorem C127_layers (t : Trig α) (g g' : GCode α) (hn : g.allLayers ≠ []) (hn' : g'.allLayers ≠ []) (h : program g = program g') :
    (g.optimizeArcs t).map program = (g'.optimizeArcs t).map program := by
  rw [optimizeArcs_text t g hn, optimizeArcs_text t g' hn', h]

/-- C127: a command other than a move separates the program. What comes after it is optimised as if it stood alone, and so is
what comes before it, with the errors of the first part first. -/
theorem C127_pieces (t : Trig α) (g a b : GCode α) (hn : g.allLayers ≠ []) (ha : a.allLayers ≠ []) (hb : b.allLayers ≠ [])
    (h : program g = program a ++ program b) (hc : EndsInCommand (program a)) :
    (g.optimizeArcs t).map program = match (a.optimizeArcs t).map program, (b.optimizeArcs t).map program with
      | .error e, _ => .error e
      | .ok _, .error e => .error e
      | .ok la, .ok lb => .ok (la ++ lb) := by
  obtain ⟨pre, l, hp, hl, hm⟩ := hc
  rw [optimizeArcs_text t g hn, optimizeArcs_text t a ha, optimizeArcs_text t b hb, h, filterLines_append]
  cases h1 : filterLines (arcFilter (arcOps t)) {} (program a) with
  | error e => rfl
  | ok p =>
    obtain ⟨s1, o1⟩ := p
    have hs : s1 = {} := by
      rw [hp] at h1
      obtain ⟨s2, r, hr⟩ := filterLines_last _ _ _ h1
      exact arcFilter_command _ _ _ _ _ hl hm hr
    subst hs
    simp only [Except.map]
    cases filterLines (arcFilter (arcOps t)) {} (program b) with
    | error e => rfl
    | ok q => simp [List.append_assoc]

/-- C127: a file that goes on after a command other than a move. The lines of the first part are optimised as in a file that
ends there; what follows has no influence on them. -/
theorem C127_appended (env : Env α) (home : Home α) (t : Trig α) (da db : List Str) (a g : GCode α) (h1 : GCode.load env da false home = .ok a)
    (h2 : GCode.load env (da ++ db) false home = .ok g) (hc : EndsInCommand (program a)) :
    (∀ e, a.optimizeArcs t = .error e → g.optimizeArcs t = .error e) ∧
      ∀ o, g.optimizeArcs t = .ok o → ∃ o' rest, a.optimizeArcs t = .ok o' ∧ program o = program o' ++ rest := by
  obtain ⟨oa, r1, hl1⟩ := load_run h1
  obtain ⟨og, r2, hl2⟩ := load_run h2
  rw [readLines_append] at r2
  obtain ⟨m1, oa', ob, hs, ra, rb⟩ := r2.split
  obtain ⟨_, rfl⟩ := r1.det ra
  have e1 : program a = oa := by
    have := (load_indexed h1).flat
    rw [hl1, if_neg (by simp)] at this
    exact this.symm
  have e2 : program g = oa ++ ob := by
    have := (load_indexed h2).flat
    rw [hl2, if_neg (by simp), hs] at this
    exact this.symm
  let b : GCode α := { g with allLayers := [{ lines := ob, z := none, duration := none }] }
  have hb : program b = ob := by simp [b, program, layerLines]
  have key := C127_pieces t g a b (load_layers_ne h2) (load_layers_ne h1) (by simp [b]) (by rw [e2, hb, e1]) hc
  refine ⟨fun e he => ?_, fun o ho => ?_⟩
  · rw [he] at key
    cases hg : g.optimizeArcs t with
    | error e' => rw [hg] at key; simp only [Except.map, Except.error.injEq] at key; rw [key]
    | ok o => rw [hg] at key; simp [Except.map] at key
  · rw [ho] at key
    cases ha : a.optimizeArcs t with
    | error e' => rw [ha] at key; simp [Except.map] at key
    | ok o' =>
      rw [ha] at key
      cases hbo : b.optimizeArcs t with
      | error e' => rw [hbo] at key; simp [Except.map] at key
      | ok ob' =>
        rw [hbo] at key
        simp only [Except.map, Except.ok.injEq] at key
        exact ⟨o', _, rfl, key⟩

/-- Two arcs with a command between them. -/
example : GCode.load qEnv arcCcw = .ok (loadQ arcCcw) ∧ GCode.load qEnv (arcCcw ++ arcCw) = .ok (loadQ (arcCcw ++ arcCw)) ∧
    EndsInCommand (program (loadQ arcCcw)) ∧ (program (arcsQ (arcCcw ++ arcCw))).map (·.raw) =
      [c!"G1 X60.000 Y50.000 E1.0000 F1800", c!"G3 X42.929 Y57.071 E3.35622 F1800.000 I-10.000 J0.000; generated from 9 segments", c!"M107",
       c!"G1 X50.000 Y60.000 E1.0000 F1800", c!"G2 X57.071 Y42.929 E-1.35622 F1800.000 I0.000 J-10.000; generated from 9 segments", c!"M107"] ∧
    (program (arcsQ arcCcw)).map (·.raw) =
      [c!"G1 X60.000 Y50.000 E1.0000 F1800", c!"G3 X42.929 Y57.071 E3.35622 F1800.000 I-10.000 J0.000; generated from 9 segments", c!"M107"] := by
  refine ⟨by decide +kernel, by decide +kernel, ?_, by decide +kernel, by decide +kernel⟩
  refine ⟨(program (loadQ arcCcw)).take 10, (program (loadQ arcCcw))[10]'(by decide +kernel), by decide +kernel, by decide +kernel, ?_⟩
  rw [← inMoves_iff]
  decide +kernel

/-- The command at the end is needed: the moves of an arc at the end of a file are kept, the same moves before a comment and a
command are replaced. -/
theorem C127_open_refuted : ¬ ∀ (da db : List Str) (a g o : GCode ℚ), GCode.load qEnv da = .ok a → GCode.load qEnv (da ++ db) = .ok g →
    g.optimizeArcs qTrig = .ok o → ∃ o' rest, a.optimizeArcs qTrig = .ok o' ∧ program o = program o' ++ rest := by
  intro h
  obtain ⟨o', rest, h1, h2⟩ := h arcCcw.dropLast [c!"; x", c!"M107"] (loadQ arcCcw.dropLast) (loadQ (arcCcw.dropLast ++ [c!"; x", c!"M107"]))
    (arcsQ (arcCcw.dropLast ++ [c!"; x", c!"M107"])) (by decide +kernel) (by decide +kernel) (by decide +kernel)
  have e : (loadQ arcCcw.dropLast).optimizeArcs qTrig = .ok (arcsQ arcCcw.dropLast) := by decide +kernel
  rw [e] at h1
  obtain rfl := Except.ok.inj h1
  have hl := congrArg List.length h2
  rw [List.length_append] at hl
  have k1 : (program (arcsQ (arcCcw.dropLast ++ [c!"; x", c!"M107"]))).length = 4 := by decide +kernel
  have k2 : (program (arcsQ arcCcw.dropLast)).length = 10 := by decide +kernel
  omega

end GCodeUtils
