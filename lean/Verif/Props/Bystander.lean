import Verif.Lemmas.Bystander
import Verif.Lemmas.Analysis
import Verif.Props.Common

/-
  C102: comments, blank lines and commands that do not concern motion leave the analysis as it is.
-/

set_option linter.unusedSectionVars false

namespace GCodeUtils

open Spec

variable {α : Type} [Field α] [LinearOrder α] [IsStrictOrderedRing α] [FloorRing α]

/-- C102, programs that load: everything found out about the program, layer by layer, is unchanged by the added
    lines, and these appear in their places. -/
theorem C102_bystanders (env : Env α) (light : Bool) (home : Home α) (data data' : List Str) (h : Added IdleText data data')
    (g : GCode α) (hg : GCode.load env data light home = .ok g) (hl : g.lines ≠ []) :
    ∃ g', GCode.load env data' light home = .ok g' ∧ SameFindings g g' ∧ List.Forall₂ LayerWithMore g.allLayers g'.allLayers ∧
      Added (fun l => Bystander l.raw) g.lines g'.lines := by
  rcases load_ok hg with ⟨_, rfl⟩ | ⟨hd, s, hs, rfl⟩
  · exact absurd rfl hl
  · have hd' := h.ne_nil hd
    rcases build_more (env := env) (light := light) (home := home) (readLines_more h) (more_start (GCode.blank light home)) with ⟨e, h1, _⟩ | ⟨t, t', h1, h2, h3⟩
    · unfold readLines at hs; rw [hs] at h1; cases h1
    · unfold readLines at hs
      rw [hs] at h1; cases h1
      obtain ⟨k1, k2, k3⟩ := finalize_more (g := GCode.blank light home) h3 hl
      refine ⟨_, ?_, k1, k2, k3⟩
      unfold GCode.load prepare
      rw [if_neg (by simpa [List.isEmpty_iff] using hd')]
      unfold preprocessAll readLines
      have : (GCode.blank light home : GCode α).light = light ∧ (GCode.blank light home : GCode α).home = home := ⟨rfl, rfl⟩
      rw [this.1, this.2, h2]

/-- C102, programs that do not load: the error is the same. -/
theorem C102_errors (env : Env α) (light : Bool) (home : Home α) (data data' : List Str) (h : Added IdleText data data')
    (e : Err) (he : GCode.load env data light home = .error e) : GCode.load env data' light home = .error e := by
  obtain ⟨hd, hs⟩ := load_error he
  have hd' := h.ne_nil hd
  rcases build_more (env := env) (light := light) (home := home) (readLines_more h) (more_start (GCode.blank light home)) with ⟨e', h1, h2⟩ | ⟨t, t', h1, h2, h3⟩
  · unfold readLines at hs
    rw [hs] at h1; cases h1
    unfold GCode.load prepare
    rw [if_neg (by simpa [List.isEmpty_iff] using hd')]
    unfold preprocessAll readLines
    have : (GCode.blank light home : GCode α).light = light ∧ (GCode.blank light home : GCode α).home = home := ⟨rfl, rfl⟩
    rw [this.1, this.2, h2]
  · unfold readLines at hs; rw [hs] at h1; cases h1

/-- A line of which the tokens are known is a bystander if its command is. -/
theorem bystander_of (r : Str) (h : ∀ c, commandOf r (findall (lower r)) = some c →
    c.head? ≠ some 'G' ∧ c.head? ≠ some 'T' ∧ c ≠ c!"M82" ∧ c ≠ c!"M83") : Bystander r := by
  intro ws hw
  rw [← (findall_reads (lower r) ws).2 hw]
  exact h

theorem idle_examples : IdleText c!"  ; perimeter" ∧ IdleText c!" " ∧ IdleText c!"M104 S200" ∧ IdleText c!"M106 S255 ; fan" := by
  have h : ∀ d : Str, Bystander (strip d) → IdleText d := fun d hd => .inr ⟨_, strip_isStrip d, hd⟩
  exact ⟨h _ (bystander_of _ (by decide +kernel)), .inl (by decide), h _ (bystander_of _ (by decide +kernel)), h _ (bystander_of _ (by decide +kernel))⟩

example : Added IdleText sample (c!"  ; perimeter" :: sample.take 3 ++ [c!" ", c!"M104 S200"] ++ sample.drop 3 ++ [c!"M106 S255 ; fan"]) ∧
    GCode.load qEnv sample = .ok sampleG ∧ sampleG.lines ≠ [] := by
  obtain ⟨h1, h2, h3, h4⟩ := idle_examples
  exact ⟨.extra _ h1 (.same _ (.same _ (.same _ (.extra _ h2 (.extra _ h3 (.same _ (.same _ (.same _ (.same _ (.same _ (.same _ (.same _ (.same _ (.same _ (.same _ (.extra _ h4 .nil)))))))))))))))),
    sample_loads, by decide +kernel⟩

/-- A program that does not load, with comments added. -/
example : GCode.load qEnv [c!"G1 X1", c!"T"] = .error .valueError ∧
    GCode.load qEnv [c!"; a", c!"G1 X1", c!"M104 S200", c!"T"] = .error .valueError := by decide +kernel

end GCodeUtils
