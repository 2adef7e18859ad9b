import Verif.Lemmas.Light
import Verif.Props.Common
import Verif.Props.Load
import Verif.Spec.Stream

/-
  C89: light programs.
-/

set_option linter.unusedSectionVars false

namespace GCodeUtils

open Spec

variable {α : Type} [Field α] [LinearOrder α] [IsStrictOrderedRing α] [FloorRing α]

/-- C89.  Loading a program as a light program gives (or raises) exactly what loading it in full gives, with nothing but the
text of the lines left: same layers and heights, index arrays, bounding box, filament length, duration, machine state. -/
theorem C89_load (env : Env α) (data : List Str) (home : Home α) :
    GCode.load env data true home = (GCode.load env data false home).map lighten := load_light env data home

theorem lighten_write (g : GCode α) : (lighten g).write = g.write := by
  unfold GCode.write GCode.allLines
  simp only [lighten, List.flatMap_map, List.flatMap_assoc, Spec.Layer.textOnly]
  rfl

/-- C89.  What is written for a light program is what is written for the full one. -/
theorem C89_write (env : Env α) (data : List Str) (home : Home α) (g g' : GCode α) (h : GCode.load env data false home = .ok g)
    (h' : GCode.load env data true home = .ok g') : g'.write = g.write := by
  rw [load_light, h] at h'
  obtain rfl := Except.ok.inj h'
  exact lighten_write g

theorem append_light (g : GCode α) (hg : g.light = false) (c : Str) :
    (lighten g).append c = (g.append c).map (fun q => (lighten q.1, q.2.map textOnly)) := by
  unfold GCode.append
  simp only
  by_cases hc : (strip c).isEmpty
  · simp only [if_pos hc]; rfl
  · simp only [if_neg hc]
    have hh : (lighten g).home = g.home := rfl
    have hm : (lighten g).m = g.m := rfl
    rw [hh, hm]
    cases hp : processLine g.home g.m { raw := strip c } with
    | error e => rfl
    | ok q =>
      obtain ⟨m, l⟩ := q
      have hr : l.raw = strip c := (processLine_keeps hp).1
      have hl : (lighten g).light = true := rfl
      have hlay : (lighten g).allLayers[(lighten g).appendLayerId]? = (g.allLayers[g.appendLayerId]?).map Spec.Layer.textOnly := by
        simp [lighten]
      simp only [hl, hg, if_true, hlay, Bool.false_eq_true, if_false]
      cases g.allLayers[g.appendLayerId]? with
      | none => rfl
      | some L =>
        simp only [Option.map_some, Except.map]
        congr 1
        have ht : ({ raw := strip c } : PyLine α) = textOnly l := by rw [textOnly, hr]
        rw [ht]
        simp [lighten, Spec.Layer.textOnly]

/-- C89.  Lines that are appended (streamed) one at a time keep the two programs together, and raise together. -/
theorem C89_append (env : Env α) (data : List Str) (home : Home α) (g g' : GCode α) (h : GCode.load env data false home = .ok g)
    (h' : GCode.load env data true home = .ok g') (more : List Str) : appendAll g' more = (appendAll g more).map lighten := by
  rw [load_light, h] at h'
  obtain rfl := Except.ok.inj h'
  have hl : g.light = false := (load_keeps h).1
  clear h h'
  induction more generalizing g with
  | nil => rfl
  | cons c more ih =>
    unfold appendAll
    rw [append_light g hl]
    cases hq : g.append c with
    | error e => rfl
    | ok q =>
      obtain ⟨g1, o⟩ := q
      simp only [Except.map]
      have h1 : g1.light = false := by
        unfold GCode.append at hq
        simp only at hq
        split at hq
        · obtain ⟨rfl, _⟩ := Prod.mk.inj (Except.ok.inj hq); exact hl
        · split at hq
          · simp at hq
          · split at hq
            · simp at hq
            · obtain ⟨rfl, _⟩ := Prod.mk.inj (Except.ok.inj hq); exact hl
      exact ih g1 h1

/-- The sample program, light: the texts only, but the same heights, box, filament and duration; a further line moves the machine. -/
example : (∃ g', GCode.load qEnv sample true = .ok g' ∧ g' ≠ sampleG ∧ g'.xmax = sampleG.xmax ∧ g'.xmax ≠ some 0 ∧ g'.allLayers.map (·.z) = sampleG.allLayers.map (·.z) ∧
      g'.duration = sampleG.duration ∧ (∀ l ∈ g'.lines, l.x = none) ∧ (∃ l ∈ sampleG.lines, l.x ≠ none)) ∧
    (appendAll (lighten sampleG) [c!"G1 X77"]).map (fun g => g.m.currentX) = .ok 77 :=
  ⟨⟨lighten sampleG, by decide +kernel⟩, by decide +kernel⟩

end GCodeUtils
