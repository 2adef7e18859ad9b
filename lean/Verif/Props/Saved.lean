import Verif.Lemmas.SavedFilters
import Verif.Props.Compare
import Verif.Props.Chain
import Verif.Props.Analysis

/-
  C110: what is written compares equal to what is in memory.
-/

set_option linter.unusedSectionVars false

namespace GCodeUtils

open Spec

variable {α : Type} [Field α] [LinearOrder α] [IsStrictOrderedRing α] [FloorRing α]

/-- The two programs compare equal, in both directions, `diff` finds nothing, and they are written alike. -/
def Spec.ComparesEqual (g g2 : GCode α) : Prop := g.eq g2 = true ∧ g2.eq g = true ∧ g.diff g2 = none ∧ g2.diff g = none ∧ g2.write = g.write

theorem compares_of_lines {g g2 : GCode α} (h : List.Forall₂ (fun l l' : PyLine α => l'.raw = l.raw ∧ l.eq l' = true) (program g) (program g2)) :
    ComparesEqual g g2 := by
  have hc : List.Forall₂ (fun a b : PyLine α => a.eq b = true) (commandLines g) (commandLines g2) := by
    rw [← meaningful_eq, ← meaningful_eq]
    unfold GCode.meaningful GCode.allLines
    rw [← program_def, ← program_def]
    generalize program g = a at h
    generalize program g2 = b at h
    induction h with
    | nil => exact .nil
    | @cons x y a b hxy _ ih =>
      have := eq_command hxy.2
      rw [List.filter_cons, List.filter_cons, ← this]
      split_ifs
      · exact .cons hxy.2 ih
      · exact ih
  have hb := (C15_both_directions g g2).2 hc
  refine ⟨hb.1, hb.2, (C17_diff_none_iff g g2).2 hb.1, (C17_diff_none_iff g2 g).2 hb.2, ?_⟩
  unfold GCode.write GCode.allLines
  rw [← program_def, ← program_def]
  generalize program g = a at h
  generalize program g2 = b at h
  induction h with
  | nil => rfl
  | cons hxy _ ih => rw [List.flatMap_cons, List.flatMap_cons, hxy.1, ih]

/-- C110, for programs in millimetres changed by the filters: the written program, read again, compares equal to the
program in memory — or cannot be read, because the sum of times divides by zero. -/
theorem C110_written_partial {env : Env α} {data : List Str} {home : Home α} {g g' : GCode α} {t : Trig α}
    (h : GCode.load env data false home = .ok g) (h20 : ∀ l ∈ g.lines, ¬ HasCmd l c!"G20") (hn : ∀ s ∈ data, '\n' ∉ strip s)
    (hp : Passes t g g') (env' : Env α) (home' : Home α) :
    GCode.load env' (readlines g'.write) false home' = .error .zeroDivision ∨
    ∃ g2, GCode.load env' (readlines g'.write) false home' = .ok g2 ∧ ComparesEqual g' g2 := by
  have hraw := load_raws h
  have hn' : ∀ l ∈ g.lines, '\n' ∉ l.raw := by
    intro l hl
    have : l.raw ∈ (data.map strip).filter (fun s => !s.isEmpty) := by rw [← hraw]; exact List.mem_map_of_mem hl
    rw [List.mem_filter, List.mem_map] at this
    obtain ⟨⟨s, hs, he⟩, _⟩ := this
    rw [← he]; exact hn s hs
  have hs := saves_loaded h h20 hn'
  rw [(load_indexed h).flat] at hs
  have hs' := passes_saves hp ⟨hs, load_layers_ne h⟩
  have hw : g'.write = (program g').flatMap (fun l => l.raw ++ ['\n']) := by unfold GCode.write GCode.allLines; rw [program_def]
  rw [hw]
  rcases load_saves env' home' (program g') hs'.1 with he | ⟨g2, h1, h2⟩
  · exact .inl he
  · refine .inr ⟨g2, h1, compares_of_lines ?_⟩
    rw [(load_indexed h1).flat] at h2
    exact h2

/-- C110: it can be read when no feed rate and no waiting time of the written text is negative. -/
theorem C110_readable_partial {env : Env α} {data : List Str} {home : Home α} {g g' : GCode α} {t : Trig α}
    (h : GCode.load env data false home = .ok g) (h20 : ∀ l ∈ g.lines, ¬ HasCmd l c!"G20") (hn : ∀ s ∈ data, '\n' ∉ strip s)
    (hp : Passes t g g') {env' : Env α} (henv : ∀ a b, 0 ≤ env'.hypot a b) (home' : Home α)
    (hf : ∀ s ∈ readlines g'.write, FeedNonneg α (strip s) ∧ DwellNonneg α (strip s)) :
    ∃ g2, GCode.load env' (readlines g'.write) false home' = .ok g2 ∧ ComparesEqual g' g2 := by
  rcases C110_written_partial h h20 hn hp env' home' with he | hg
  · exact absurd he (C25_duration_nonneg henv false home' hf).1
  · exact hg

/-- C110: text read, changed, written and read compares equal to itself written and read once more. -/
theorem C110_stable_partial {env : Env α} {data : List Str} {home : Home α} {g g' g2 : GCode α} {t : Trig α}
    (h : GCode.load env data false home = .ok g) (h20 : ∀ l ∈ g.lines, ¬ HasCmd l c!"G20") (hn : ∀ s ∈ data, '\n' ∉ strip s)
    (hp : Passes t g g') {env' : Env α} {home' : Home α} (h2 : GCode.load env' (readlines g'.write) false home' = .ok g2) :
    ComparesEqual g' g2 ∧ GCode.load env' (readlines g2.write) false home' = .ok g2 := by
  rcases C110_written_partial h h20 hn hp env' home' with he | ⟨g3, h3, h4⟩
  · rw [h2] at he; simp at he
  · rw [h2] at h3
    obtain rfl := Except.ok.inj h3
    exact ⟨h4, by rw [h4.2.2.2.2]; exact h2⟩

/-- The program as written and read again. -/
def againQ (g : GCode ℚ) : GCode ℚ := okOr (GCode.blank false Home.init) (GCode.load qEnv (readlines g.write))

def inches : List Str := [c!"G90", c!"G20", c!"G1 X1 Y1", c!"G1 X2 Y1"]

def tinyFeeds : List Str := [c!"G90", c!"G1 X1 Y1 F0.0014", c!"G1 X2 Y1 F-0.0006", c!"G1 X3 Y1 F100"]

def insertedMove : GCode ℚ := (okOr (loadQ sample, []) ((loadQ sample).prependToLayer [c!"G1 X10"] 0)).1

/-- **C110, refuted.**  A program in inches, translated, is written in millimetres under its `G20`: read again it does not
compare equal.  A move inserted as a command has no coordinates in memory, so it does not compare equal to itself read
again.  And a program that loads, with feed rates 0.0014 and -0.0006, can no longer be read once translated and written:
both are rounded to a thousandth and their sum is zero. -/
theorem C110_refuted :
    (GCode.load qEnv inches = .ok (loadQ inches) ∧ (loadQ inches).translate (some 5) (some 5) = .ok (transQ (loadQ inches) 5 5) ∧
      GCode.load qEnv (readlines (transQ (loadQ inches) 5 5).write) = .ok (againQ (transQ (loadQ inches) 5 5)) ∧
      (transQ (loadQ inches) 5 5).eq (againQ (transQ (loadQ inches) 5 5)) = false) ∧
    (GCode.load qEnv sample = .ok (loadQ sample) ∧ (∃ r, (loadQ sample).prependToLayer [c!"G1 X10"] 0 = .ok (insertedMove, r)) ∧
      GCode.load qEnv (readlines insertedMove.write) = .ok (againQ insertedMove) ∧ insertedMove.eq (againQ insertedMove) = false) ∧
    (GCode.load qEnv tinyFeeds = .ok (loadQ tinyFeeds) ∧ (loadQ tinyFeeds).translate (some 5) (some 5) = .ok (transQ (loadQ tinyFeeds) 5 5) ∧
      GCode.load qEnv (readlines (transQ (loadQ tinyFeeds) 5 5).write) = .error .zeroDivision) := by
  refine ⟨⟨by decide +kernel, by decide +kernel, by decide +kernel, by decide +kernel⟩,
    ⟨by decide +kernel, ⟨(okOr (loadQ sample, []) ((loadQ sample).prependToLayer [c!"G1 X10"] 0)).2, by decide +kernel⟩, by decide +kernel, by decide +kernel⟩,
    ⟨by decide +kernel, by decide +kernel, by decide +kernel⟩⟩

/-- A coarse circle optimised (an arc and a correction are written), and then translated and converted. -/
def savedSample : GCode ℚ := relQ (transQ (arcsQ arcCoarse) 5 5)

example : GCode.load qEnv arcCoarse = .ok (loadQ arcCoarse) ∧ (∀ l ∈ (loadQ arcCoarse).lines, ¬ HasCmd l c!"G20") ∧ (∀ s ∈ arcCoarse, '\n' ∉ strip s) ∧
    Passes qTrig (loadQ arcCoarse) savedSample ∧ (program savedSample).length = 5 ∧ savedSample.eq (loadQ arcCoarse) = false ∧
    GCode.load qEnv (readlines savedSample.write) = .ok (againQ savedSample) ∧ savedSample.eq (againQ savedSample) = true := by
  refine ⟨by decide +kernel, by unfold HasCmd; decide +kernel, by decide +kernel, ?_, by decide +kernel, by decide +kernel, by decide +kernel, by decide +kernel⟩
  refine .relative (.translated (some 5) (some 5) (.arcs (.none _) (k := arcsQ arcCoarse) ?_) (k := transQ (arcsQ arcCoarse) 5 5) ?_) ?_ <;> decide +kernel

example : ∀ s ∈ readlines savedSample.write, FeedNonneg ℚ (strip s) ∧ DwellNonneg ℚ (strip s) := by
  decide +kernel

end GCodeUtils
