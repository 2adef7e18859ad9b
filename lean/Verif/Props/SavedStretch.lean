import Verif.Lemmas.SavedStretch
import Verif.Props.Saved

/-
  C129: a stretched program that is written compares equal to the one in memory.
-/

set_option linter.unusedSectionVars false

namespace GCodeUtils

open Spec

variable {α : Type} [Field α] [LinearOrder α] [IsStrictOrderedRing α] [FloorRing α]

/-- C129, for programs in millimetres whose lines all have a word or a comment, with no nested comments, changed by any passes of all five
filters: the written program, read again, compares equal to the program in memory — or cannot be read, because the sum of times divides
by zero. -/
theorem C129_written_partial {env : Env α} {data : List Str} {home : Home α} {g g' : GCode α} {t : Trig α} {sqrt : α → α}
    (h : GCode.load env data false home = .ok g) (h20 : ∀ l ∈ g.lines, ¬ HasCmd l c!"G20") (hn : ∀ l ∈ g.lines, '\n' ∉ l.raw)
    (hN : ∀ l ∈ g.lines, ¬ Nested l.raw ∧ Worded l.raw) (hp : AllPasses t sqrt g g') (env' : Env α) (home' : Home α) :
    GCode.load env' (readlines g'.write) false home' = .error .zeroDivision ∨
    ∃ g2, GCode.load env' (readlines g'.write) false home' = .ok g2 ∧ ComparesEqual g' g2 := by
  have hs := saves_loaded h h20 hn
  have hS : ∀ l ∈ program g, Sound l := by
    intro l hl
    rw [show program g = g.lines from (load_indexed h).flat.symm] at hl
    refine ⟨hs l hl, (hN l hl).1, ?_⟩
    rw [afterNumber_eq]
    exact (hN l hl).2 _ ((findall_reads (lower l.raw) _).1 rfl)
  have hs' := allPasses_sound hp ⟨hS, load_layers_ne h⟩
  have hw : g'.write = (program g').flatMap (fun l => l.raw ++ ['\n']) := by unfold GCode.write GCode.allLines; rw [program_def]
  rw [hw]
  rcases load_saves env' home' (program g') (fun l hl => (hs'.1 l hl).saves) with he | ⟨g2, h1, h2⟩
  · exact .inl he
  · refine .inr ⟨g2, h1, compares_of_lines ?_⟩
    rw [(load_indexed h1).flat] at h2
    exact h2

/-- C129: it can be read when no feed rate and no waiting time of the written text is negative. -/
theorem C129_readable_partial {env : Env α} {data : List Str} {home : Home α} {g g' : GCode α} {t : Trig α} {sqrt : α → α}
    (h : GCode.load env data false home = .ok g) (h20 : ∀ l ∈ g.lines, ¬ HasCmd l c!"G20") (hn : ∀ l ∈ g.lines, '\n' ∉ l.raw)
    (hN : ∀ l ∈ g.lines, ¬ Nested l.raw ∧ Worded l.raw) (hp : AllPasses t sqrt g g') {env' : Env α} (henv : ∀ a b, 0 ≤ env'.hypot a b) (home' : Home α)
    (hf : ∀ s ∈ readlines g'.write, FeedNonneg α (strip s) ∧ DwellNonneg α (strip s)) :
    ∃ g2, GCode.load env' (readlines g'.write) false home' = .ok g2 ∧ ComparesEqual g' g2 := by
  rcases C129_written_partial h h20 hn hN hp env' home' with he | hg
  · exact absurd he (C25_duration_nonneg henv false home' hf).1
  · exact hg

/-- A program that ends with a text without words. -/
def wordless : List Str := [c!"G1 X0 Y0 Z0.2", c!";TYPE:WALL-OUTER", c!"G1 X1 Y1 E1", c!"ok"]

/-- **C129, refuted.**  The mark behind a text without words makes a comment of it: read again, the program has one command less. -/
theorem C129_refuted : GCode.load qEnv wordless = .ok (loadQ wordless) ∧
    (loadQ wordless).stretch rSqrt 100 .cura (StretchRepo.default 1) noProfile = .ok (stretchQ .cura 1 wordless) ∧
    GCode.load qEnv (readlines (stretchQ .cura 1 wordless).write) = .ok (againQ (stretchQ .cura 1 wordless)) ∧
    (againQ (stretchQ .cura 1 wordless)).eq (stretchQ .cura 1 wordless) = false := by decide +kernel

/-- The squares, moved, stretched and converted. -/
def stretchedSample : GCode ℚ := relQ (okOr (loadQ []) ((transQ (loadQ twoSquares) 5 5).stretch rSqrt 100 .cura (StretchRepo.default 1) noProfile))

example : GCode.load qEnv twoSquares = .ok (loadQ twoSquares) ∧ (∀ l ∈ (loadQ twoSquares).lines, ¬ HasCmd l c!"G20" ∧ '\n' ∉ l.raw) ∧
    (∀ l ∈ (loadQ twoSquares).lines, ¬ Nested l.raw ∧ Worded l.raw) ∧ AllPasses qTrig rSqrt (loadQ twoSquares) stretchedSample ∧
    stretchedSample.eq (loadQ twoSquares) = false ∧
    GCode.load qEnv (readlines stretchedSample.write) = .ok (againQ stretchedSample) ∧ stretchedSample.eq (againQ stretchedSample) = true := by
  refine ⟨by decide +kernel, by unfold HasCmd; decide +kernel, ?_, ?_, by decide +kernel, by decide +kernel, by decide +kernel⟩
  · intro l hl
    have : ∀ l ∈ (loadQ twoSquares).lines, l.raw.head? ≠ some '(' ∧ afterNumber (findall (lower l.raw)) ≠ [] := by decide +kernel
    refine ⟨fun h => (this l hl).1 h.1, fun ws hw => ?_⟩
    rw [← (findall_reads _ _).2 hw]
    exact (this l hl).2
  · refine .relative (.stretched 100 .cura (StretchRepo.default 1) noProfile (.translated (some 5) (some 5) (.none _) (k := transQ (loadQ twoSquares) 5 5) ?_)
      (k := okOr (loadQ []) ((transQ (loadQ twoSquares) 5 5).stretch rSqrt 100 .cura (StretchRepo.default 1) noProfile)) ?_) ?_ <;> decide +kernel

example : ∀ s ∈ readlines stretchedSample.write, FeedNonneg ℚ (strip s) ∧ DwellNonneg ℚ (strip s) := by
  decide +kernel

end GCodeUtils
