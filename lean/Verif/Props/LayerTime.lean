import Verif.Lemmas.LayerTime
import Verif.Props.Common

/-
  C130: the time of each line and which lines make up the time of a layer.
-/

set_option linter.unusedSectionVars false

namespace GCodeUtils

open Spec

variable {α : Type} [Field α] [LinearOrder α] [IsStrictOrderedRing α] [FloorRing α]

theorem finalize_ends (g : GCode α) (s : BuildSt α) : ∃ L0 : Layer α, L0.lines = [] ∧ L0.duration = some 0 ∧
    (finalize g s).allLayers = (closeLast s.ls s.ds.total s.ds.layerBegin).allLayers ++ [L0] :=
  ⟨_, rfl, rfl, rfl⟩

/-- **C130** (total).  The duration of a loaded program is the sum of the times of its lines, in whole seconds. -/
theorem C130_total {env : Env α} {data : List Str} {home : Home α} {g : GCode α}
    (h : GCode.load env data false home = .ok g) (hd : data ≠ []) :
    g.duration = some (pyInt (lineTimes env.hypot .rest g.lines).sum) := by
  rcases load_ok h with ⟨rfl, _⟩ | ⟨_, s, hs, rfl⟩
  · exact absurd rfl hd
  · have hi := clocked_fold hs
    show some (pyInt s.ds.total) = some (pyInt (lineTimes env.hypot .rest s.done).sum)
    rw [hi.total]

/-- **C130** (layers).  A layer is over when the first line after it is done, and its duration runs from the end of the layers
before it: it counts all its own lines but the first (unless it is the first layer), and the first line of the next layer. -/
theorem C130_layers {env : Env α} {data : List Str} {home : Home α} {g : GCode α}
    (h : GCode.load env data false home = .ok g) (hd : data ≠ []) {pre post : List (Layer α)} {L : Layer α}
    (hs : g.allLayers = pre ++ L :: post) :
    L.duration = some (overAt env.hypot g.lines (pre ++ [L]) - overAt env.hypot g.lines pre) := by
  rcases load_ok h with ⟨rfl, _⟩ | ⟨_, s, hs', rfl⟩
  · exact absurd rfl hd
  · have hi := clocked_fold hs'
    show _ = some (overAt env.hypot s.done (pre ++ [L]) - overAt env.hypot s.done pre)
    obtain ⟨L0, hL0, hd0, hall⟩ := finalize_ends (GCode.blank false home) s
    rw [hall] at hs
    by_cases hc : s.ls.curLines = []
    · have hA : s.ls.allLayers = [] := by
        by_contra hne; exact hi.cur hne hc
      have hdone : s.done = [] := by
        have := hi.flat
        rw [hA, hc] at this
        simpa [lineCount] using this
      have : (closeLast s.ls s.ds.total s.ds.layerBegin).allLayers = [] := by simp [closeLast, hc, hA]
      rw [this] at hs
      rcases snoc_split hs with ⟨_, rfl, rfl⟩ | ⟨_, _, hx⟩
      · rw [hd0, hdone]; simp [overAt, timeUpTo, lineTimes]
      · simp at hx
    · have hcl : (closeLast s.ls s.ds.total s.ds.layerBegin).allLayers =
          s.ls.allLayers ++ [{ lines := s.ls.curLines, z := s.ls.prevZ, duration := some (s.ds.total - s.ds.layerBegin) }] := by
        simp [closeLast, hc]
      have hend : ∀ Ls : List (Layer α), Ls ≠ [] → s.done.length ≤ lineCount Ls → overAt env.hypot s.done Ls = s.ds.total := by
        intro Ls hne hle
        unfold overAt
        rw [if_neg hne, hi.total, timeUpTo_all (by omega)]
      rw [hcl] at hs
      rcases snoc_split hs with ⟨_, rfl, rfl⟩ | ⟨_, _, hx⟩
      · rw [hd0, hend _ (by simp) (by simp only [lineCount_append, hi.flat]; simp [lineCount]),
          hend _ (by simp) (by simp only [lineCount_append, hi.flat]; simp [lineCount]), sub_self]
      · rcases snoc_split hx with ⟨_, rfl, rfl⟩ | ⟨post', _, hA⟩
        · rw [hend _ (by simp) (by simp only [lineCount_append, hi.flat]; simp [lineCount]), hi.began]
        · exact hi.each pre L post' hA

/-- Two layers, printed at 10 mm/s with a faster lift between them, and a pause. -/
def timedText : List Str :=
  [c!"G1 Z1 F600", c!"G1 X10 Y0 E1", c!"G1 X20 E2 F1200", c!"G1 Z2 F6000", c!"G4 P500", c!"G1 X10 E3 F600"]

/-- The program `timedText`. -/
def timedG : GCode ℚ := loadQ timedText

theorem timed_loads : GCode.load qEnv timedText = .ok timedG := by decide +kernel

example : timedG.allLayers.map (fun L => (L.lines.length, L.duration)) =
      [(0, some (21 / 200)), (3, some (611 / 400)), (3, some (301 / 200)), (0, some 0)] ∧
    lineTimes qEnv.hypot .rest timedG.lines = [21 / 200, 201 / 200, 201 / 400, 1 / 50, 1 / 2, 201 / 200] ∧
    timedG.duration = some 3 := by decide +kernel

/-- The times of the lines of the second layer of `timedText`, from the specification, are not what the layer reports: the lift
that opens it is missing and the lift that opens the next layer is counted. -/
theorem C130_refuted : ∃ (pre post : List (Layer ℚ)) (L : Layer ℚ), timedG.allLayers = pre ++ L :: post ∧
    L.duration ≠ some ((lineTimes qEnv.hypot (paceAfter .rest (pre.map (·.lines)).flatten) L.lines).sum) :=
  ⟨timedG.allLayers.take 1, timedG.allLayers.drop 2, timedG.allLayers[1]'(by decide +kernel), by decide +kernel, by decide +kernel⟩

/-- The same three moves, written with relative coordinates and with absolute ones. -/
def relativeText : List Str := [c!"G91", c!"G1 X10 F600", c!"G1 X10", c!"G1 X10"]
def absoluteText : List Str := [c!"G90", c!"G1 X10 F600", c!"G1 X20", c!"G1 X30"]

/-- **C130** (relative).  The words of a relative program are taken for coordinates, so of three equal relative moves only the
first takes time: the estimate is not that of the same moves in absolute coordinates. -/
theorem C130_relative_refuted :
    (Printer.run ⟨0, 0, 0⟩ (Printer.start : Printer ℚ) (loadQ relativeText).lines).pos =
      (Printer.run ⟨0, 0, 0⟩ (Printer.start : Printer ℚ) (loadQ absoluteText).lines).pos ∧
    (loadQ relativeText).duration = some 1 ∧ (loadQ absoluteText).duration = some 3 ∧
    lineTimes qEnv.hypot .rest (loadQ relativeText).lines = [0, 201 / 200, 0, 0] := by decide +kernel

end GCodeUtils
