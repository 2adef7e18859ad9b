import Verif.Spec.Light
import Verif.Lemmas.Fold
import Verif.Lemmas.Process

/-
  The loading loop does not look at the lines it stores.
-/

set_option linter.unusedSectionVars false

namespace GCodeUtils

open Spec

variable {α : Type} [Field α] [LinearOrder α] [IsStrictOrderedRing α] [FloorRing α]

/-- The layer state with only the texts. -/
def LayerSt.textOnly (s : LayerSt α) : LayerSt α :=
  { s with allLayers := s.allLayers.map Spec.Layer.textOnly, curLines := s.curLines.map Spec.textOnly }

/-- The loop state with only the texts. -/
def BuildSt.textOnly (s : BuildSt α) : BuildSt α := { s with ls := s.ls.textOnly, done := s.done.map Spec.textOnly }

theorem estimateHeight_textOnly (mode : RoundMode) (Ls : List (Layer α)) :
    estimateHeight mode (Ls.map Spec.Layer.textOnly) = estimateHeight mode Ls := by
  unfold estimateHeight
  rw [List.filterMap_map]
  rfl

theorem baseZ_textOnly (mode : RoundMode) (s : LayerSt α) : baseZ mode s.textOnly = baseZ mode s := by
  unfold baseZ
  have h : s.textOnly.allLayers = s.allLayers.map Spec.Layer.textOnly := rfl
  rw [h, estimateHeight_textOnly]
  rfl

theorem stepLayer_textOnly (mode : RoundMode) (s : LayerSt α) (l : PyLine α) (t b : α) :
    stepLayer mode s.textOnly l t b = ((stepLayer mode s l t b).1.textOnly, (stepLayer mode s l t b).2) := by
  unfold stepLayer
  have hb := baseZ_textOnly mode { s with curZ := nextCurZ s.curZ l }
  have he : ({ s.textOnly with curZ := nextCurZ s.textOnly.curZ l } : LayerSt α) = ({ s with curZ := nextCurZ s.curZ l } : LayerSt α).textOnly := rfl
  simp only [he, hb]
  generalize baseZ mode { s with curZ := nextCurZ s.curZ l } = q
  obtain ⟨bz, est⟩ := q
  have p1 : s.textOnly.curZ = s.curZ := rfl
  have p2 : s.textOnly.prevZ = s.prevZ := rfl
  have p3 : s.textOnly.prevBaseZ = s.prevBaseZ := rfl
  simp only [p1, p2, p3]
  by_cases h1 : nextCurZ s.curZ l ≠ s.prevZ
  · simp only [if_pos h1]
    by_cases h2 : some bz ≠ s.prevBaseZ
    · simp only [if_pos h2]
      simp [LayerSt.textOnly, Spec.Layer.textOnly]
    · simp only [if_neg h2]
      simp [LayerSt.textOnly]
  · simp only [if_neg h1]

theorem recordLine_textOnly (s : LayerSt α) (l : PyLine α) : recordLine s.textOnly (Spec.textOnly l) = (recordLine s l).textOnly := by
  simp [recordLine, LayerSt.textOnly]

theorem buildStep_textOnly (env : Env α) (home : Home α) (s : BuildSt α) (r : Str) :
    buildStep env true home s.textOnly { raw := r } = (buildStep env false home s { raw := r }).map BuildSt.textOnly := by
  unfold buildStep
  have hm : s.textOnly.m = s.m := rfl
  rw [hm]
  cases hp : processLine home s.m { raw := r } with
  | error e => rfl
  | ok q =>
    obtain ⟨m, l⟩ := q
    have hr : l.raw = r := (processLine_keeps hp).1
    have ht : ({ raw := r } : PyLine α) = Spec.textOnly l := by rw [Spec.textOnly, hr]
    simp only [if_true, Bool.false_eq_true, if_false]
    rw [ht]
    have rec' : ({ s.textOnly with m := m, ls := recordLine s.textOnly.ls (Spec.textOnly l), done := s.textOnly.done ++ [Spec.textOnly l] } : BuildSt α) =
        ({ s with m := m, ls := recordLine s.ls l, done := s.done ++ [l] } : BuildSt α).textOnly := by
      simp [BuildSt.textOnly, recordLine_textOnly]
    cases l.command with
    | none => simp only; rw [rec']; rfl
    | some cmd =>
      simp only
      by_cases hc : cmd.isEmpty
      · simp only [if_pos hc]; rw [rec']; rfl
      · simp only [if_neg hc]
        have hd : s.textOnly.ds = s.ds := rfl
        rw [hd]
        cases stepDur env s.ds l with
        | error e => rfl
        | ok ds =>
          simp only
          have hls : ({ s.textOnly.ls with hasExtrusion := s.textOnly.ls.hasExtrusion || l.extruding.getD false } : LayerSt α) =
              ({ s.ls with hasExtrusion := s.ls.hasExtrusion || l.extruding.getD false } : LayerSt α).textOnly := rfl
          rw [hls, stepLayer_textOnly]
          simp only [Except.map]
          congr 1
          simp [BuildSt.textOnly, recordLine_textOnly]

theorem buildFold_textOnly (env : Env α) (home : Home α) (rs : List Str) : ∀ s : BuildSt α,
    (rs.map (fun r => ({ raw := r } : PyLine α))).foldlM (buildStep env true home) s.textOnly =
      ((rs.map (fun r => ({ raw := r } : PyLine α))).foldlM (buildStep env false home) s).map BuildSt.textOnly := by
  induction rs with
  | nil => intro s; rfl
  | cons r rs ih =>
    intro s
    rw [List.map_cons, List.foldlM_cons, List.foldlM_cons, buildStep_textOnly]
    cases buildStep env false home s { raw := r } with
    | error e => rfl
    | ok s' => exact ih s'

theorem finalize_textOnly (home : Home α) (s : BuildSt α) :
    finalize (GCode.blank true home) s.textOnly = lighten (finalize (GCode.blank false home) s) := by
  unfold finalize closeLast
  have hc : s.textOnly.ls.curLines.isEmpty = s.ls.curLines.isEmpty := by
    show (s.ls.curLines.map _).isEmpty = _
    simp
  have hd : s.textOnly.ds = s.ds := rfl
  have hm : s.textOnly.m = s.m := rfl
  have hb : s.textOnly.bb = s.bb := rfl
  simp only [hc, hd, hm, hb]
  by_cases h : s.ls.curLines.isEmpty
  · simp [h, lighten, BuildSt.textOnly, LayerSt.textOnly, GCode.blank, Spec.Layer.textOnly]
  · simp [h, lighten, BuildSt.textOnly, LayerSt.textOnly, GCode.blank, Spec.Layer.textOnly]

/-- Loading a light program. -/
theorem load_light (env : Env α) (data : List Str) (home : Home α) :
    GCode.load env data true home = (GCode.load env data false home).map lighten := by
  unfold GCode.load prepare
  by_cases hd : data.isEmpty
  · rw [if_pos hd, if_pos hd]
    simp [Except.map, lighten, GCode.blank, Spec.Layer.textOnly]
  · rw [if_neg hd, if_neg hd]
    unfold preprocessAll readLines
    have h := buildFold_textOnly env home ((data.map strip).filter (fun s => !s.isEmpty)) (BuildSt.start (GCode.blank false home))
    have h0 : (BuildSt.start (GCode.blank false home) : BuildSt α).textOnly = BuildSt.start (GCode.blank true home) := rfl
    rw [h0] at h
    have h1 : (GCode.blank true home : GCode α).light = true := rfl
    have h2 : (GCode.blank false home : GCode α).light = false := rfl
    have h3 : (GCode.blank true home : GCode α).home = home := rfl
    have h4 : (GCode.blank false home : GCode α).home = home := rfl
    rw [h1, h2, h3, h4, h]
    generalize List.foldlM (buildStep env false home) _ _ = q
    cases q with
    | error e => rfl
    | ok s => simp only [Except.map]; rw [finalize_textOnly]

end GCodeUtils
