import Verif.Model.LightFilter
import Verif.Props.Light
import Verif.Props.Filter
import Verif.Props.RelExt
import Verif.Props.Stretch
import Verif.Model.TempCal
import Verif.Props.ArcGeometry
import Verif.Lemmas.ArcTrack

/-
  C119: the filters on light programs.
-/

set_option linter.unusedSectionVars false

namespace GCodeUtils

open Spec

variable {α : Type} [Field α] [LinearOrder α] [IsStrictOrderedRing α] [FloorRing α]

/-- The lines of a loaded light program have a text and nothing else. -/
theorem light_lines {env : Env α} {data : List Str} {home : Home α} {g : GCode α} (h : GCode.load env data true home = .ok g) :
    ∀ L ∈ g.allLayers, ∀ l ∈ L.lines, l = { raw := l.raw } := by
  rw [load_light] at h
  cases hf : (GCode.load env data false home : Except Err (GCode α)) with
  | error er => rw [hf] at h; cases h
  | ok g0 =>
    rw [hf] at h
    obtain rfl := Except.ok.inj h
    intro L hL l hl
    obtain ⟨L0, _, rfl⟩ := List.mem_map.1 hL
    obtain ⟨l0, _, rfl⟩ := List.mem_map.1 hl
    rfl

theorem scanLayers_fixed {σ : Type} {f : σ → PyLine α → σ × PyLine α} {P : PyLine α → Prop} (hf : ∀ s l, P l → (f s l).2 = l) (Ls : List (Layer α)) :
    (∀ L ∈ Ls, ∀ l ∈ L.lines, P l) → ∀ s, (scanLayers f s Ls).2 = Ls := by
  have hs : ∀ ls : List (PyLine α), (∀ l ∈ ls, P l) → ∀ s, (scan f s ls).2 = ls := by
    intro ls
    induction ls with
    | nil => intro _ s; rfl
    | cons a ls ih =>
      intro h s
      simp only [scan]
      rw [hf s a (h a (by simp)), ih (fun l hl => h l (by simp [hl]))]
  induction Ls with
  | nil => intro _ s; rfl
  | cons L Ls ih =>
    intro h s
    simp only [scanLayers]
    rw [hs L.lines (h L (by simp)), ih (fun L hL => h L (by simp [hL]))]

/-- C119: translating a light program and converting it to relative extrusion succeed and change nothing, whatever the program. -/
theorem C119_silent {env : Env α} {data : List Str} {home : Home α} {g : GCode α} (h : GCode.load env data true home = .ok g) (x y : Option α) :
    g.translate x y = .ok g ∧ g.toRelativeE = .ok g := by
  have hl := light_lines h
  have quiet : ∀ l : PyLine α, l = { raw := l.raw } → l.command = none := fun l k => by rw [k]
  constructor
  · rw [translate_eq, scanLayers_fixed (P := fun l => l = { raw := l.raw }) ?_ _ hl]
    intro s l k
    have kc := quiet l k
    rw [transLine_stay (by simp [IsMove, kc]) (by simp [HasCmd, kc])]
  · rw [toRelativeE_eq, scanLayers_fixed (P := fun l => l = { raw := l.raw }) ?_ _ hl]
    intro s l k
    have kc := quiet l k
    unfold relLine
    simp [IsMove, HasCmd, kc]

theorem arcLight_step (ops : ArcOps α) {l : PyLine α} (h : l.command = none) :
    arcFilterLight ops {} l = .ok ({ queue := [l] }, .many []) := by
  unfold arcFilterLight arcFilter inheritPos
  simp [h, minSegments]

theorem arcLight_fails (ops : ArcOps α) {s : ArcSt α} (hs : s.queue ≠ []) {l : PyLine α} (h : l.command = none) :
    arcFilterLight ops s l = .error .attributeError := by
  unfold arcFilterLight
  rw [if_pos ⟨h, hs⟩]

theorem arcLight_layer_fails (ops : ArcOps α) {s : ArcSt α} (hs : s.queue ≠ []) {ls : List (PyLine α)} (h : ∀ l ∈ ls, l.command = none) (hn : ls ≠ []) :
    parseLayer (arcFilterLight ops) s ls = .error .attributeError := by
  cases ls with
  | nil => exact absurd rfl hn
  | cons a ls =>
    unfold parseLayer
    rw [List.foldlM_cons]
    unfold parseLayerStep
    simp only [arcLight_fails ops hs (h a (by simp))]
    rfl

theorem arcLight_layers_fail (ops : ArcOps α) {s : ArcSt α} (hs : s.queue ≠ []) (Ls : List (Layer α)) (h : ∀ L ∈ Ls, ∀ l ∈ L.lines, l.command = none)
    (hn : Ls.flatMap (·.lines) ≠ []) : parseLayers (arcFilterLight ops) s Ls = .error .attributeError := by
  induction Ls with
  | nil => exact absurd rfl hn
  | cons L Ls ih =>
    unfold parseLayers
    by_cases hL : L.lines = []
    · have e : parseLayer (arcFilterLight ops) s L.lines = .ok (s, []) := by rw [hL]; rfl
      rw [e]
      simp only
      rw [ih (fun L hL => h L (by simp [hL])) (by simpa [List.flatMap_cons, hL] using hn)]
    · rw [arcLight_layer_fails ops hs (h L (by simp)) hL]

theorem arcLight_layers (ops : ArcOps α) (Ls : List (Layer α)) (h : ∀ L ∈ Ls, ∀ l ∈ L.lines, l.command = none) :
    (2 ≤ (Ls.flatMap (·.lines)).length ∧ parseLayers (arcFilterLight ops) {} Ls = .error .attributeError) ∨
    (∃ l, Ls.flatMap (·.lines) = [l] ∧ ∃ Ls', parseLayers (arcFilterLight ops) {} Ls = .ok ({ queue := [l] }, Ls') ∧ Ls'.flatMap (·.lines) = [] ∧ Ls' ≠ []) ∨
    (Ls.flatMap (·.lines) = [] ∧ parseLayers (arcFilterLight ops) {} Ls = .ok ({}, Ls)) := by
  induction Ls with
  | nil => exact .inr (.inr ⟨rfl, rfl⟩)
  | cons L Ls ih =>
    have h' : ∀ L ∈ Ls, ∀ l ∈ L.lines, l.command = none := fun L hL => h L (by simp [hL])
    cases hL : L.lines with
    | nil =>
      have e : parseLayer (arcFilterLight ops) {} L.lines = .ok ({}, []) := by rw [hL]; rfl
      have e' : ({ L with lines := [] } : Layer α) = L := by rw [← hL]
      have ef : (L :: Ls).flatMap (·.lines) = Ls.flatMap (·.lines) := by simp [List.flatMap_cons, hL]
      rw [ef]
      unfold parseLayers
      rw [e]
      simp only
      rcases ih h' with ⟨h1, h2⟩ | ⟨l, h1, Ls', h2, h3, _⟩ | ⟨h1, h2⟩
      · exact .inl ⟨h1, by rw [h2]⟩
      · exact .inr (.inl ⟨l, h1, { L with lines := [] } :: Ls', by rw [h2], by simpa [List.flatMap_cons] using h3, by simp⟩)
      · exact .inr (.inr ⟨h1, by rw [h2]; simp only [e']⟩)
    | cons a ls =>
      have ha : a.command = none := h L (by simp) a (by simp [hL])
      have e1 : parseLayerStep (arcFilterLight ops) (({} : ArcSt α), false, ([] : List (PyLine α))) a = .ok ({ queue := [a] }, true, []) := by
        unfold parseLayerStep
        simp only [arcLight_step ops ha]
        rfl
      cases ls with
      | nil =>
        have e : parseLayer (arcFilterLight ops) {} L.lines = .ok ({ queue := [a] }, []) := by
          rw [hL]; unfold parseLayer; rw [List.foldlM_cons, e1]; rfl
        by_cases hn : Ls.flatMap (·.lines) = []
        · refine .inr (.inl ⟨a, by simp [List.flatMap_cons, hL, hn], { L with lines := [] } :: Ls, ?_, by simp [List.flatMap_cons, hn], by simp⟩)
          have k : ∀ (s : ArcSt α) (Ls : List (Layer α)), Ls.flatMap (·.lines) = [] → parseLayers (arcFilterLight ops) s Ls = .ok (s, Ls) := by
            intro s Ls
            induction Ls with
            | nil => intro _; rfl
            | cons K Ls ih =>
              intro hK
              rw [List.flatMap_cons, List.append_eq_nil_iff] at hK
              have e : parseLayer (arcFilterLight ops) s K.lines = .ok (s, []) := by rw [hK.1]; rfl
              have e' : ({ K with lines := [] } : Layer α) = K := by rw [← hK.1]
              unfold parseLayers
              rw [e]
              simp only
              rw [ih hK.2]
              simp only [e']
          unfold parseLayers
          rw [e]
          simp only
          rw [k _ _ hn]
        · refine .inl ⟨?_, ?_⟩
          · rw [List.flatMap_cons, hL, List.length_append]
            have := List.length_pos_iff.2 hn
            simp only [List.length_singleton]
            omega
          · unfold parseLayers
            rw [e]
            simp only
            rw [arcLight_layers_fail ops (by simp) Ls h' hn]
      | cons b ls =>
        refine .inl ⟨by simp [List.flatMap_cons, hL], ?_⟩
        have hb : b.command = none := h L (by simp) b (by simp [hL])
        have e : parseLayer (arcFilterLight ops) {} L.lines = .error .attributeError := by
          rw [hL]
          have e2 : parseLayerStep (arcFilterLight ops) (({ queue := [a] } : ArcSt α), true, ([] : List (PyLine α))) b = .error .attributeError := by
            unfold parseLayerStep
            simp only [arcLight_fails ops (s := { queue := [a] }) (by simp) hb]
          have e3 : List.foldlM (parseLayerStep (arcFilterLight ops)) (({} : ArcSt α), false, ([] : List (PyLine α))) (a :: b :: ls) = .error .attributeError := by
            rw [List.foldlM_cons, e1]
            show List.foldlM (parseLayerStep (arcFilterLight ops)) (({ queue := [a] } : ArcSt α), true, ([] : List (PyLine α))) (b :: ls) = _
            rw [List.foldlM_cons, e2]
            rfl
          unfold parseLayer
          rw [e3]
        unfold parseLayers
        rw [e]

theorem modifyLast_queue (f : Layer α → Layer α) (q : List (PyLine α)) (hf : ∀ L, (f L).lines = L.lines ++ q) (Ls : List (Layer α)) (h : Ls ≠ []) :
    (modifyLast f Ls).flatMap (·.lines) = Ls.flatMap (·.lines) ++ q := by
  induction Ls with
  | nil => exact absurd rfl h
  | cons L Ls ih =>
    cases Ls with
    | nil => simp [modifyLast, hf]
    | cons K Ls => simp only [modifyLast, List.flatMap_cons] at ih ⊢; rw [ih (by simp)]; simp

/-- C119: arc optimisation of a light program raises `AttributeError` exactly if it has two lines or more; otherwise the lines stay. -/
theorem C119_arcs {env : Env α} {data : List Str} {home : Home α} {g : GCode α} (h : GCode.load env data true home = .ok g) (t : Trig α) :
    (2 ≤ (program g).length ∧ g.optimizeArcsLight t = .error .attributeError) ∨
    ((program g).length ≤ 1 ∧ ∃ g', g.optimizeArcsLight t = .ok g' ∧ program g' = program g) := by
  have hl : ∀ L ∈ g.allLayers, ∀ l ∈ L.lines, l.command = none := fun L hL l k => by rw [light_lines h L hL l k]
  simp only [program_def]
  unfold GCode.optimizeArcsLight runFilter
  rcases arcLight_layers (arcOps t) g.allLayers hl with ⟨h1, h2⟩ | ⟨l, h1, Ls', h2, h3, h4⟩ | ⟨h1, h2⟩
  · exact .inl ⟨h1, by rw [h2]⟩
  · refine .inr ⟨by rw [h1]; simp, _, by rw [h2], ?_⟩
    simp only [List.isEmpty_cons, Bool.false_eq_true, if_false]
    rw [modifyLast_queue _ [l] (fun L => rfl) Ls' h4, h3, h1]
    rfl
  · exact .inr ⟨by rw [h1]; simp, g, by rw [h2]; rfl, rfl⟩

/-- C119: stretching a light program with a line raises, for every slicer and every setting. -/
theorem C119_stretch {g : GCode α} (slicer : Slicer) (repo : StretchRepo α) (profile : ProfileOracle α) (h : program g ≠ []) :
    ∃ er, g.stretchLight slicer repo profile = .error er ∧
      (er = .attributeError ∨ setupFilter slicer repo profile g.allLayers = .error er) := by
  unfold GCode.stretchLight
  cases hs : setupFilter slicer repo profile g.allLayers with
  | error er => exact ⟨er, rfl, .inr rfl⟩
  | ok p =>
    refine ⟨.attributeError, ?_, .inl rfl⟩
    obtain ⟨d, Ls⟩ := p
    have hm := (setupFilter_marked hs)
    have hne : ¬ Ls.all (fun L => L.lines.isEmpty) = true := by
      intro k
      apply h
      rw [program_def]
      rw [List.all_eq_true] at k
      rw [List.flatMap_eq_nil_iff]
      intro L hL
      obtain ⟨L', hL', _, hf⟩ := forall₂_mem_left hm L hL
      have := k L' hL'
      rw [List.isEmpty_iff] at this
      rw [this] at hf
      cases hf' : L.lines with
      | nil => rfl
      | cons a b => rw [hf'] at hf; cases hf
    simp only [if_neg hne]

/-- C119: no temperature tower can be made of a light program. -/
theorem C119_tower {env : Env α} {data : List Str} {home : Home α} {g : GCode α} (h : GCode.load env data true home = .ok g) (mode : RoundMode)
    (a b z n : α) :
    writeContinuous mode a b z g = ([], .error .runtimeError) ∧
    (n ≠ 0 → writeStep mode a b z n g = ([], .error .runtimeError)) := by
  have hz : g.allLayers.foldl (scanZmin z) none = none := by
    have hl : ∀ L ∈ g.allLayers, ∀ l ∈ L.lines, l.currentZ = none := fun L hL l k => by rw [light_lines h L hL l k]
    generalize g.allLayers = Ls at hl
    induction Ls with
    | nil => rfl
    | cons L Ls ih =>
      rw [List.foldl_cons]
      have e : scanZmin z none L = none := by
        unfold scanZmin layerZ
        cases hL : L.lines with
        | nil => rfl
        | cons k ks => simpa [hL] using hl L (by simp) k (by simp [hL])
      rw [e]
      exact ih (fun L hL => hl L (by simp [hL]))
  have hp : parseHeights z g.zmax none g.allLayers = .error .runtimeError := by
    unfold parseHeights
    rw [hz]
  constructor
  · unfold writeContinuous writeTemp
    simp only [hp]
  · intro hn
    unfold writeStep stepInit
    rw [if_neg hn]
    unfold writeTemp
    simp only [hp]

/-- A light program, for computed examples. -/
def lightQ (data : List Str) : GCode ℚ := okOr (loadQ data) (GCode.load qEnv data true)

example : GCode.load qEnv sample true = .ok (lightQ sample) ∧ 2 ≤ (program (lightQ sample)).length ∧
    (lightQ sample).optimizeArcsLight qTrig = .error .attributeError ∧
    (lightQ sample).stretchLight .cura (StretchRepo.default 1) noProfile = .error .attributeError ∧
    writeContinuous qEnv.mode 200 220 0 (lightQ sample) = ([], .error .runtimeError) := by decide +kernel

/-- C119 is false: translating and converting a light program leaves its text as it is, without an error, although the full program
is changed. -/
theorem C119_refuted :
    ((lightQ [c!"G90", c!"G1 X1 Y1"]).translate (some 5) none).map GCode.write = .ok c!"G90\nG1 X1 Y1\n" ∧
    ((loadQ [c!"G90", c!"G1 X1 Y1"]).translate (some 5) none).map GCode.write = .ok c!"G90\nG1 X6.000 Y1.000\n" ∧
    (lightQ [c!"M82", c!"G1 X1 E1"]).toRelativeE.map GCode.write = .ok c!"M82\nG1 X1 E1\n" ∧
    (loadQ [c!"M82", c!"G1 X1 E1"]).toRelativeE.map GCode.write = .ok c!"M83\nG1 X1.000 E1.00000\n" := by decide +kernel

end GCodeUtils
