import Verif.Lemmas.Analysis
import Verif.Props.Common

/-
  C23-C26: bounding box, heights, duration estimate, exceptions of loading.
-/

set_option linter.unusedSectionVars false

namespace GCodeUtils

open Spec

variable {α : Type} [Field α] [LinearOrder α] [IsStrictOrderedRing α] [FloorRing α]

/-- **C23** (bounding box).  Every move line of a loaded program carries its end position; if the program extrudes
the box is the tight box of the ends of the extruding moves, otherwise of all moves (0 if there are none); width and
depth are the differences. -/
theorem C23_bounding_box {env : Env α} {data : List Str} {home : Home α} {g : GCode α}
    (h : GCode.load env data false home = .ok g) (hd : data ≠ []) :
    (∀ l ∈ g.lines, l.isMove = true → ∃ x y, l.currentX = some x ∧ l.currentY = some y) ∧
    ∃ fl x0 x1 y0 y1, g.filamentLength = some fl ∧ g.xmin = some x0 ∧ g.xmax = some x1 ∧ g.ymin = some y0 ∧
      g.ymax = some y1 ∧ g.width = some (x1 - x0) ∧ g.depth = some (y1 - y0) ∧
      (0 < fl → Bounds (endX (fun l => l.isMove = true ∧ l.extruding = some true) g.lines) x0 x1 ∧
        Bounds (endY (fun l => l.isMove = true ∧ l.extruding = some true) g.lines) y0 y1) ∧
      (¬ 0 < fl → Bounds (endX (fun l => l.isMove = true) g.lines) x0 x1 ∧
        Bounds (endY (fun l => l.isMove = true) g.lines) y0 y1) := by
  rcases load_ok h with ⟨rfl, _⟩ | ⟨_, s, hs, rfl⟩
  · exact absurd rfl hd
  · have hi := bbox_fold hs
    refine ⟨hi.stamped, s.m.maxE, _, _, _, _, rfl, rfl, rfl, rfl, rfl, rfl, rfl, ?_, ?_⟩
    · intro hp
      simp only [if_pos hp]
      exact ⟨bounds_of hi.ext.a hi.ext.b, bounds_of hi.ext.c hi.ext.d⟩
    · intro hp
      simp only [if_neg hp]
      have := hi.all (not_lt.1 hp)
      exact ⟨bounds_of this.a this.b, bounds_of this.c this.d⟩

example : (sampleG.filamentLength, sampleG.xmin, sampleG.xmax, sampleG.ymin, sampleG.ymax) =
    (some 2, some 10, some 20, some 10, some 10) := by decide +kernel

/-- **C24** (heights).  `zmin` and `zmax` are the least and the greatest of 0 and the recorded heights, and the height
is their difference. -/
theorem C24_heights {env : Env α} {data : List Str} {light : Bool} {home : Home α} {g : GCode α}
    (h : GCode.load env data light home = .ok g) (hd : data ≠ []) :
    ∃ z0 z1, g.zmin = some z0 ∧ g.zmax = some z1 ∧ IsLeast ({0} ∪ {z | some z ∈ g.allZs}) z0 ∧
      IsGreatest ({0} ∪ {z | some z ∈ g.allZs}) z1 ∧ z0 ≤ 0 ∧ 0 ≤ z1 ∧ g.height = some (z1 - z0) ∧ 0 ≤ z1 - z0 := by
  rcases load_ok h with ⟨rfl, _⟩ | ⟨_, s, hs, rfl⟩
  · exact absurd rfl hd
  · have hset : {z : α | some z ∈ (finalize (GCode.blank light home) s).allZs} =
        {z | z ∈ (closeLast s.ls s.ds.total s.ds.layerBegin).allZs.filterMap id} := by
      ext z
      simp only [Set.mem_ofPred_eq, List.mem_filterMap, id, exists_eq_right]
      rfl
    have h0 := minL_least (0 : α) ((closeLast s.ls s.ds.total s.ds.layerBegin).allZs.filterMap id)
    have h1 := maxL_greatest (0 : α) ((closeLast s.ls s.ds.total s.ds.layerBegin).allZs.filterMap id)
    have a0 := h0.2 (Or.inl rfl)
    have a1 := h1.2 (Or.inl rfl)
    rw [hset]
    exact ⟨_, _, rfl, rfl, h0, h1, a0, a1, rfl, by linarith⟩

example : (sampleG.zmin, sampleG.zmax, sampleG.height, sampleG.allZs) =
    (some 0, some (3 / 10), some (3 / 10), [some (3 / 10)]) := by decide +kernel

/-- **C25** (sum).  Every layer of a loaded program has a duration and the total, of which `duration` is the whole
number of seconds, is their sum. -/
theorem C25_duration_sum {env : Env α} {data : List Str} {light : Bool} {home : Home α} {g : GCode α}
    (h : GCode.load env data light home = .ok g) (hd : data ≠ []) :
    ∃ ds : List α, g.allLayers.map (·.duration) = ds.map some ∧ g.duration = some (pyInt ds.sum) := by
  rcases load_ok h with ⟨rfl, _⟩ | ⟨_, s, hs, rfl⟩
  · exact absurd rfl hd
  · obtain ⟨ds, h1, h2⟩ : DurSum s :=
      foldlM_inv (buildStep env light home) (fun _ s => DurSum s) (fun _ _ _ _ hp hs => durSum_step hp hs) _ [] _ s
        ⟨[], rfl, rfl⟩ hs
    by_cases hc : s.ls.curLines = []
    · refine ⟨ds ++ [0], ?_, ?_⟩
      · simp [finalize, closeLast, hc, h1]
      · simp [finalize, h2, empty_fold hs hc]
    · refine ⟨ds ++ [s.ds.total - s.ds.layerBegin, 0], ?_, ?_⟩
      · simp [finalize, closeLast, hc, h1]
      · simp only [finalize, List.sum_append, List.sum_cons, List.sum_nil, h2]
        congr 2; ring

/-- **C25** (sign).  If no line has a negative `F` word and no line has a negative `P` word (and `hypot` is not
negative), loading never raises ZeroDivisionError, and every layer duration and the total are non-negative. -/
theorem C25_duration_nonneg {env : Env α} (henv : ∀ a b, 0 ≤ env.hypot a b) {data : List Str} (light : Bool)
    (home : Home α) (hdata : ∀ t ∈ data, FeedNonneg α (strip t) ∧ DwellNonneg α (strip t)) :
    GCode.load env data light home ≠ .error .zeroDivision ∧
    ∀ g, GCode.load env data light home = .ok g →
      (∀ L ∈ g.allLayers, ∀ d, L.duration = some d → 0 ≤ d) ∧ ∀ t, g.duration = some t → 0 ≤ t := by
  have hls : ∀ l ∈ readLines (α := α) data, ∃ r, l = { raw := r } ∧ DurLine α r := by
    intro l hl
    obtain ⟨t, ht, rfl⟩ := mem_readLines hl
    exact ⟨_, rfl, hdata t ht⟩
  refine ⟨?_, ?_⟩
  · intro h
    obtain ⟨hd, hf⟩ := load_error h
    obtain ⟨pre, b, post, s, hsp, hpre, hb⟩ := foldlM_error hf
    rw [hsp] at hls
    obtain ⟨r, rfl, hr⟩ := hls b (by simp)
    have := durPos_error henv hr
      (fold_durPos henv pre (fun l hl => hls l (by simp [hl])) (start_durPos _) hpre) hb
    exact absurd this (by decide)
  · intro g h
    rcases load_ok h with ⟨rfl, rfl⟩ | ⟨hd, s, hs, rfl⟩
    · simp [GCode.blank]
    · have hi := fold_durPos henv _ hls (start_durPos _) hs
      have hlay : ∀ L ∈ (finalize (GCode.blank light home) s).allLayers, ∀ d, L.duration = some d → 0 ≤ d := by
        intro L hL d hdd
        simp only [finalize, List.mem_append, List.mem_singleton] at hL
        rcases hL with hL | rfl
        · unfold closeLast at hL
          split at hL
          · exact hi.d L hL d hdd
          · rcases List.mem_append.1 hL with hL | hL
            · exact hi.d L hL d hdd
            · rw [List.mem_singleton] at hL
              subst hL
              simp only [Option.some.injEq] at hdd
              subst hdd
              have := hi.b
              linarith
        · simp only [Option.some.injEq] at hdd
          rw [← hdd]
      refine ⟨hlay, ?_⟩
      intro t ht
      obtain ⟨ds, h1, h2⟩ := C25_duration_sum h hd
      rw [h2, Option.some.injEq] at ht
      have hds : ∀ d ∈ ds, 0 ≤ d := by
        intro d hd'
        have : some d ∈ (finalize (GCode.blank light home) s).allLayers.map (·.duration) := by
          rw [h1]; exact List.mem_map_of_mem hd'
        obtain ⟨L, hL, hL'⟩ := List.mem_map.1 this
        exact hlay L hL d hL'
      have h0 := sum_nonneg_list hds
      rw [← ht, pyInt, if_pos h0]
      exact Int.floor_nonneg.2 h0

/-- The conditions of `C25_duration_nonneg` hold of the sample program. -/
example : (∀ t ∈ sample, FeedNonneg ℚ (strip t) ∧ DwellNonneg ℚ (strip t)) ∧
    sampleG.allLayers.map (·.duration) ≠ [] ∧ sampleG.duration ≠ none := by
  refine ⟨?_, by decide +kernel, by decide +kernel⟩
  decide +kernel

/-- The condition on feed rates is needed: two moves with opposite feed rates. -/
example : GCode.load qEnv [c!"G1 X10 F600", c!"G1 X20 F-600"] false ⟨0, 0, 0⟩ = .error .zeroDivision := by
  decide +kernel

/-- **C26** (which errors).  Loading raises nothing but ValueError and ZeroDivisionError. -/
theorem C26_errors {env : Env α} {data : List Str} {light : Bool} {home : Home α} {e : Err}
    (h : GCode.load env data light home = .error e) : e = .valueError ∨ e = .zeroDivision := by
  obtain ⟨hd, hf⟩ := load_error h
  obtain ⟨pre, b, post, s, hsp, hpre, hb⟩ := foldlM_error hf
  have hbm : b ∈ readLines (α := α) data := by rw [hsp]; simp
  obtain ⟨t, ht, rfl⟩ := mem_readLines hbm
  rcases buildStep_error hb with h | ⟨m, l, hp, hd⟩
  · exact Or.inl (process_error_value h)
  · rcases stepDur_error hd with ⟨rfl, _⟩ | ⟨rfl, _⟩
    · exact Or.inr rfl
    · exact Or.inl rfl

/-- **C26** (ValueError has a culprit).  A ValueError is raised only if some line of the program has a malformed
number word, tool number or dwell word. -/
theorem C26_value_error {env : Env α} {data : List Str} {light : Bool} {home : Home α}
    (h : GCode.load env data light home = .error .valueError) : ∃ t ∈ data, ¬ WellFormed (strip t) := by
  obtain ⟨hd, hf⟩ := load_error h
  obtain ⟨pre, b, post, s, hsp, hpre, hb⟩ := foldlM_error hf
  have hbm : b ∈ readLines (α := α) data := by rw [hsp]; simp
  obtain ⟨t, ht, rfl⟩ := mem_readLines hbm
  refine ⟨t, ht, fun hw => ?_⟩
  obtain ⟨s', hs'⟩ := buildStep_wf (env := env) (light := light) (home := home) (s := s) hw (by rw [hb]; simp)
  rw [hb] at hs'
  simp at hs'

/-- **C26** (totality).  A program all of whose number words are well formed, and none of whose feed rates and dwells
is negative, loads. -/
theorem C26_loads {env : Env α} (henv : ∀ a b, 0 ≤ env.hypot a b) {data : List Str} (light : Bool) (home : Home α)
    (hdata : ∀ t ∈ data, WellFormed (strip t) ∧ FeedNonneg α (strip t) ∧ DwellNonneg α (strip t)) :
    ∃ g, GCode.load env data light home = .ok g := by
  cases h : GCode.load env data light home with
  | ok g => exact ⟨g, rfl⟩
  | error e =>
    exfalso
    rcases C26_errors h with rfl | rfl
    · obtain ⟨t, ht, hn⟩ := C26_value_error h
      exact hn (hdata t ht).1
    · exact (C25_duration_nonneg henv light home (fun t ht => (hdata t ht).2)).1 h

example : ∀ t ∈ sample, WellFormed (strip t) ∧ FeedNonneg ℚ (strip t) ∧ DwellNonneg ℚ (strip t) := by
  decide +kernel

example : GCode.load qEnv [c!"G1 X-"] false ⟨0, 0, 0⟩ = .error .valueError ∧
    GCode.load qEnv [c!"T1.5"] false ⟨0, 0, 0⟩ = .error .valueError ∧
    GCode.load qEnv [c!"G4 P-"] false ⟨0, 0, 0⟩ = .error .valueError := by decide +kernel

end GCodeUtils
