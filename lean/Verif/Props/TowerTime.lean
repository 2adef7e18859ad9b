import Verif.Props.OptionTower
import Verif.Props.Bystander
import Verif.Props.Pauses

/-
  C142: a file with a temperature tower, or with pauses, has the analysis of the file it was made of.
-/

set_option linter.unusedSectionVars false

namespace GCodeUtils

open Spec

variable {α : Type} [Field α] [LinearOrder α] [IsStrictOrderedRing α] [FloorRing α]

/-! ### reading what was printed -/

theorem load_lines_congr {env : Env α} {light : Bool} {home : Home α} {data data' : List Str} (h : data ≠ []) (h' : data' ≠ [])
    (e : (readLines data' : List (PyLine α)) = readLines data) : GCode.load env data' light home = GCode.load env data light home := by
  unfold GCode.load prepare
  rw [if_neg (by simpa [List.isEmpty_iff] using h'), if_neg (by simpa [List.isEmpty_iff] using h)]
  unfold preprocessAll
  rw [e]

theorem data_ne_nil {env : Env α} {light : Bool} {home : Home α} {data : List Str} {g : GCode α} (hg : GCode.load env data light home = .ok g)
    (hl : g.lines ≠ []) : data ≠ [] := by
  rintro rfl
  apply hl
  have := load_raws hg
  simpa using this

/-- The texts of the lines of a program, each with its line break, read as the program. -/
theorem load_own_raws {env : Env α} {light : Bool} {home : Home α} {data : List Str} {g : GCode α} (hg : GCode.load env data light home = .ok g)
    (hl : g.lines ≠ []) : GCode.load env (g.lines.map (fun l => l.raw ++ ['\n'])) light home = .ok g := by
  rw [← hg]
  refine load_lines_congr (data_ne_nil hg hl) (by simpa using hl) ?_
  have hr := load_raws hg
  have key : ∀ D : List Str, (readLines (((D.map strip).filter (fun s => !s.isEmpty)).map (fun t => t ++ ['\n'])) : List (PyLine α)) = readLines D := by
    intro D
    induction D with
    | nil => rfl
    | cons d D ih =>
      rw [readLines_cons, List.map_cons]
      by_cases hd : strip d = []
      · rw [if_pos hd, List.filter_cons_of_neg (by simp [hd])]
        exact ih
      · rw [if_neg hd, List.filter_cons_of_pos (by simpa [List.isEmpty_iff] using hd), List.map_cons, readLines_cons,
          strip_append_space _ ['\n'] (by simp [isSpace]), strip_strip, if_neg hd, ih]
  rw [← key data, ← hr, List.map_map]
  rfl

theorem Added.append {β : Type} {P : β → Prop} {a b c d : List β} (h : Added P a b) (k : Added P c d) : Added P (a ++ c) (b ++ d) := by
  induction h with
  | nil => exact k
  | same x _ ih => exact .same x ih
  | extra y hy _ ih => exact .extra y hy ih

theorem idle_temp {t : α} {s : Str} (h : IsTempLine t s) : IdleText (s ++ ['\n']) ∧ '\n' ∉ s := by
  rcases h with ⟨_, _, n, rfl, hn⟩ | ⟨_, rfl⟩
  · have hf := (firm_heat hn).saves
    refine ⟨.inr ⟨strip (c!"M104 S" ++ n ++ ['\n']), strip_isStrip _, ?_⟩, ?_⟩
    · rw [strip_append_space _ ['\n'] (by simp [isSpace]), show strip (c!"M104 S" ++ n) = c!"M104 S" ++ n from hf.1.1]
      refine bystander_of _ ?_
      rw [findall_temp hn]
      intro c hc
      have : c = c!"M104" := by
        have e : commandOf (c!"M104 S" ++ n) [some ('m', c!"104")] = some c!"M104" := rfl
        rw [e] at hc
        exact (Option.some.inj hc).symm
      subst this
      decide
    · exact hf.1.2.2
  · exact ⟨.inl (by decide), by simp⟩

theorem tower_added {ins : List (Option Str)} (hi : ∀ s, some s ∈ ins → ∃ t : α, IsTempLine t s) {Ls : List (Layer α)} (h : ins.length = Ls.length) :
    Added IdleText ((Ls.flatMap (·.lines)).map (fun l => l.raw ++ ['\n'])) ((tower ins Ls).map (fun t => t ++ ['\n'])) := by
  unfold tower
  induction ins generalizing Ls with
  | nil => cases Ls with | nil => exact .nil | cons L Ls => simp at h
  | cons i ins ih =>
    cases Ls with
    | nil => simp at h
    | cons L Ls =>
      rw [List.zipWith_cons_cons, List.flatten_cons, List.flatMap_cons, List.map_append, List.map_append]
      refine Added.append ?_ (ih (fun s hs => hi s (by simp [hs])) (by simpa using h))
      have e : (L.lines.map (·.raw)).map (fun t => t ++ ['\n']) = L.lines.map (fun l => l.raw ++ ['\n']) := by rw [List.map_map]; rfl
      rw [List.map_append, e]
      cases i with
      | none => exact added_refl _ _
      | some s =>
        obtain ⟨t, ht⟩ := hi s (by simp)
        exact .extra _ (idle_temp ht).1 (added_refl _ _)

theorem heights_lines {minZ : α} {zM : Option α} {Ls : List (Layer α)} {p : α × α} (h : parseHeights minZ zM none Ls = .ok p) : Ls.flatMap (·.lines) ≠ [] := by
  intro hn
  have key : Ls.foldl (scanZmin minZ) none = none := by
    clear h
    induction Ls with
    | nil => rfl
    | cons L Ls ih =>
      rw [List.flatMap_cons, List.append_eq_nil_iff] at hn
      rw [List.foldl_cons, show scanZmin minZ none L = none by unfold scanZmin layerZ; rw [hn.1]; rfl]
      exact ih hn.2
  unfold parseHeights at h
  rw [key] at h
  cases h

/-- C142, temperature towers: whatever the rule for the temperatures is, the file with the tower can be read again, and the analysis finds what
it finds in the original: the position at the end, the heights, the filament, the bounding box and the estimated times of all layers. The lines of
every layer are those of the original and lines that have nothing to do with motion. -/
theorem C142_tower {env : Env α} {temp : TempFn α} {minZ : α} {text t : Str} {g : GCode α} (hg : GCode.load env (readlines text) = .ok g)
    (h : towerRun env temp minZ text = .ok t) :
    ∃ g', GCode.load env (readlines t) = .ok g' ∧ SameFindings g g' ∧ List.Forall₂ LayerWithMore g.allLayers g'.allLayers ∧
      Added (fun l => Bystander l.raw) g.lines g'.lines := by
  obtain ⟨g0, zm, zM, ins, a1, a2, _, _, a4, a5, a6⟩ := towerRun_steps h
  rw [hg] at a1
  obtain rfl := Except.ok.inj a1
  have hl : g.lines = g.allLayers.flatMap (·.lines) := by rw [← program_def]; exact (load_indexed hg).flat
  have hne : g.lines ≠ [] := by rw [hl]; exact heights_lines a2
  have hnl : ∀ s ∈ tower ins g.allLayers, '\n' ∉ s := by
    intro s hs
    rw [← program_tower] at hs
    obtain ⟨l, hm, rfl⟩ := List.mem_map.1 hs
    refine mem_tower (P := fun l => '\n' ∉ l.raw) (fun s hs => ?_) ?_ l hm
    · obtain ⟨u, hu⟩ := a6 s hs
      exact (idle_temp hu).2
    · rw [← hl]; exact load_no_newline hg
  have A := tower_added a6 a5
  rw [← hl] at A
  obtain ⟨g', k1, k2, k3, k4⟩ := C102_bystanders env false _ _ _ A g (load_own_raws hg hne) hne
  refine ⟨g', ?_, k2, k3, k4⟩
  rw [a4, printed, readlines_write _ hnl]
  exact k1

/-! ### pauses -/

theorem spaced_added (k : ℕ → ℕ) (Ls : List (List Str)) : ∀ n, Added IdleText (Ls.flatten.map (fun t => t ++ ['\n'])) ((spaced k n Ls).map (fun t => t ++ ['\n'])) := by
  have idle : IdleText (c!"M226" ++ ['\n']) := .inr ⟨_, strip_isStrip _, bystander_of _ (by decide +kernel)⟩
  have reps : ∀ m, Added IdleText [] ((List.replicate m c!"M226").map (fun t => t ++ ['\n'])) := by
    intro m
    induction m with
    | zero => exact .nil
    | succ m ih => exact .extra _ idle ih
  induction Ls with
  | nil => intro n; exact .nil
  | cons L Ls ih =>
    intro n
    rw [spaced, List.flatten_cons, List.map_append, List.map_append, List.map_append]
    exact Added.append (Added.append (a := []) (reps _) (added_refl _ _)) (ih _)

theorem mem_spaced {k : ℕ → ℕ} (Ls : List (List Str)) : ∀ {n : ℕ} {s : Str}, s ∈ spaced k n Ls → s = c!"M226" ∨ s ∈ Ls.flatten := by
  induction Ls with
  | nil => intro n s h; simp [spaced] at h
  | cons L Ls ih =>
    intro n s h
    rw [spaced, List.mem_append, List.mem_append] at h
    rw [List.flatten_cons, List.mem_append]
    rcases h with (h | h) | h
    · exact .inl (List.mem_replicate.1 h).2
    · exact .inr (.inl h)
    · exact (ih h).imp id .inr

/-- C142, pauses added by any number of runs, each working on what the one before wrote (under the conditions of C115): the final text can be read
again, and the analysis finds what it finds in the original. -/
theorem C142_pauses (env : Env α) (light : Bool) (home : Home α) (text : Str) (g : GCode α) (hg : GCode.load env (readlines text) light home = .ok g)
    (hl : g.lines ≠ []) (hz : none ∉ g.allZs) (hd : light = true ∨ Distinct g ∧ ∀ l ∈ g.lines, l.command ≠ some c!"M226")
    (mode : RoundMode) (digits : ℕ) (ps : List (List ℤ)) (hps : ps ≠ []) :
    ∃ t g', pauseRuns env light home mode digits text ps = .ok t ∧ GCode.load env (readlines t) light home = .ok g' ∧ SameFindings g g' ∧
      List.Forall₂ LayerWithMore g.allLayers g'.allLayers ∧ Added (fun l => Bystander l.raw) g.lines g'.lines := by
  have hr := C115_runs env light home text g hg hl hz hd mode digits ps hps
  have hf : g.lines.map (·.raw) = (layerTexts g).flatten := by
    have e : g.lines = g.allLayers.flatMap (·.lines) := by rw [← program_def]; exact (load_indexed hg).flat
    rw [e, layerTexts, List.map_flatMap, List.flatMap_def]
  have A := spaced_added (asked mode digits g ps) (layerTexts g) 0
  rw [← hf, List.map_map] at A
  obtain ⟨g', k1, k2, k3, k4⟩ := C102_bystanders env light home _ _ A g (load_own_raws hg hl) hl
  refine ⟨_, g', hr, ?_, k2, k3, k4⟩
  rw [readlines_write]
  · exact k1
  · intro s hs
    rcases mem_spaced _ hs with rfl | h
    · decide
    · rw [← hf] at h
      obtain ⟨l, hm, rfl⟩ := List.mem_map.1 h
      exact load_no_newline hg l hm

/-! ### the hypotheses are met -/

/-- The program of `C138`: its tower, and the analysis of both. -/
example : GCode.load qEnv (readlines optText) = .ok optG ∧
    towerRun qEnv (continuousTemp 220 200) 0 optText =
      .ok c!"G90\nM82\nG92 X0 E0\nM104 S210.0\nG1 Z0.3\nG1 X10 Y10 E1.25 ; draw\nG1 Y20 E2.5\nM104 S200.0\nG1 Z0.6\nG1 X0.125 E4\n" ∧
    optG.filamentLength = some 4 ∧ optG.zmax = some (3 / 5) ∧ optG.allLayers.map (·.duration) ≠ [] := by decide +kernel

/-- A tower with a temperature outside the safety range, which is printed as an empty line. -/
example : towerRun qEnv (continuousTemp 320 200) 0 optText =
    .ok c!"G90\nM82\nG92 X0 E0\n\nG1 Z0.3\nG1 X10 Y10 E1.25 ; draw\nG1 Y20 E2.5\nM104 S200.0\nG1 Z0.6\nG1 X0.125 E4\n" := by decide +kernel

/-- Pauses: the light analysis asks for nothing else. -/
example : ∃ g, GCode.load qEnv (readlines floorsText) true = .ok g ∧ g.lines ≠ [] ∧ none ∉ g.allZs :=
  ⟨okOr (GCode.blank true Home.init) (GCode.load qEnv (readlines floorsText) true), by decide +kernel⟩

end GCodeUtils
