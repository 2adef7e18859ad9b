import Verif.Lemmas.PlacedTime
import Verif.Props.LayerTime
import Verif.Props.Placed

/-
  C103, durations: which times do not depend on where on the bed the object lies.
-/

set_option linter.unusedSectionVars false

namespace GCodeUtils

open Spec

variable {α : Type} [Field α] [LinearOrder α] [IsStrictOrderedRing α] [FloorRing α] {dx dy : α}

theorem times_of_displaced {env : Env α} {home : Home α} {data data' : List Str} {g g' : GCode α}
    (hg : GCode.load env data false home = .ok g) (hg' : GCode.load env data' false home = .ok g')
    (h : List.Forall₂ (Displaced dx dy) g.lines g'.lines) (hf : FirstNamesBoth g.lines)
    (hlen : g'.allLayers.map (·.lines.length) = g.allLayers.map (·.lines.length)) : SameTimes env.hypot g g' := by
  have hi : ∀ i, ¬ Arriving g.lines i → (lineTimes env.hypot .rest g'.lines)[i]? = (lineTimes env.hypot .rest g.lines)[i]? :=
    fun i => times_elsewhere env.hypot h hf i
  have e1 : g.lines = g.allLayers.flatMap (·.lines) := (load_indexed hg).flat
  have e2 : g'.lines = g'.allLayers.flatMap (·.lines) := (load_indexed hg').flat
  have ne : ∀ {d : List Str} {q : GCode α}, GCode.load env d false home = .ok q → q.lines ≠ [] → d ≠ [] := by
    intro d q hq hne hd
    rcases load_ok hq with ⟨_, rfl⟩ | ⟨w, _⟩
    · exact hne rfl
    · exact w hd
  have ne' : g.lines ≠ [] → g'.lines ≠ [] := by
    intro h1 e
    rw [e] at h
    exact h1 (by simpa using h.length_eq)
  have hdrop : ∀ {n : ℕ} {a b : List (PyLine α)} {m k : PyLine α}, g.lines.take n = a ++ m :: b → XYMove m → k ∈ b → Linear k →
      (lineTimes env.hypot .rest g'.lines).drop n = (lineTimes env.hypot .rest g.lines).drop n := by
    intro n a b m k hn hm hk hL
    apply List.ext_getElem?
    intro i
    rw [List.getElem?_drop, List.getElem?_drop]
    refine hi _ (not_arriving (a := a) (b := b) (rest := (g.lines.drop n).take i) hm hk hL ?_)
    rw [← hn, List.take_add]
  refine ⟨hi, ?_, ?_⟩
  · intro pre post pre' post' L L' a b m k hs hs' hl hpre hm hk hL
    have hne : pre ≠ [] := by
      rintro rfl
      simp at hpre
    have hne' : pre' ≠ [] := by
      rintro rfl
      exact hne (List.length_eq_zero_iff.1 hl.symm)
    have hnl : g.lines ≠ [] := by
      rw [e1, hs, List.flatMap_append, hpre]
      simp
    have l1 := C130_layers hg (ne hg hnl) hs
    have l2 := C130_layers hg' (ne hg' (ne' hnl)) hs'
    have hc : ∀ {A B A' B' : List (Layer α)}, g.allLayers = A ++ B → g'.allLayers = A' ++ B' → A'.length = A.length → lineCount A' = lineCount A := by
      intro A B A' B' hA hA' hl
      rw [hA, hA', List.map_append, List.map_append] at hlen
      unfold lineCount
      rw [(List.append_inj hlen (by simpa using hl)).1]
    have c1 : lineCount pre' = lineCount pre := hc hs hs' hl
    have c2 : lineCount (pre' ++ [L']) = lineCount (pre ++ [L]) :=
      hc (A := pre ++ [L]) (B := post) (A' := pre' ++ [L']) (B' := post') (by rw [hs]; simp) (by rw [hs']; simp) (by simp [hl])
    have ht : (lineTimes env.hypot .rest g'.lines).drop (lineCount pre + 1) = (lineTimes env.hypot .rest g.lines).drop (lineCount pre + 1) := by
      refine hdrop (a := a) (b := b ++ (L.lines ++ post.flatMap (·.lines)).take 1) (m := m) (k := k) ?_ hm (by simp [hk]) hL
      rw [e1, hs, List.flatMap_append, List.flatMap_cons, lineCount_lines, List.take_length_add_append, hpre, List.append_assoc, List.cons_append]
    have hle : lineCount pre + 1 ≤ lineCount (pre ++ [L]) + 1 := by
      rw [lineCount_append]; omega
    rw [l1, l2]
    congr 1
    unfold overAt timeUpTo
    rw [if_neg (by simp), if_neg hne', if_neg (by simp), if_neg hne, c1, c2, sum_take_sub _ hle, sum_take_sub _ hle, ht]
  · intro n a b m k hn hm hk hL
    have h1 : g.lines ≠ [] := by
      intro e
      rw [e] at hn
      simp at hn
    have ht := hdrop hn hm hk hL
    refine ⟨((lineTimes env.hypot .rest g.lines).drop n).sum, ?_, ?_⟩
    · rw [C130_total hg (ne hg h1)]
      unfold timeUpTo
      rw [← List.sum_append, List.take_append_drop]
    · rw [C130_total hg' (ne hg' (ne' h1)), ← ht]
      unfold timeUpTo
      rw [← List.sum_append, List.take_append_drop]

/-- **C103 (partial)**, times.  Two programs are loaded; the second has the same lines, with the X and Y numbers of its X/Y moves
increased by `dx` and `dy`.  Then every line takes the same time in both, except the first X/Y move (the way to the place) and
the first linear move after it (whose entry speed depends on the direction of the way); and so do layers and the whole after these. -/
theorem C103_times_partial (env : Env α) (home : Home α) {data data' : List Str} {g g' : GCode α}
    (hg : GCode.load env data false home = .ok g) (hg' : GCode.load env data' false home = .ok g')
    (h : List.Forall₂ (Elsewhere dx dy) (g.lines.map (·.raw)) (g'.lines.map (·.raw))) : SameTimes env.hypot g g' := by
  obtain ⟨hs, hl⟩ := shift_lines (load_shift hg hg' h)
  have e1 : g.lines = g.allLayers.flatMap (·.lines) := (load_indexed hg).flat
  have e2 : g'.lines = g'.allLayers.flatMap (·.lines) := (load_indexed hg').flat
  rw [← e1, ← e2] at hs
  exact times_of_displaced hg hg' (hs.imp fun _ _ k => (shift_displaced k).1) (shift_first hs) hl

/-- Two layers. -/
def storeysHere : List Str :=
  [c!"G1 Z0.3 F7800", c!"G0 X1 Y2", c!"G1 X4 Y2 E1 F1200", c!"G1 Z0.6", c!"G1 X4 Y8 E3", c!"G4 P500"]

/-- The same ten millimetres to the right. -/
def storeysThere : List Str :=
  [c!"G1 Z0.3 F7800", c!"G0 X11 Y2", c!"G1 X14 Y2 E1 F1200", c!"G1 Z0.6", c!"G1 X14 Y8 E3", c!"G4 P500"]

theorem storeys_elsewhere : List.Forall₂ (Elsewhere (10 : ℚ) 0) storeysHere storeysThere := by
  have sm : ∀ (c : Char) (n : Str), c ∈ c!"ZEFIJ" → (∀ d ∈ n, d ∈ c!"0123456789.+-") → MovedWord (10 : ℚ) 0 (c :: n) (c :: n) :=
    fun c n h1 h2 => .same c n h1 h2
  refine .cons (kept_here (by decide) (by decide) (by decide) (by decide)) (.cons ?_ (.cons ?_ (.cons (kept_here (by decide) (by decide) (by decide) (by decide))
    (.cons ?_ (.cons (kept_here (by decide) (by decide) (by decide) (by decide)) .nil)))))
  · exact .inl ⟨c!"0", [(c!" ", c!"X1"), (c!" ", c!"Y2")], [(c!" ", c!"X11"), (c!" ", c!"Y2")], [], by decide, by decide,
      .cons ⟨rfl, wordX (a := 1) (by decide +kernel) (by decide +kernel)⟩ (.cons ⟨rfl, wordY (a := 2) (by decide +kernel) (by decide +kernel)⟩ .nil),
      by decide, by decide, .inl rfl, by decide, by decide⟩
  · exact .inl ⟨c!"1", [(c!" ", c!"X4"), (c!" ", c!"Y2"), (c!" ", c!"E1"), (c!" ", c!"F1200")], [(c!" ", c!"X14"), (c!" ", c!"Y2"), (c!" ", c!"E1"), (c!" ", c!"F1200")], [],
      by decide, by decide,
      .cons ⟨rfl, wordX (a := 4) (by decide +kernel) (by decide +kernel)⟩ (.cons ⟨rfl, wordY (a := 2) (by decide +kernel) (by decide +kernel)⟩
        (.cons ⟨rfl, sm _ _ (by decide) (by decide)⟩ (.cons ⟨rfl, sm _ _ (by decide) (by decide)⟩ .nil))),
      by decide, by decide, .inl rfl, by decide, by decide⟩
  · exact .inl ⟨c!"1", [(c!" ", c!"X4"), (c!" ", c!"Y8"), (c!" ", c!"E3")], [(c!" ", c!"X14"), (c!" ", c!"Y8"), (c!" ", c!"E3")], [], by decide, by decide,
      .cons ⟨rfl, wordX (a := 4) (by decide +kernel) (by decide +kernel)⟩ (.cons ⟨rfl, wordY (a := 8) (by decide +kernel) (by decide +kernel)⟩
        (.cons ⟨rfl, sm _ _ (by decide) (by decide)⟩ .nil)),
      by decide, by decide, .inl rfl, by decide, by decide⟩

/-- The hypotheses are met, and the way to the place takes different times. -/
example : GCode.load qEnv storeysHere = .ok (loadQ storeysHere) ∧ GCode.load qEnv storeysThere = .ok (loadQ storeysThere) ∧
    List.Forall₂ (Elsewhere (10 : ℚ) 0) ((loadQ storeysHere).lines.map (·.raw)) ((loadQ storeysThere).lines.map (·.raw)) ∧
    Arriving (loadQ storeysHere).lines 1 ∧ ¬ Arriving (loadQ storeysHere).lines 4 ∧
    (lineTimes qEnv.hypot .rest (loadQ storeysThere).lines)[1]? ≠ (lineTimes qEnv.hypot .rest (loadQ storeysHere).lines)[1]? := by
  refine ⟨by decide +kernel, by decide +kernel, ?_, ⟨(loadQ storeysHere).lines[1]'(by decide +kernel), by decide +kernel, by decide +kernel, .inl ⟨by decide +kernel, by decide +kernel⟩⟩,
    ?_, by decide +kernel⟩
  · have e1 : (loadQ storeysHere).lines.map (·.raw) = storeysHere := by decide +kernel
    have e2 : (loadQ storeysThere).lines.map (·.raw) = storeysThere := by decide +kernel
    rw [e1, e2]
    exact storeys_elsewhere
  · exact not_arriving (a := (loadQ storeysHere).lines.take 1) (b := ((loadQ storeysHere).lines.drop 2).take 2) (rest := [])
      (m := (loadQ storeysHere).lines[1]'(by decide +kernel)) (k := (loadQ storeysHere).lines[2]'(by decide +kernel))
      (by decide +kernel) (by decide +kernel) (by decide +kernel) (by decide +kernel)

/-- A split for the whole. -/
example : ∃ (a b : List (PyLine ℚ)) (m k : PyLine ℚ), (loadQ storeysHere).lines.take 3 = a ++ m :: b ∧ XYMove m ∧ k ∈ b ∧ Linear k ∧
    timeUpTo qEnv.hypot (loadQ storeysHere).lines 3 ≠ timeUpTo qEnv.hypot (loadQ storeysThere).lines 3 :=
  ⟨(loadQ storeysHere).lines.take 1, ((loadQ storeysHere).lines.drop 2).take 1, (loadQ storeysHere).lines[1]'(by decide +kernel),
    (loadQ storeysHere).lines[2]'(by decide +kernel), by decide +kernel, by decide +kernel, by decide +kernel, by decide +kernel, by decide +kernel⟩

/-- A layer whose duration does not depend on the place, and one whose duration does. -/
example : ∃ (pre post pre' post' : List (Layer ℚ)) (L L' : Layer ℚ) (a b : List (PyLine ℚ)) (m k : PyLine ℚ),
    (loadQ storeysHere).allLayers = pre ++ L :: post ∧ (loadQ storeysThere).allLayers = pre' ++ L' :: post' ∧ pre'.length = pre.length ∧
    pre.flatMap (·.lines) = a ++ m :: b ∧ XYMove m ∧ k ∈ b ∧ Linear k ∧ L.duration ≠ some 0 ∧
    pre'.map (·.duration) ≠ pre.map (·.duration) :=
  ⟨(loadQ storeysHere).allLayers.take 2, (loadQ storeysHere).allLayers.drop 3, (loadQ storeysThere).allLayers.take 2, (loadQ storeysThere).allLayers.drop 3,
    (loadQ storeysHere).allLayers[2]'(by decide +kernel), (loadQ storeysThere).allLayers[2]'(by decide +kernel),
    (loadQ storeysHere).lines.take 1, ((loadQ storeysHere).lines.drop 2).take 1, (loadQ storeysHere).lines[1]'(by decide +kernel),
    (loadQ storeysHere).lines[2]'(by decide +kernel), by decide +kernel, by decide +kernel, by decide +kernel, by decide +kernel, by decide +kernel,
    by decide +kernel, by decide +kernel, by decide +kernel, by decide +kernel⟩

end GCodeUtils
