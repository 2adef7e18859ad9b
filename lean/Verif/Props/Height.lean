import Verif.Lemmas.Apart
import Verif.Props.Common

/-
  C24, C81: recorded heights, and what the layers of a program are.
-/

set_option linter.unusedSectionVars false

namespace GCodeUtils

open Spec

variable {α : Type} [Field α] [LinearOrder α] [IsStrictOrderedRing α] [FloorRing α]

/-- C24, which heights are recorded: those at which a layer ends to which extrusion is attributed, each once. -/
theorem C24_recorded {env : Env α} {data : List Str} {home : Home α} {g : GCode α} (h : GCode.load env data false home = .ok g) :
    g.allZs.Nodup ∧ ∀ z, z ∈ g.allZs ↔ ∃ k < g.allLayers.length,
      z = heightAfter ((g.allLayers.map (·.lines)).take (k + 1)).flatten ∧ Prints (attributed (g.allLayers.map (·.lines)) k) := by
  rcases load_ok h with ⟨_, rfl⟩ | ⟨_, s, hs, rfl⟩
  · refine ⟨by simp [GCode.blank], fun z => ?_⟩
    simp [GCode.blank, attributed, Prints]
  · obtain ⟨hi, _⟩ := load_height hs
    have hlay : (finalize (GCode.blank false home) s).allLayers.map (·.lines) = _ := finalize_layers (GCode.blank false home) s
    have hlen : (finalize (GCode.blank false home) s).allLayers.length = ((finalize (GCode.blank false home) s).allLayers.map (·.lines)).length := by simp
    have hzs : (finalize (GCode.blank false home) s).allZs = (closeLast s.ls s.ds.total s.ds.layerBegin).allZs := rfl
    rw [hlen, hlay, hzs]
    unfold closeLast
    by_cases hc : s.ls.curLines = []
    · have h0 : closedLines s.ls = [] := by
        by_contra hn
        exact hi.inv.2 (fun e => hn (by unfold closedLines; rw [e]; rfl)) hc
      rw [if_pos (by rw [hc]; rfl), if_pos hc]
      refine ⟨hi.nodup, fun z => ?_⟩
      rw [hi.zs, h0]
      simp [attributed, Prints]
    · rw [if_neg (by rw [List.isEmpty_iff]; exact hc), if_neg hc]
      refine ⟨addZ_nodup hi.nodup, fun z => ?_⟩
      have hflat : heightAfter (closedLines s.ls ++ [s.ls.curLines]).flatten = s.ls.prevZ := by
        rw [hi.prev, hi.cur, hi.inv.1.flat]; simp
      have hlast : Prints (attributed (closedLines s.ls ++ [s.ls.curLines] ++ [[]]) (closedLines s.ls).length) ↔ s.ls.hasExtrusion = true := by
        unfold attributed
        have e1 : (closedLines s.ls ++ [s.ls.curLines] ++ [[]]).getD (closedLines s.ls).length [] = s.ls.curLines := by simp
        have e2 : (closedLines s.ls ++ [s.ls.curLines] ++ [[]]).getD ((closedLines s.ls).length + 1) [] = [] := by
          rw [List.getD_eq_getElem?_getD, List.getElem?_append_right (by simp)]; simp
        rw [e1, e2, prints_append, hi.flag]
        by_cases hn : closedLines s.ls = []
        · simp [hn, Prints]
        · rw [if_neg hn, if_neg (by rw [List.length_eq_zero_iff]; exact hn)]; simp [Prints]
      show z ∈ addZ s.ls.hasExtrusion s.ls.allZs s.ls.prevZ ↔ _
      rw [mem_addZ, hi.zs]
      constructor
      · rintro (⟨k, hk, e1, e2⟩ | ⟨e1, e2⟩)
        · refine ⟨k, by simp; omega, ?_, ?_⟩
          · rw [List.append_assoc, List.take_append_of_le_length (by omega)]; exact e1
          · rw [attributed_more (by simp; omega)]; exact e2
        · refine ⟨(closedLines s.ls).length, by simp, ?_, hlast.2 e1⟩
          rw [List.take_append_of_le_length (by simp), List.take_of_length_le (by simp), hflat]; exact e2
      · rintro ⟨k, hk, e1, e2⟩
        simp only [List.length_append, List.length_singleton] at hk
        rcases Nat.lt_trichotomy k (closedLines s.ls).length with hk' | rfl | hk'
        · refine Or.inl ⟨k, hk', ?_, ?_⟩
          · rw [List.append_assoc, List.take_append_of_le_length (by omega)] at e1; exact e1
          · rw [attributed_more (by simp; omega)] at e2; exact e2
        · rw [List.take_append_of_le_length (by simp), List.take_of_length_le (by simp), hflat] at e1
          exact Or.inr ⟨hlast.1 e2, e1⟩
        · obtain rfl : k = (closedLines s.ls).length + 1 := by omega
          exfalso
          unfold attributed at e2
          rw [if_neg (by omega)] at e2
          have x1 : (closedLines s.ls ++ [s.ls.curLines] ++ [[]]).getD ((closedLines s.ls).length + 1) [] = [] := by
            rw [List.getD_eq_getElem?_getD, List.getElem?_append_right (by simp)]; simp
          have x2 : (closedLines s.ls ++ [s.ls.curLines] ++ [[]]).getD ((closedLines s.ls).length + 1 + 1) [] = [] := by
            rw [List.getD_eq_getElem?_getD, List.getElem?_eq_none (by simp)]; rfl
          rw [x1, x2] at e2
          simp [Prints] at e2

/-- Printing at two heights, with a travel layer between them. -/
def tower : List Str :=
  [c!"M82 ; start", c!"G1 Z0.2", c!"G1 X1 E1", c!"G1 Z5", c!"G1 X9", c!"G91", c!"G1 Z-4.6", c!"G90", c!"G1 X2 E2", c!"; end"]

example : GCode.load qEnv tower = .ok (loadQ tower) ∧ (loadQ tower).allZs = [some (2 / 10), some (4 / 10)] ∧
    (loadQ tower).allLayers.map (fun L => (L.lines.length, L.z)) = [(1, none), (2, some (2 / 10)), (3, some 5), (4, some (4 / 10)), (0, none)] := by decide +kernel

/-- C81. If the heights of a program are given in hundredths of a millimetre, its layers are the runs of lines at one height: all lines of
a layer leave the head at the height of the layer, and the next layer begins with a change of height. -/
theorem C81_layers_partial {env : Env α} {data : List Str} {home : Home α} {g : GCode α} (h : GCode.load env data false home = .ok g) (hz : HeightsHundredths g.lines) :
    (∀ (k : ℕ) (L : Layer α) (a b : List (PyLine α)), g.allLayers[k]? = some L → L.lines = a ++ b → a ≠ [] →
      heightAfter ((g.allLayers.take k).flatMap (·.lines) ++ a) = L.z) ∧
    (∀ (k : ℕ) (L M : Layer α), g.allLayers[k]? = some L → g.allLayers[k + 1]? = some M → M.lines ≠ [] → L.z ≠ M.z) := by
  rcases load_ok h with ⟨_, rfl⟩ | ⟨_, s, hs, rfl⟩
  · refine ⟨fun k L a b hL hab hne => ?_, fun k L M hL hM hne => ?_⟩
    · have : k = 0 := by
        by_contra hk
        rw [List.getElem?_eq_none (by simp; omega)] at hL
        simp at hL
      subst this
      simp at hL
      subst hL
      simp at hab
      exact absurd hab.1 hne
    · simp at hM
  · obtain ⟨hi, he⟩ := load_height hs
    have he := he hz
    have hcl : ∀ k, ((s.ls.allLayers.take k).flatMap (·.lines)) = ((closedLines s.ls).take k).flatten := by
      intro k; unfold closedLines; rw [← List.map_take, List.flatMap_def]
    have hall : (finalize (GCode.blank false home) s).allLayers = (closeLast s.ls s.ds.total s.ds.layerBegin).allLayers ++ [{ lines := [], z := none, duration := some 0 }] := rfl
    have hcase : ∀ k L, (finalize (GCode.blank false home) s).allLayers[k]? = some L → L.lines ≠ [] →
        (k < s.ls.allLayers.length ∧ s.ls.allLayers[k]? = some L) ∨ (k = s.ls.allLayers.length ∧ L.lines = s.ls.curLines ∧ L.z = s.ls.curZ) := by
      intro k L hL hne
      rw [hall] at hL
      unfold closeLast at hL
      by_cases hk : k < s.ls.allLayers.length
      · left
        refine ⟨hk, ?_⟩
        split_ifs at hL
        · rw [List.getElem?_append_left hk] at hL; exact hL
        · simp only at hL
          rw [List.append_assoc, List.getElem?_append_left hk] at hL; exact hL
      · right
        split_ifs at hL
        · rw [List.getElem?_append_right (by omega)] at hL
          by_cases hk' : k = s.ls.allLayers.length
          · subst hk'; simp at hL; subst hL; simp at hne
          · rw [List.getElem?_eq_none (by simp; omega)] at hL; simp at hL
        · simp only at hL
          rw [List.append_assoc, List.getElem?_append_right (by omega)] at hL
          by_cases hk' : k = s.ls.allLayers.length
          · subst hk'
            simp at hL
            subst hL
            exact ⟨rfl, rfl, hi.prev⟩
          · by_cases hk2 : k = s.ls.allLayers.length + 1
            · subst hk2; simp at hL; subst hL; simp at hne
            · rw [List.getElem?_eq_none (by simp; omega)] at hL; simp at hL
    have htake : ∀ k, k ≤ s.ls.allLayers.length → (finalize (GCode.blank false home) s).allLayers.take k = s.ls.allLayers.take k := by
      intro k hk
      rw [hall]
      unfold closeLast
      split_ifs
      · rw [List.take_append_of_le_length hk]
      · simp only
        rw [List.append_assoc, List.take_append_of_le_length hk]
    refine ⟨fun k L a b hL hab hne => ?_, fun k L M hL hM hne => ?_⟩
    · have hLne : L.lines ≠ [] := by rw [hab]; simp [hne]
      rcases hcase k L hL hLne with ⟨hk, hL'⟩ | ⟨rfl, e1, e2⟩
      · rw [htake k hk.le, hcl]
        exact he.lay k L hL' a b hab hne
      · rw [htake _ (le_refl _), hcl, e2]
        have : (closedLines s.ls).take s.ls.allLayers.length = closedLines s.ls := List.take_of_length_le (by simp [closedLines])
        rw [this]
        exact he.cur a b (by rw [← e1]; exact hab) hne
    · have hk1 : k < s.ls.allLayers.length := by
        rcases hcase (k + 1) M hM hne with ⟨hk, _⟩ | ⟨hk, _⟩ <;> omega
      have hL' : s.ls.allLayers[k]? = some L := by
        have := congrArg (fun l => l[k]?) (htake (k + 1) (by omega))
        simp only [List.getElem?_take, if_pos (show k < k + 1 by omega)] at this
        rw [← this]; exact hL
      rcases hcase (k + 1) M hM hne with ⟨hk, hM'⟩ | ⟨hk, e1, e2⟩
      · exact he.adj k L M hL' hM'
      · rw [e2]
        refine (he.last L ?_).1
        rw [List.getLast?_eq_getElem?, ← hk]; exact hL'

example : GCode.load qEnv tower = .ok (loadQ tower) ∧ HeightsHundredths (loadQ tower).lines := by
  refine ⟨by decide +kernel, ?_⟩
  have : ∀ l ∈ (loadQ tower).lines, SetsZ l → ∀ z ∈ l.z, z = ((z * 100).num : ℚ) / 100 := by unfold SetsZ; decide +kernel
  exact fun l hl hs z hz => ⟨_, this l hl hs z hz⟩

/-- C81, for programs whose heights change by at least 0.015 mm at a time: the layers are the runs of lines at one height, each but the
first begins with a change of height, and the height recorded for a layer is its height to within 0.005 mm. -/
theorem C81_apart_partial {env : Env α} {data : List Str} {home : Home α} {g : GCode α} (h : GCode.load env data false home = .ok g) (hz : HeightsApart g.lines) :
    (∀ (k : ℕ) (L : Layer α), g.allLayers[k]? = some L → L.lines ≠ [] → ∃ z, RecordedAs z L.z ∧
      ∀ a b, L.lines = a ++ b → a ≠ [] → heightAfter ((g.allLayers.take k).flatMap (·.lines) ++ a) = z) ∧
    (∀ (k : ℕ) (M : Layer α) (l : PyLine α) (r : List (PyLine α)), g.allLayers[k + 1]? = some M → M.lines = l :: r →
      heightAfter ((g.allLayers.take (k + 1)).flatMap (·.lines) ++ [l]) ≠ heightAfter ((g.allLayers.take (k + 1)).flatMap (·.lines))) := by
  rcases load_ok h with ⟨_, rfl⟩ | ⟨_, s, hs, rfl⟩
  · refine ⟨fun k L hL hne => ?_, fun k M l r hM hl => ?_⟩
    · have : k = 0 := by
        by_contra hk
        rw [List.getElem?_eq_none (by simp; omega)] at hL
        simp at hL
      subst this
      simp at hL
      subst hL
      simp at hne
    · simp at hM
  · obtain ⟨hi, he⟩ := load_apart hs
    have he := he hz
    obtain ⟨hcase, htake⟩ := final_layers (home := home) hi
    have hcl : ∀ k, ((s.ls.allLayers.take k).flatMap (·.lines)) = ((closedLines s.ls).take k).flatten := by
      intro k; unfold closedLines; rw [← List.map_take, List.flatMap_def]
    have hfull : (closedLines s.ls).take s.ls.allLayers.length = closedLines s.ls := List.take_of_length_le (by simp [closedLines])
    refine ⟨fun k L hL hne => ?_, fun k M l r hM hl => ?_⟩
    · rcases hcase k L hL hne with ⟨hk, hL'⟩ | ⟨rfl, e1, e2⟩
      · rw [htake k hk.le, hcl]
        exact he.lay k L hL'
      · rw [htake _ (le_refl _), hcl, hfull, e1, e2]
        refine ⟨s.ls.curZ, ?_, he.cur⟩
        cases s.ls.curZ with
        | none => exact .inl ⟨rfl, rfl⟩
        | some z => exact .inr ⟨z, z, rfl, rfl, by simp⟩
    · rcases hcase (k + 1) M hM (by rw [hl]; simp) with ⟨hk, hM'⟩ | ⟨hk, e1, e2⟩
      · rw [htake _ hk.le, hcl]
        exact he.begins k M l r hM' hl
      · rw [htake _ hk.le, hcl, hk, hfull]
        exact he.curBegins l r (by intro h0; rw [h0] at hk; simp at hk) (by rw [← e1]; exact hl)

/-- Layers of an eighth of a millimetre. -/
def eighths : List Str := [c!"G1 Z0.125", c!"G1 X1 E1", c!"G1 Z0.25", c!"G1 X2 E2", c!"G1 Z0.375", c!"G1 X3 E3", c!"G1 Z0.5"]

theorem apart_of_splits {ls : List (PyLine ℚ)} (h : ∀ k < ls.length, ∀ u ∈ heightAfter (ls.take k), ∀ v ∈ heightAfter (ls.take (k + 1)), v = u ∨ 3 / 200 ≤ |v - u|) :
    HeightsApart ls := by
  rintro a l b rfl u v hu hv
  have h1 := h a.length (by simp)
  have e1 : (a ++ l :: b).take a.length = a := List.take_left
  have e2 : (a ++ l :: b).take (a.length + 1) = a ++ [l] := by
    rw [show a ++ l :: b = (a ++ [l]) ++ b by simp, List.take_append_of_le_length (by simp), List.take_of_length_le (by simp)]
  rw [e1, e2] at h1
  exact h1 u hu v hv

example : GCode.load qEnv eighths = .ok (loadQ eighths) ∧ HeightsApart (loadQ eighths).lines ∧ ¬ HeightsHundredths (loadQ eighths).lines ∧
    (loadQ eighths).allLayers.map (fun L => (L.lines.map (·.currentZ), L.z)) =
      [([], none), ([some (1 / 8), some (1 / 8)], some (1 / 8)), ([some (1 / 4), some (1 / 4)], some (25 / 100)),
       ([some (3 / 8), some (3 / 8)], some (38 / 100)), ([some (1 / 2)], some (1 / 2)), ([], none)] := by
  refine ⟨by decide +kernel, apart_of_splits (by decide +kernel), ?_, by decide +kernel⟩
  intro hh
  have h1 : ∃ l ∈ (loadQ eighths).lines, SetsZ l ∧ l.z = some (1 / 8) := by unfold SetsZ; decide +kernel
  obtain ⟨l, hl, hs, hz⟩ := h1
  obtain ⟨n, hn⟩ := hh l hl hs _ hz
  have : (2 * n : ℚ) = 25 := by linarith
  have : (2 * n : ℤ) = 25 := by exact_mod_cast this
  omega

/-- A program that rises by steps of less than a hundredth. -/
def spiral : List Str := [c!"G1 Z0.2", c!"G1 X1 E1", c!"G1 Z0.204", c!"G1 X2 E2", c!"G1 Z0.6", c!"G1 X3 E3"]

/-- C81 is false in general: with finer heights a layer may have lines of several heights. -/
theorem C81_refuted : GCode.load qEnv spiral = .ok (loadQ spiral) ∧
    (loadQ spiral).allLayers.map (fun L => (L.lines.map (·.currentZ), L.z)) =
      [([], none), ([some (2 / 10), some (2 / 10)], some (2 / 10)), ([some (204 / 1000), some (204 / 1000), some (6 / 10), some (6 / 10)], some (6 / 10)), ([], none)] := by decide +kernel

end GCodeUtils
