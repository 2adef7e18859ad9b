import Verif.Lemmas.Edit
import Verif.Props.Common

/-
  C07, C08: `prepend_to_layer` and `rewrite_layer`.
-/

set_option linter.unusedSectionVars false

namespace GCodeUtils

open Spec

variable {α : Type} [Field α] [LinearOrder α] [IsStrictOrderedRing α] [FloorRing α]

/-- C07. On an indexed program, prepending to a non-empty layer `k` succeeds and returns the non-blank
commands, stripped, in the given order; layer `k` becomes those commands (parsed, not flagged as moves)
followed by its old lines; no other layer and nothing else of the object changes; and lines, layers and index
arrays stay consistent. -/
theorem C07_prepend (g : GCode α) (hi : Indexed g) (k : ℕ) (L : Layer α) (hL : g.allLayers[k]? = some L)
    (hne : L.lines ≠ []) (commands : List Str) :
    ∃ g' texts new, g.prependToLayer commands k = .ok (g', texts) ∧
      List.Forall₂ IsStrip (commands.filter (fun s => ¬ IsBlank s)) texts ∧
      new = texts.map (fun t => { (rawToLine t : PyLine α) with isMove := false }) ∧
      new.map (·.raw) = texts ∧
      g'.allLayers = g.allLayers.set k { L with lines := new ++ L.lines } ∧
      Indexed g' ∧
      g' = { g with allLayers := g'.allLayers, lines := g'.lines, layerIdxs := g'.layerIdxs,
                    lineIdxs := g'.lineIdxs } := by
  obtain ⟨A, B, hAB, hA, X1, Y1, X2, Y2, e1, e2, e3, e4, hX, hY, hlay, hlin, hlines, hlx1, hlx2⟩ := indexed_split hi hL
  have hn : 0 < L.lines.length := List.length_pos_iff.2 hne
  have hmem : k ∈ g.layerIdxs := by
    rw [hlay]
    simp only [List.mem_append]
    exact Or.inr (Or.inl (List.mem_replicate.2 ⟨by omega, rfl⟩))
  have hstart : g.layerIdxs.idxOf k = X1.length := by rw [hlay, idxOf_split X1 Y1 k _ hX hn]
  have hend : endIndex g.layerIdxs (g.layerIdxs.idxOf k) k = X1.length + L.lines.length := by
    rw [hstart, hlay, endIndex_split X1 Y1 k _ hY]
  have hendLine : g.lineIdxs[X1.length + L.lines.length - 1]? = some (L.lines.length - 1) := by
    rw [hlin, List.getElem?_append_right (by omega), List.getElem?_append_left (by simp; omega)]
    rw [hlx1, ← hlx2]
    rw [show X2.length + L.lines.length - 1 - X2.length = L.lines.length - 1 by omega]
    rw [List.getElem?_range (by omega)]
  have hfold := prepend_fold (α := α) k X1.length (X1.length + L.lines.length) (L.lines.length - 1)
    (cleanCommands commands) 0 g L.lines (A.map (·.lines)).flatten (L.lines ++ (B.map (·.lines)).flatten)
    (X1 ++ List.replicate L.lines.length k) Y1 (X2 ++ List.range L.lines.length) Y2 hlines hlx1.symm
    (by rw [hlay]; simp) (by simp) (by rw [hlin]; simp) (by simp [hlx1, hlx2])
  have hset : ∀ M : Layer α, g.allLayers.set k M = A ++ M :: B := by
    intro M
    rw [hAB, ← hA]; simp
  refine ⟨{ g with
      allLayers := g.allLayers.set k { L with lines := (cleanCommands commands).reverse.map insertedLine ++ L.lines }
      lines := (A.map (·.lines)).flatten ++ ((cleanCommands commands).reverse.map insertedLine ++
        (L.lines ++ (B.map (·.lines)).flatten))
      layerIdxs := (X1 ++ List.replicate L.lines.length k) ++
        (List.replicate (cleanCommands commands).length k ++ Y1)
      lineIdxs := (X2 ++ List.range L.lines.length) ++
        ((List.range (cleanCommands commands).length).map (fun i => L.lines.length - 1 + 0 + 1 + i) ++ Y2) }, (cleanCommands commands).reverse, (cleanCommands commands).reverse.map insertedLine,
    ?_, ?_, rfl, ?_, rfl, ?_, rfl⟩
  · unfold GCode.prependToLayer
    simp only [hL]
    rw [if_pos hmem, hend, hstart, hendLine]
    simp only
    rw [hfold]
  · rw [cleanCommands_reverse, List.forall₂_map_right_iff]
    exact List.forall₂_same.2 (fun s _ => strip_isStrip s)
  · rw [List.map_map]
    conv_rhs => rw [← List.map_id (cleanCommands commands).reverse]
    apply List.map_congr_left
    intro t _
    simp [insertedLine]
  · refine indexed_of_parts (A := A) (B := B) (k := k) hA (hset _) ?_ ?_ ?_
    · simp
    · rw [← e1, ← e2]
      simp only [List.append_assoc, List.length_append, List.length_map, List.length_reverse,
        Nat.add_comm (cleanCommands commands).length, ← List.replicate_append_replicate]
    · rw [← e3, ← e4]
      simp only [List.append_assoc, List.length_append, List.length_map, List.length_reverse]
      congr 1
      rw [← List.append_assoc]
      congr 1
      rw [Nat.add_comm (cleanCommands commands).length, List.range_add]
      congr 1
      apply List.map_congr_left
      intro i _
      omega

/-- C07, the other case: a layer that exists but has no line raises ValueError, and a layer number out of
range raises IndexError. -/
theorem C07_prepend_empty (g : GCode α) (hi : Indexed g) (k : ℕ) (commands : List Str) :
    (∀ L, g.allLayers[k]? = some L → L.lines = [] → g.prependToLayer commands k = .error .valueError) ∧
    (g.allLayers.length ≤ k → g.prependToLayer commands k = .error .indexError) := by
  constructor
  · intro L hL he
    obtain ⟨A, B, hAB, hA, X1, Y1, X2, Y2, e1, e2, e3, e4, hX, hY, hlay, _⟩ := indexed_split hi hL
    have hmem : k ∉ g.layerIdxs := by
      rw [hlay, he]
      simp [hX, hY]
    unfold GCode.prependToLayer
    simp only [hL]
    rw [if_neg hmem]
  · intro hk
    unfold GCode.prependToLayer
    simp only [List.getElem?_eq_none hk]

/-- C07 seen by a user: after prepending to a non-empty layer, the program written is the old one with the
stripped non-blank commands inserted at the start of that layer. -/
theorem C07_prepend_write (g : GCode α) (hi : Indexed g) (A B : List (Layer α)) (L : Layer α)
    (hL : g.allLayers = A ++ L :: B) (hne : L.lines ≠ []) (commands : List Str) :
    ∃ g' texts, g.prependToLayer commands A.length = .ok (g', texts) ∧
      List.Forall₂ IsStrip (commands.filter (fun s => ¬ IsBlank s)) texts ∧
      g'.write = A.flatMap (fun M => M.lines.flatMap (fun l => l.raw ++ ['\n'])) ++
        texts.flatMap (fun t => t ++ ['\n']) ++
        (L :: B).flatMap (fun M => M.lines.flatMap (fun l => l.raw ++ ['\n'])) := by
  obtain ⟨g', texts, new, h1, h2, h3, h4, h5, h6, h7⟩ := C07_prepend g hi A.length L (by rw [hL]; simp) hne commands
  refine ⟨g', texts, h1, h2, ?_⟩
  rw [GCode.write, GCode.allLines, h5, hL, ← h4]
  simp [List.flatMap_append, List.flatMap_map, List.flatMap_assoc]

/-- C08. On an indexed program, rewriting a non-empty layer `k` succeeds, makes it exactly the non-blank
stripped commands in the given order, changes no other layer and keeps everything consistent. -/
theorem C08_rewrite (g : GCode α) (hi : Indexed g) (k : ℕ) (L : Layer α) (hL : g.allLayers[k]? = some L)
    (hne : L.lines ≠ []) (commands : List Str) :
    ∃ g' texts new, g.rewriteLayer commands k = .ok (g', texts) ∧
      List.Forall₂ IsStrip (commands.filter (fun s => ¬ IsBlank s)) texts ∧
      new = texts.map (fun t => { (rawToLine t : PyLine α) with isMove := false }) ∧
      new.map (·.raw) = texts ∧
      g'.allLayers = g.allLayers.set k { L with lines := new } ∧
      Indexed g' ∧
      g' = { g with allLayers := g'.allLayers, lines := g'.lines, layerIdxs := g'.layerIdxs,
                    lineIdxs := g'.lineIdxs } := by
  obtain ⟨A, B, hAB, hA, X1, Y1, X2, Y2, e1, e2, e3, e4, hX, hY, hlay, hlin, hlines, hlx1, hlx2⟩ := indexed_split hi hL
  have hn : 0 < L.lines.length := List.length_pos_iff.2 hne
  have hmem : k ∈ g.layerIdxs := by
    rw [hlay]
    simp only [List.mem_append]
    exact Or.inr (Or.inl (List.mem_replicate.2 ⟨by omega, rfl⟩))
  have hstart : g.layerIdxs.idxOf k = X1.length := by rw [hlay, idxOf_split X1 Y1 k _ hX hn]
  have hend : endIndex g.layerIdxs (g.layerIdxs.idxOf k) k = X1.length + L.lines.length := by
    rw [hstart, hlay, endIndex_split X1 Y1 k _ hY]
  have htake1 : g.layerIdxs.take X1.length = X1 := by rw [hlay]; simp
  have hdrop1 : g.layerIdxs.drop (X1.length + L.lines.length) = Y1 := by
    rw [hlay, ← List.append_assoc, List.drop_left' (by simp)]
  have htake2 : g.lineIdxs.take X1.length = X2 := by rw [hlin, hlx1, ← hlx2]; simp
  have hdrop2 : g.lineIdxs.drop (X1.length + L.lines.length) = Y2 := by
    rw [hlin, ← List.append_assoc, List.drop_left' (by simp [hlx1, hlx2])]
  have htake3 : g.lines.take X1.length = (A.map (·.lines)).flatten := by rw [hlines, hlx1]; simp
  have hdrop3 : g.lines.drop (X1.length + L.lines.length) = (B.map (·.lines)).flatten := by
    rw [hlines, ← List.append_assoc, List.drop_left' (by rw [List.length_append, hlx1])]
  have hset : ∀ M : Layer α, g.allLayers.set k M = A ++ M :: B := by
    intro M
    rw [hAB, ← hA]; simp
  refine ⟨{ g with
      allLayers := g.allLayers.set k { L with lines := (cleanCommands commands).reverse.map insertedLine }
      lines := (A.map (·.lines)).flatten ++ ((cleanCommands commands).reverse.map insertedLine ++
        (B.map (·.lines)).flatten)
      layerIdxs := X1 ++ List.replicate (cleanCommands commands).length k ++ Y1
      lineIdxs := X2 ++ List.range (cleanCommands commands).length ++ Y2 }, (cleanCommands commands).reverse, (cleanCommands commands).reverse.map insertedLine,
    ?_, ?_, rfl, ?_, rfl, ?_, rfl⟩
  · unfold GCode.rewriteLayer
    simp only [hL]
    rw [if_pos hmem, hend, hstart, htake1, hdrop1, htake2, hdrop2, htake3, hdrop3,
      rewrite_fold X1.length _ _ _ [] hlx1.symm]
    simp
  · rw [cleanCommands_reverse, List.forall₂_map_right_iff]
    exact List.forall₂_same.2 (fun s _ => strip_isStrip s)
  · rw [List.map_map]
    conv_rhs => rw [← List.map_id (cleanCommands commands).reverse]
    apply List.map_congr_left
    intro t _
    simp [insertedLine]
  · refine indexed_of_parts (A := A) (B := B) (k := k) hA (hset _) ?_ ?_ ?_
    · simp
    · rw [← e1, ← e2]; simp
    · rw [← e3, ← e4]; simp

/-- C08, the other case. -/
theorem C08_rewrite_empty (g : GCode α) (hi : Indexed g) (k : ℕ) (commands : List Str) :
    (∀ L, g.allLayers[k]? = some L → L.lines = [] → g.rewriteLayer commands k = .error .valueError) ∧
    (g.allLayers.length ≤ k → g.rewriteLayer commands k = .error .indexError) := by
  constructor
  · intro L hL he
    obtain ⟨A, B, hAB, hA, X1, Y1, X2, Y2, e1, e2, e3, e4, hX, hY, hlay, _⟩ := indexed_split hi hL
    have hmem : k ∉ g.layerIdxs := by
      rw [hlay, he]
      simp [hX, hY]
    unfold GCode.rewriteLayer
    simp only [hL]
    rw [if_neg hmem]
  · intro hk
    unfold GCode.rewriteLayer
    simp only [List.getElem?_eq_none hk]

/-- Every loaded program meets the hypothesis of C07 and C08, and so does the result of either operation. -/
theorem C07_C08_reachable (env : Env α) (data : List Str) (light : Bool) (home : Home α) (g : GCode α)
    (h : GCode.load env data light home = .ok g) : Indexed g := load_indexed h

example : Indexed sampleG := load_indexed sample_loads
example : ∃ g', sampleG.prependToLayer [c!" M104 S200", c!"", c!"M106 "] 2 = .ok (g', [c!"M104 S200", c!"M106"]) ∧
    g'.idxs 9 = some (2, 0) ∧ g'.idxs 13 = some (2, 4) ∧ g'.lines[9]?.map (·.raw) = some c!"M104 S200" := by
  refine ⟨(okOr (sampleG, []) (sampleG.prependToLayer [c!" M104 S200", c!"", c!"M106 "] 2)).1, ?_⟩
  decide +kernel
example : ∃ g', sampleG.rewriteLayer [c!" M104 S200", c!"", c!"M106 "] 1 = .ok (g', [c!"M104 S200", c!"M106"]) ∧
    g'.idxs 6 = some (1, 1) ∧ g'.idxs 7 = some (2, 0) := by
  refine ⟨(okOr (sampleG, []) (sampleG.rewriteLayer [c!" M104 S200", c!"", c!"M106 "] 1)).1, ?_⟩
  decide +kernel

end GCodeUtils
