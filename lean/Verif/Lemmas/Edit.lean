import Verif.Lemmas.Write

set_option linter.unusedSectionVars false

namespace GCodeUtils

open Spec

variable {α : Type} [Field α] [LinearOrder α] [IsStrictOrderedRing α] [FloorRing α]

theorem pyInsert_at {β : Type} (X Y : List β) (v : β) (n : ℕ) (h : X.length = n) :
    pyInsert n v (X ++ Y) = X ++ v :: Y := by
  subst h
  simp [pyInsert]

theorem positionsFrom_bounds {β : Type} (j : ℕ) (A : List (List β)) (a b : ℕ)
    (h : (a, b) ∈ positionsFrom j A) : j ≤ a ∧ a < j + A.length := by
  induction A generalizing j with
  | nil => simp [positionsFrom] at h
  | cons L A ih =>
    simp only [positionsFrom, List.mem_append, List.mem_map, Prod.mk.injEq] at h
    rcases h with ⟨_, _, rfl, _⟩ | h
    · simp
    · have := ih (j + 1) h
      simp only [List.length_cons]
      omega

theorem map_fst_const (n k : ℕ) :
    ((List.range n).map (fun j => (k, j))).map (·.1) = List.replicate n k := by
  apply List.ext_getElem <;> simp

theorem map_snd_const (n k : ℕ) :
    ((List.range n).map (fun j => (k, j))).map (·.2) = List.range n := by
  apply List.ext_getElem <;> simp

/-- The pieces of an indexed program around layer `k`. -/
theorem indexed_split {g : GCode α} (hi : Indexed g) {k : ℕ} {L : Layer α} (hL : g.allLayers[k]? = some L) :
    ∃ (A B : List (Layer α)), g.allLayers = A ++ L :: B ∧ A.length = k ∧
      ∃ X1 Y1 X2 Y2 : List ℕ,
        X1 = (positionsFrom 0 (A.map (·.lines))).map (·.1) ∧ Y1 = (positionsFrom (k + 1) (B.map (·.lines))).map (·.1) ∧
        X2 = (positionsFrom 0 (A.map (·.lines))).map (·.2) ∧ Y2 = (positionsFrom (k + 1) (B.map (·.lines))).map (·.2) ∧
        k ∉ X1 ∧ k ∉ Y1 ∧
        g.layerIdxs = X1 ++ (List.replicate L.lines.length k ++ Y1) ∧
        g.lineIdxs = X2 ++ (List.range L.lines.length ++ Y2) ∧
        g.lines = (A.map (·.lines)).flatten ++ (L.lines ++ (B.map (·.lines)).flatten) ∧
        X1.length = (A.map (·.lines)).flatten.length ∧ X2.length = (A.map (·.lines)).flatten.length := by
  obtain ⟨hlt, he⟩ := List.getElem?_eq_some_iff.1 hL
  have hsplit : g.allLayers = g.allLayers.take k ++ L :: g.allLayers.drop (k + 1) := by
    rw [← he, List.cons_getElem_drop_succ, List.take_append_drop]
  have hAlen : (g.allLayers.take k).length = k := by simp; omega
  have hpos : positions (layerLines g) = positionsFrom 0 ((g.allLayers.take k).map (·.lines)) ++
      ((List.range L.lines.length).map (fun j => (k, j)) ++
        positionsFrom (k + 1) ((g.allLayers.drop (k + 1)).map (·.lines))) := by
    rw [layerLines, hsplit]
    simp only [List.map_append, List.map_cons, positions, positionsFrom_append, List.length_map, hAlen,
      Nat.zero_add, positionsFrom]
    rw [← hsplit]
  refine ⟨_, _, hsplit, hAlen, _, _, _, _, rfl, rfl, rfl, rfl, ?_, ?_, ?_, ?_, ?_, ?_, ?_⟩
  · intro hm
    rw [List.mem_map] at hm
    obtain ⟨⟨a, b⟩, hab, rfl⟩ := hm
    have := positionsFrom_bounds _ _ _ _ hab
    simp only [List.length_map, hAlen] at this
    omega
  · intro hm
    rw [List.mem_map] at hm
    obtain ⟨⟨a, b⟩, hab, rfl⟩ := hm
    have := positionsFrom_bounds _ _ _ _ hab
    omega
  · rw [hi.layer, hpos, List.map_append, List.map_append, map_fst_const]
  · rw [hi.line, hpos, List.map_append, List.map_append, map_snd_const]
  · rw [hi.flat, layerLines]
    conv_lhs => rw [hsplit]
    simp
  · rw [List.length_map, positionsFrom_length]
  · rw [List.length_map, positionsFrom_length]

theorem idxOf_split (X Y : List ℕ) (k n : ℕ) (hX : k ∉ X) (hn : 0 < n) :
    (X ++ (List.replicate n k ++ Y)).idxOf k = X.length := by
  rw [List.idxOf_append_of_notMem hX]
  obtain ⟨m, rfl⟩ : ∃ m, n = m + 1 := ⟨n - 1, by omega⟩
  simp [List.replicate_succ]

theorem endIndex_split (X Y : List ℕ) (k n : ℕ) (hY : k ∉ Y) :
    endIndex (X ++ (List.replicate n k ++ Y)) X.length k = X.length + n := by
  unfold endIndex
  rw [List.drop_left]
  congr 1
  rw [List.takeWhile_append_of_pos (by
    intro a ha
    simp [List.eq_of_mem_replicate ha])]
  have : Y.takeWhile (fun x => decide (x = k)) = [] := by
    cases Y with
    | nil => rfl
    | cons y Y =>
      have : y ≠ k := fun h => hY (by simp [h])
      simp [this]
  rw [this]; simp

theorem prepend_fold (k start endI endLine : ℕ) (cmds : List Str) (j : ℕ) (g : GCode α) (ls : List (PyLine α))
    (X' Z : List (PyLine α)) (P Y P2 Y2 : List ℕ) (h1 : g.lines = X' ++ Z) (h2 : X'.length = start)
    (h3 : g.layerIdxs = P ++ Y) (h4 : P.length = endI + j) (h5 : g.lineIdxs = P2 ++ Y2)
    (h6 : P2.length = endI + j) :
    (cmds.zipIdx j).foldl (prependOne k start endI endLine) (g, ls) =
      ({ g with
          lines := X' ++ (cmds.reverse.map insertedLine ++ Z)
          layerIdxs := P ++ (List.replicate cmds.length k ++ Y)
          lineIdxs := P2 ++ ((List.range cmds.length).map (fun i => endLine + j + 1 + i) ++ Y2) },
       cmds.reverse.map insertedLine ++ ls) := by
  induction cmds generalizing j g ls Z P P2 with
  | nil =>
    simp only [List.zipIdx_nil, List.foldl_nil, List.reverse_nil, List.map_nil, List.nil_append,
      List.length_nil, List.replicate_zero, List.range_zero]
    rw [← h1, ← h3, ← h5]
  | cons c cmds ih =>
    simp only [List.zipIdx_cons, List.foldl_cons]
    have hstep : prependOne k start endI endLine (g, ls) (c, j) =
        ({ g with lines := X' ++ (insertedLine c :: Z)
                  layerIdxs := (P ++ [k]) ++ Y
                  lineIdxs := (P2 ++ [endLine + j + 1]) ++ Y2 }, insertedLine c :: ls) := by
      simp only [prependOne]
      rw [h1, h3, h5, pyInsert_at _ _ _ _ h2, pyInsert_at _ _ _ _ h4, pyInsert_at _ _ _ _ h6]
      simp
    rw [hstep, ih (j + 1) _ _ (insertedLine c :: Z) (P ++ [k]) (P2 ++ [endLine + j + 1]) rfl rfl
      (by simp; omega) rfl (by simp; omega)]
    simp only [List.reverse_cons, List.map_append, List.map_cons, List.map_nil, List.append_assoc,
      List.nil_append, List.length_cons, List.replicate_succ, List.cons_append,
      List.range_succ_eq_map, List.map_map, Function.comp_def, Nat.add_zero]
    congr 5
    apply List.map_congr_left
    intro i _
    omega

theorem rewrite_fold (start : ℕ) (cmds : List Str) (X' Z ls : List (PyLine α)) (h2 : X'.length = start) :
    cmds.foldl (fun (st : List (PyLine α) × List (PyLine α)) c =>
        (pyInsert start (insertedLine c) st.1, insertedLine c :: st.2)) (X' ++ Z, ls) =
      (X' ++ (cmds.reverse.map insertedLine ++ Z), cmds.reverse.map insertedLine ++ ls) := by
  induction cmds generalizing Z ls with
  | nil => simp
  | cons c cmds ih =>
    simp only [List.foldl_cons, pyInsert_at _ _ _ _ h2]
    rw [ih]
    simp

theorem cleanCommands_reverse (commands : List Str) :
    (cleanCommands commands).reverse = (commands.filter (fun s => ¬ IsBlank s)).map strip := by
  unfold cleanCommands
  rw [← List.map_reverse, List.filter_reverse, List.reverse_reverse]
  congr 1
  apply List.filter_congr
  intro s _
  rw [Bool.eq_iff_iff]
  simp [← strip_eq_nil_iff]

/-- Re-indexing after replacing the lines of one layer. -/
theorem indexed_of_parts {g : GCode α} {A B : List (Layer α)} {M : Layer α} {k : ℕ} (hA : A.length = k)
    (hlay : g.allLayers = A ++ M :: B)
    (hl : g.lines = (A.map (·.lines)).flatten ++ (M.lines ++ (B.map (·.lines)).flatten))
    (h1 : g.layerIdxs = (positionsFrom 0 (A.map (·.lines))).map (·.1) ++ (List.replicate M.lines.length k ++
      (positionsFrom (k + 1) (B.map (·.lines))).map (·.1)))
    (h2 : g.lineIdxs = (positionsFrom 0 (A.map (·.lines))).map (·.2) ++ (List.range M.lines.length ++
      (positionsFrom (k + 1) (B.map (·.lines))).map (·.2))) : Indexed g := by
  have hpos : positions (layerLines g) = positionsFrom 0 (A.map (·.lines)) ++
      ((List.range M.lines.length).map (fun j => (k, j)) ++ positionsFrom (k + 1) (B.map (·.lines))) := by
    rw [layerLines, hlay]
    simp only [List.map_append, List.map_cons, positions, positionsFrom_append, List.length_map, hA,
      Nat.zero_add, positionsFrom]
  refine ⟨?_, ?_, ?_⟩
  · rw [hl, layerLines, hlay]; simp
  · rw [hpos, h1, List.map_append, List.map_append, map_fst_const]
  · rw [hpos, h2, List.map_append, List.map_append, map_snd_const]

end GCodeUtils
