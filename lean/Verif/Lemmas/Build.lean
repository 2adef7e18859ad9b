import Verif.Lemmas.Process
import Verif.Lemmas.Positions

set_option linter.unusedSectionVars false

namespace GCodeUtils

open Spec

variable {α : Type} [Field α] [LinearOrder α] [IsStrictOrderedRing α] [FloorRing α]

/-- The line object that ends up in the program. -/
def storedLine (light : Bool) (l0 l : PyLine α) : PyLine α := if light then l0 else l

/-- Inversion of one loop iteration. -/
theorem buildStep_ok {env : Env α} {light : Bool} {home : Home α} {s s' : BuildSt α} {l0 : PyLine α}
    (h : buildStep env light home s l0 = .ok s') :
    ∃ m l, processLine home s.m l0 = .ok (m, l) ∧
      (((l.command = none ∨ l.command = some []) ∧
        s' = { s with m := m, ls := recordLine s.ls (storedLine light l0 l)
                      done := s.done ++ [storedLine light l0 l] }) ∨
       (∃ cmd ds, l.command = some cmd ∧ cmd ≠ [] ∧ stepDur env s.ds l = .ok ds ∧
        s' = { m := m
               ls := recordLine (stepLayer env.mode
                      { s.ls with hasExtrusion := s.ls.hasExtrusion || l.extruding.getD false } l
                      ds.total ds.layerBegin).1 (storedLine light l0 l)
               bb := stepBBox m.maxE s.bb l
               ds := if (stepLayer env.mode
                      { s.ls with hasExtrusion := s.ls.hasExtrusion || l.extruding.getD false } l
                      ds.total ds.layerBegin).2 then { ds with layerBegin := ds.total } else ds
               done := s.done ++ [storedLine light l0 l] })) := by
  unfold buildStep at h
  cases hp : processLine home s.m l0 with
  | error er => rw [hp] at h; simp at h
  | ok p =>
    obtain ⟨m, l⟩ := p
    rw [hp] at h
    simp only at h
    refine ⟨m, l, rfl, ?_⟩
    cases hc : l.command with
    | none =>
      rw [hc] at h
      simp only [Except.ok.injEq] at h
      exact Or.inl ⟨Or.inl rfl, h.symm⟩
    | some cmd =>
      rw [hc] at h
      simp only at h
      by_cases he : cmd.isEmpty = true
      · rw [if_pos he] at h
        simp only [Except.ok.injEq] at h
        rw [List.isEmpty_iff] at he
        exact Or.inl ⟨Or.inr (by rw [he]), h.symm⟩
      · rw [if_neg he] at h
        cases hd : stepDur env s.ds l with
        | error er => rw [hd] at h; simp at h
        | ok ds =>
          rw [hd] at h
          simp only [Except.ok.injEq] at h
          exact Or.inr ⟨cmd, ds, rfl, by simpa [List.isEmpty_iff] using he, rfl, h.symm⟩

/-- What one iteration does to the pieces. -/
theorem buildStep_m {env : Env α} {light : Bool} {home : Home α} {s s' : BuildSt α} {l0 : PyLine α}
    (h : buildStep env light home s l0 = .ok s') :
    ∃ l, processLine home s.m l0 = .ok (s'.m, l) ∧ s'.done = s.done ++ [storedLine light l0 l] := by
  obtain ⟨m, l, hp, h | ⟨cmd, ds, _, _, _, h⟩⟩ := buildStep_ok h
  · exact ⟨l, by rw [h.2]; exact hp, by rw [h.2]⟩
  · exact ⟨l, by rw [h]; exact hp, by rw [h]⟩

/-- Lines of the closed layers. -/
def closedLines (s : LayerSt α) : List (List (PyLine α)) := s.allLayers.map (·.lines)

/-- Loop invariant of the layer construction. -/
structure LayerInv (done : List (PyLine α)) (s : LayerSt α) : Prop where
  flat : done = (closedLines s).flatten ++ s.curLines
  id : s.layerId = s.allLayers.length
  ln : s.layerLine = s.curLines.length
  lay : s.layerIdxs = (positions (closedLines s ++ [s.curLines])).map (·.1)
  lin : s.lineIdxs = (positions (closedLines s ++ [s.curLines])).map (·.2)
  tail : ∀ L ∈ (closedLines s).tail, L ≠ []

theorem positions_closed (Ls : List (List (PyLine α))) (cur : List (PyLine α)) (l : PyLine α) :
    positions (Ls ++ [cur ++ [l]]) = positions (Ls ++ [cur]) ++ [(Ls.length, cur.length)] := by
  simp only [positions, positionsFrom_append, Nat.zero_add]
  rw [List.append_assoc]
  congr 1
  simp [positionsFrom, List.range_succ]

theorem recordLine_inv {done : List (PyLine α)} {s : LayerSt α} (h : LayerInv done s) (l : PyLine α) :
    LayerInv (done ++ [l]) (recordLine s l) where
  flat := by
    have := h.flat
    simp only [recordLine, closedLines] at *
    rw [this, List.append_assoc]
  id := h.id
  ln := by simp [recordLine, h.ln]
  lay := by
    have := h.lay
    simp only [recordLine, closedLines] at *
    rw [positions_closed, List.map_append, this, h.id]
    simp
  lin := by
    have := h.lin
    simp only [recordLine, closedLines] at *
    rw [positions_closed, List.map_append, this, h.ln]
    simp
  tail := h.tail

/-- The two possible effects of the layer change detection. -/
theorem stepLayer_cases (mode : RoundMode) (s : LayerSt α) (l : PyLine α) (total lb : α) :
    (∃ p est, (stepLayer mode s l total lb) =
      ({ s with curZ := nextCurZ s.curZ l, prevBaseZ := p, est := est }, false)) ∨
    (∃ bz est, bz = (baseZ mode { s with curZ := nextCurZ s.curZ l }).1 ∧
      stepLayer mode s l total lb =
      ({ s with
          curZ := nextCurZ s.curZ l
          est := est
          allLayers := s.allLayers ++ [{ lines := s.curLines, z := bz, duration := some (total - lb) }]
          allZs := addZ s.hasExtrusion s.allZs s.prevZ
          curLines := []
          hasExtrusion := false
          layerId := s.layerId + 1
          layerLine := 0
          lastLayerZ := bz
          prevBaseZ := some bz }, true)) := by
  unfold stepLayer
  simp only
  split_ifs with h1 h2
  · exact Or.inr ⟨_, _, rfl, rfl⟩
  · exact Or.inl ⟨_, _, rfl⟩
  · exact Or.inl ⟨s.prevBaseZ, s.est, rfl⟩

theorem positions_new (Ls : List (List (PyLine α))) (cur : List (PyLine α)) :
    positions (Ls ++ [cur] ++ [[]]) = positions (Ls ++ [cur]) := by
  simp [positions, positionsFrom_append, positionsFrom]

theorem stepLayer_inv {mode : RoundMode} {done : List (PyLine α)} {s : LayerSt α} (h : LayerInv done s)
    (hc : s.allLayers ≠ [] → s.curLines ≠ []) (l : PyLine α) (total lb : α) :
    LayerInv done (stepLayer mode s l total lb).1 := by
  rcases stepLayer_cases mode s l total lb with ⟨p, est, e⟩ | ⟨bz, est, _, e⟩
  · rw [e]
    exact ⟨h.flat, h.id, h.ln, h.lay, h.lin, h.tail⟩
  · rw [e]
    have hcl : closedLines ({ s with
          curZ := nextCurZ s.curZ l
          est := est
          allLayers := s.allLayers ++ [{ lines := s.curLines, z := bz, duration := some (total - lb) }]
          allZs := addZ s.hasExtrusion s.allZs s.prevZ
          curLines := []
          hasExtrusion := false
          layerId := s.layerId + 1
          layerLine := 0
          lastLayerZ := bz
          prevBaseZ := some bz } : LayerSt α) = closedLines s ++ [s.curLines] := by simp [closedLines]
    refine ⟨?_, ?_, rfl, ?_, ?_, ?_⟩
    · rw [hcl, h.flat]; simp
    · simp [h.id]
    · rw [hcl]; simp only [positions_new]; exact h.lay
    · rw [hcl]; simp only [positions_new]; exact h.lin
    · rw [hcl]
      intro L hL
      cases hcs : closedLines s with
      | nil => rw [hcs] at hL; simp at hL
      | cons a t =>
        rw [hcs] at hL
        simp only [List.cons_append, List.tail_cons, List.mem_append, List.mem_singleton] at hL
        rcases hL with hL | hL
        · exact h.tail L (by rw [hcs]; exact hL)
        · rw [hL]
          apply hc
          intro hnil
          simp [closedLines, hnil] at hcs

/-- The layer invariant together with "once a layer is closed the current one is not empty". -/
def BuildInv (s : BuildSt α) : Prop :=
  LayerInv s.done s.ls ∧ (s.ls.allLayers ≠ [] → s.ls.curLines ≠ [])

theorem buildStep_inv {env : Env α} {light : Bool} {home : Home α} {s s' : BuildSt α} {l0 : PyLine α}
    (hi : BuildInv s) (h : buildStep env light home s l0 = .ok s') : BuildInv s' := by
  obtain ⟨m, l, hp, h | ⟨cmd, ds, _, _, _, h⟩⟩ := buildStep_ok h
  · rw [h.2]
    exact ⟨recordLine_inv hi.1 _, fun _ => by simp [recordLine]⟩
  · rw [h]
    refine ⟨recordLine_inv (stepLayer_inv ?_ ?_ _ _ _) _, fun _ => by simp [recordLine]⟩
    · exact ⟨hi.1.flat, hi.1.id, hi.1.ln, hi.1.lay, hi.1.lin, hi.1.tail⟩
    · exact hi.2

theorem start_inv (g : GCode α) : BuildInv (BuildSt.start g) := by
  refine ⟨⟨rfl, rfl, rfl, ?_, ?_, ?_⟩, ?_⟩ <;> simp [BuildSt.start, closedLines, positions, positionsFrom]

theorem fold_inv {env : Env α} {light : Bool} {home : Home α} {s s' : BuildSt α} {ls : List (PyLine α)}
    (hi : BuildInv s) (h : ls.foldlM (buildStep env light home) s = .ok s') : BuildInv s' :=
  foldlM_inv (buildStep env light home) (fun _ s => BuildInv s)
    (fun _ _ _ _ hp hs => buildStep_inv hp hs) ls [] s s' hi h

/-- Loading a non-empty list of texts is one run of the loop. -/
theorem load_ok {env : Env α} {data : List Str} {light : Bool} {home : Home α} {g : GCode α}
    (h : GCode.load env data light home = .ok g) :
    (data = [] ∧ g = { GCode.blank light home with allLayers := [{ lines := [], z := none, duration := none }] }) ∨
    (data ≠ [] ∧ ∃ s, (readLines data).foldlM (buildStep env light home)
        (BuildSt.start (GCode.blank light home)) = .ok s ∧ g = finalize (GCode.blank light home) s) := by
  unfold GCode.load prepare at h
  by_cases hd : data.isEmpty = true
  · rw [if_pos hd] at h
    simp only [Except.ok.injEq] at h
    exact Or.inl ⟨by simpa [List.isEmpty_iff] using hd, by rw [← h]; rfl⟩
  · rw [if_neg hd] at h
    refine Or.inr ⟨by simpa [List.isEmpty_iff] using hd, ?_⟩
    unfold preprocessAll at h
    have hl : (GCode.blank light home).light = light := rfl
    have hh : (GCode.blank light home).home = home := rfl
    rw [hl, hh] at h
    cases hf : (readLines data).foldlM (buildStep env light home)
        (BuildSt.start (GCode.blank light home)) with
    | error er => rw [hf] at h; simp at h
    | ok s =>
      rw [hf] at h
      simp only [Except.ok.injEq] at h
      exact ⟨s, rfl, h.symm⟩

/-- The layers of a finished load: those closed in the loop, the last one if any line is left, and the empty
append layer. -/
theorem finalize_layers (g : GCode α) (s : BuildSt α) :
    layerLines (finalize g s) =
      closedLines s.ls ++ (if s.ls.curLines = [] then [] else [s.ls.curLines]) ++ [[]] := by
  unfold finalize layerLines closeLast closedLines
  by_cases hc : s.ls.curLines.isEmpty = true
  · have : s.ls.curLines = [] := by simpa [List.isEmpty_iff] using hc
    simp [this]
  · have : ¬ s.ls.curLines = [] := by simpa [List.isEmpty_iff] using hc
    simp [this]

theorem finalize_idxs (g : GCode α) (s : BuildSt α) :
    (finalize g s).layerIdxs = s.ls.layerIdxs ∧ (finalize g s).lineIdxs = s.ls.lineIdxs := by
  unfold finalize closeLast
  split_ifs <;> exact ⟨rfl, rfl⟩

theorem finalize_append (g : GCode α) (s : BuildSt α) :
    (finalize g s).allLayers.length = (finalize g s).appendLayerId + 1 := by
  simp [finalize]

theorem finalize_indexed {g : GCode α} {s : BuildSt α} (hi : BuildInv s) : Indexed (finalize g s) := by
  have hpos : positions (layerLines (finalize g s)) = positions (closedLines s.ls ++ [s.ls.curLines]) := by
    rw [finalize_layers]
    split_ifs with hc
    · rw [hc]; simp [positions, positionsFrom_append, positionsFrom]
    · rw [positions_new]
  refine ⟨?_, ?_, ?_⟩
  · rw [finalize_layers]
    have : (finalize g s).lines = s.done := rfl
    rw [this, hi.1.flat]
    split_ifs with hc
    · simp [hc]
    · simp
  · rw [hpos, (finalize_idxs g s).1]; exact hi.1.lay
  · rw [hpos, (finalize_idxs g s).2]; exact hi.1.lin

theorem load_indexed {env : Env α} {data : List Str} {light : Bool} {home : Home α} {g : GCode α}
    (h : GCode.load env data light home = .ok g) : Indexed g := by
  rcases load_ok h with ⟨_, rfl⟩ | ⟨_, s, hs, rfl⟩
  · exact ⟨rfl, rfl, rfl⟩
  · exact finalize_indexed (fold_inv (start_inv _) hs)

/-- The texts stored are the texts read. -/
theorem fold_raws {env : Env α} {light : Bool} {home : Home α} {s s' : BuildSt α} {ls : List (PyLine α)}
    (h : ls.foldlM (buildStep env light home) s = .ok s') :
    s'.done.map (·.raw) = s.done.map (·.raw) ++ ls.map (·.raw) := by
  have := foldlM_inv (buildStep env light home)
    (fun pre t => t.done.map (·.raw) = s.done.map (·.raw) ++ pre.map (·.raw))
    (fun pre b t t' hp hs => by
      obtain ⟨l, hl, hd⟩ := buildStep_m hs
      have hr : (storedLine light b l).raw = b.raw := by
        unfold storedLine; split_ifs
        · rfl
        · exact (processLine_keeps hl).1
      rw [hd, List.map_append, hp]
      simp [hr]) ls [] s s' (by simp) h
  simpa using this

end GCodeUtils
