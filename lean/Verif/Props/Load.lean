import Verif.Lemmas.Write
import Verif.Props.Common

/-
  C01–C06: loading, writing, indices, streaming.
-/

set_option linter.unusedSectionVars false

namespace GCodeUtils

open Spec

variable {α : Type} [Field α] [LinearOrder α] [IsStrictOrderedRing α] [FloorRing α]

/-- C01. `write` after loading emits the non-blank input lines, each stripped and followed by one newline,
in order. -/
theorem C01_write_load (env : Env α) (data : List Str) (light : Bool) (home : Home α) (g : GCode α)
    (h : GCode.load env data light home = .ok g) :
    ∃ texts : List Str,
      List.Forall₂ IsStrip (data.filter (fun s => ¬ IsBlank s)) texts ∧
      g.write = texts.flatMap (fun t => t ++ ['\n']) := by
  refine ⟨(data.filter (fun s => ¬ IsBlank s)).map strip, ?_, ?_⟩
  · rw [List.forall₂_map_right_iff]
    exact List.forall₂_same.2 (fun s _ => strip_isStrip s)
  · rw [load_write h, List.filter_map]
    congr 2
    apply List.filter_congr
    intro s _
    simp only [Function.comp]
    rw [Bool.eq_iff_iff]
    simp [← strip_eq_nil_iff]

example : GCode.load qEnv sample = .ok sampleG := sample_loads
example : sampleG.write.take 29 = c!"; start\nG21\nG90\nM82\nG28\nG1 Z0" := by decide +kernel

/-- Stripping is determined by its description, so `texts` in `C01_write_load` is unique. -/
theorem C01_strip_unique (s t : Str) (h : IsStrip s t) : t = strip s := by
  obtain ⟨⟨a, b, rfl, ha, hb⟩, hh, hl⟩ := h
  have hb' : strip (a ++ t ++ b) = strip (a ++ t) :=
    strip_append_space _ _ (fun c hc => (isSpace_iff c).2 (hb c hc))
  rw [hb']
  unfold strip
  by_cases ht : t = []
  · subst ht
    have : (a ++ []).dropWhile isSpace = [] :=
      List.dropWhile_eq_nil_iff.2 (fun c hc => (isSpace_iff c).2 (ha c (by simpa using hc)))
    rw [this]; rfl
  · rw [List.dropWhile_append_of_pos (fun c hc => (isSpace_iff c).2 (ha c hc))]
    exact (strip_of_ends (fun c hc => (isSpace_false_iff c).2 (hh c hc))
      (fun c hc => (isSpace_false_iff c).2 (hl c hc))).symm

/-- C02. Loading what was written (read back line by line) gives the same object, in every field: lines,
layers, heights, durations, indices, machine state, bounding box.  `readlines` is Python's file iteration.
The input must have a non-blank line (else the file is empty) and no newline inside a line. -/
theorem C02_load_write_fixed_point (env : Env α) (data : List Str) (light : Bool) (home : Home α) (g : GCode α)
    (h : GCode.load env data light home = .ok g)
    (hne : ∃ s ∈ data, ¬ IsBlank s) (hnl : ∀ s ∈ data, ∀ t, IsStrip s t → '\n' ∉ t) :
    GCode.load env (readlines g.write) light home = .ok g := by
  have hread : (readLines (readlines g.write) : List (PyLine α)) = readLines data := by
    rw [load_write h, readLines_readlines]
    · rfl
    · intro t ht
      rw [List.mem_filter, List.mem_map] at ht
      obtain ⟨⟨s, hs, rfl⟩, hte⟩ := ht
      refine ⟨strip_strip s, by simpa [List.isEmpty_iff] using hte, hnl s hs _ (strip_isStrip s)⟩
  obtain ⟨s0, hs0, hb0⟩ := hne
  have hdata : data ≠ [] := by rintro rfl; simp at hs0
  have hw : readlines g.write ≠ [] := by
    intro hnil
    have : (readLines data : List (PyLine α)) = [] := by rw [← hread, hnil]; rfl
    simp only [readLines, List.map_eq_nil_iff, List.filter_eq_nil_iff, List.mem_map] at this
    have := this (strip s0) ⟨s0, hs0, rfl⟩
    simp only [Bool.not_eq_true', Bool.not_eq_false, List.isEmpty_iff] at this
    exact hb0 ((strip_eq_nil_iff s0).1 this)
  rw [← h]
  unfold GCode.load prepare
  rw [if_neg (by simpa [List.isEmpty_iff] using hw), if_neg (by simpa [List.isEmpty_iff] using hdata), hread]

example : (∃ s ∈ sample, ¬ IsBlank s) ∧ GCode.load qEnv (readlines sampleG.write) = .ok sampleG := by
  decide +kernel

/-- C03. The layers concatenate to the lines; both index arrays have one entry per line; entry `i` addresses
line `i`; and no position is listed twice or out of order (they are all positions in reading order). -/
theorem C03_layers_partition (env : Env α) (data : List Str) (light : Bool) (home : Home α) (g : GCode α)
    (h : GCode.load env data light home = .ok g) :
    (g.allLayers.map (·.lines)).flatten = g.lines ∧
    g.layerIdxs.length = g.lines.length ∧ g.lineIdxs.length = g.lines.length ∧
    (∀ i, i < g.lines.length → ∃ a b L, g.idxs i = some (a, b) ∧ g.allLayers[a]? = some L ∧
      b < L.lines.length ∧ L.lines[b]? = g.lines[i]?) ∧
    g.layerIdxs.zip g.lineIdxs = positions (g.allLayers.map (·.lines)) := by
  have hi := load_indexed h
  have hlen : (positions (layerLines g)).length = g.lines.length := by
    rw [positions, positionsFrom_length, hi.flat]
  refine ⟨hi.flat.symm, by rw [hi.layer]; simpa using hlen, by rw [hi.line]; simpa using hlen, ?_, ?_⟩
  · intro i hlt
    have hp : i < (positions (layerLines g)).length := by omega
    rcases hab : (positions (layerLines g))[i] with ⟨a, b⟩
    have hs : (positions (layerLines g))[i]? = some (a, b) := by rw [List.getElem?_eq_getElem hp, hab]
    obtain ⟨_, L, h1, h2, h3⟩ := positionsFrom_address 0 (layerLines g) i a b hs
    simp only [Nat.sub_zero, layerLines, List.getElem?_map, Option.map_eq_some_iff] at h1
    obtain ⟨L', h4, rfl⟩ := h1
    refine ⟨a, b, L', ?_, h4, h2, ?_⟩
    · simp [GCode.idxs, hi.layer, hi.line, List.getElem?_map, hs]
    · rw [hi.flat, h3]
  · rw [hi.layer, hi.line, ← List.unzip_fst, ← List.unzip_snd, List.zip_unzip]; rfl

example : sampleG.lines.length = 12 ∧ sampleG.allLayers.length = 4 ∧
    sampleG.layerIdxs = [0, 0, 0, 0, 0, 1, 1, 1, 1, 2, 2, 2] := by decide +kernel

/-- C04. Layer numbers start at 0 (or at 1 when layer 0 is empty) and from one line to the next either stay
(line number plus one) or advance by exactly one (line number 0); only the first layer and the append layer,
which is the last one and empty, can be empty. -/
theorem C04_layers_contiguous (env : Env α) (data : List Str) (light : Bool) (home : Home α) (g : GCode α)
    (h : GCode.load env data light home = .ok g) :
    (∀ a b, g.idxs 0 = some (a, b) → b = 0 ∧ (a = 0 ∨ a = 1)) ∧
    (∀ i a b a' b', g.idxs i = some (a, b) → g.idxs (i + 1) = some (a', b') →
      (a' = a ∧ b' = b + 1) ∨ (a' = a + 1 ∧ b' = 0)) ∧
    (∀ k L, 0 < k → k < g.appendLayerId → g.allLayers[k]? = some L → L.lines ≠ []) ∧
    (g.allLayers.length = g.appendLayerId + 1 ∧
      ∃ L, g.allLayers[g.appendLayerId]? = some L ∧ L.lines = []) := by
  have hidx : ∀ i a b, g.idxs i = some (a, b) → (positions (layerLines g))[i]? = some (a, b) := by
    intro i a b hab
    have hi := load_indexed h
    simp only [GCode.idxs, hi.layer, hi.line, List.getElem?_map] at hab
    cases hp : (positions (layerLines g))[i]? with
    | none => rw [hp] at hab; simp at hab
    | some p => rw [hp] at hab; simpa using hab
  rcases load_ok h with ⟨rfl, rfl⟩ | ⟨_, s, hs, rfl⟩
  · refine ⟨?_, ?_, ?_, rfl, _, rfl, rfl⟩
    · intro a b h0; simp [GCode.idxs, GCode.blank] at h0
    · intro i a b a' b' h0; simp [GCode.idxs, GCode.blank] at h0
    · intro k L h1 h2; simp [GCode.blank] at h2
  · have hinv : BuildInv s := fold_inv (start_inv _) hs
    -- the layers without the empty append layer, as head and non-empty tail
    have hshape : layerLines (finalize (GCode.blank light home) s) = [[]] ∨
        ∃ H T, layerLines (finalize (GCode.blank light home) s) = H :: T ++ [[]] ∧ ∀ M ∈ T, M ≠ [] := by
      rw [finalize_layers]
      have htl := hinv.1.tail
      cases hcl : closedLines s.ls with
      | nil =>
        by_cases hc : s.ls.curLines = []
        · left; rw [if_pos hc]; rfl
        · right; rw [if_neg hc]; exact ⟨s.ls.curLines, [], by simp, by simp⟩
      | cons H T =>
        rw [hcl] at htl
        right
        by_cases hc : s.ls.curLines = []
        · rw [if_pos hc]; exact ⟨H, T, by simp, htl⟩
        · rw [if_neg hc]
          refine ⟨H, T ++ [s.ls.curLines], by simp, ?_⟩
          intro M hM
          rcases List.mem_append.1 hM with hM | hM
          · exact htl M hM
          · rw [List.mem_singleton.1 hM]; exact hc
    have hpos : ∀ (H : List (PyLine α)) (T : List (List (PyLine α))),
        positions (H :: T ++ [[]]) = positionsFrom 0 (H :: T) := by
      intro H T
      simp [positions, positionsFrom_append, positionsFrom]
    refine ⟨?_, ?_, ?_, finalize_append _ _, { lines := [], z := none, duration := some 0 }, ?_, rfl⟩
    · intro a b h0
      have h0 := hidx 0 a b h0
      rcases hshape with he | ⟨H, T, he, hT⟩
      · rw [he] at h0; simp [positions, positionsFrom] at h0
      · rw [he, hpos] at h0
        have := positionsFrom_zero 0 H T hT a b h0
        omega
    · intro i a b a' b' h0 h1
      have h0 := hidx i a b h0
      have h1 := hidx (i + 1) a' b' h1
      rcases hshape with he | ⟨H, T, he, hT⟩
      · rw [he] at h0; simp [positions, positionsFrom] at h0
      · rw [he, hpos] at h0 h1
        by_cases hH : H = []
        · subst hH
          simp only [positionsFrom, List.length_nil, List.range_zero, List.map_nil, List.nil_append,
            Nat.zero_add] at h0 h1
          exact positionsFrom_step 1 T hT i a b a' b' h0 h1
        · exact positionsFrom_step 0 (H :: T) (by
            intro M hM
            rcases List.mem_cons.1 hM with rfl | hM
            · exact hH
            · exact hT M hM) i a b a' b' h0 h1
    · intro k L hk0 hk hL
      have hlen := finalize_append (GCode.blank light home) s
      have hLl : (layerLines (finalize (GCode.blank light home) s))[k]? = some L.lines := by
        simp [layerLines, List.getElem?_map, hL]
      rcases hshape with he | ⟨H, T, he, hT⟩
      · have : (finalize (GCode.blank light home) s).allLayers.length = 1 := by
          rw [← List.length_map (f := (·.lines))]
          exact congrArg List.length he
        omega
      · have hl2 : (finalize (GCode.blank light home) s).allLayers.length = T.length + 2 := by
          rw [← List.length_map (f := (·.lines))]
          exact (congrArg List.length he).trans (by simp)
        rw [he] at hLl
        obtain ⟨k', rfl⟩ : ∃ k', k = k' + 1 := ⟨k - 1, by omega⟩
        rw [List.cons_append, List.getElem?_cons_succ, List.getElem?_append_left (by omega)] at hLl
        exact hT _ (List.mem_of_getElem? hLl)
    · simp [finalize]

example : (okOr (GCode.blank false Home.init) (GCode.load qEnv [c!"G1 Z1", c!"G1 X1"])).layerIdxs = [1, 1] := by
  decide +kernel

/-- C05, state: after loading a first part and appending the rest, the machine state (units, modes, tool,
position, offsets, feed rate, extrusion counters) and the annotated lines are those of loading everything. -/
theorem C05_stream_state (env : Env α) (a b : List Str) (light : Bool) (home : Home α) (g g' g'' : GCode α)
    (h1 : GCode.load env a light home = .ok g) (h2 : appendAll g b = .ok g')
    (h3 : GCode.load env (a ++ b) light home = .ok g'') :
    g'.m = g''.m ∧ g'.lines = g''.lines := by
  obtain ⟨o1, r1, hl1⟩ := load_run h1
  obtain ⟨_, L, hL, hLe⟩ := load_appendLayer h1
  obtain ⟨hlight, hhome⟩ := load_keeps h1
  obtain ⟨o2, r2, ha⟩ := appendAll_ok hL h2
  obtain ⟨o3, r3, hl3⟩ := load_run h3
  rw [hhome] at r2
  rw [readLines_append] at r3
  obtain ⟨e1, e2⟩ := (r1.append r2).det r3
  refine ⟨e1, ?_⟩
  rw [ha.lines, hl1, hl3, hlight, readLines_append, ← e2]
  split_ifs <;> rfl

/-- C05, success: whenever the whole program loads, so does its first part, and every append succeeds. -/
theorem C05_stream_succeeds (env : Env α) (a b : List Str) (light : Bool) (home : Home α) (g'' : GCode α)
    (h3 : GCode.load env (a ++ b) light home = .ok g'') :
    ∃ g g', GCode.load env a light home = .ok g ∧ appendAll g b = .ok g' := by
  obtain ⟨o3, r3, hl3⟩ := load_run h3
  have hload : ∃ g, GCode.load env a light home = .ok g := by
    rcases load_ok h3 with ⟨hnil, _⟩ | ⟨_, s, hs, _⟩
    · have : a = [] := (List.append_eq_nil_iff.1 hnil).1
      subst this
      exact ⟨_, rfl⟩
    · by_cases ha : a = []
      · subst ha; exact ⟨_, rfl⟩
      · rw [readLines_append, foldlM_append_ok] at hs
        obtain ⟨t, ht, _⟩ := hs
        refine ⟨finalize (GCode.blank light home) t, ?_⟩
        unfold GCode.load prepare
        rw [if_neg (by simpa [List.isEmpty_iff] using ha)]
        unfold preprocessAll
        have hl : (GCode.blank light home).light = light := rfl
        have hh : (GCode.blank light home).home = home := rfl
        rw [hl, hh, ht]
  obtain ⟨g, hg⟩ := hload
  obtain ⟨o1, r1, hl1⟩ := load_run hg
  obtain ⟨_, L, hL, hLe⟩ := load_appendLayer hg
  obtain ⟨hlight, hhome⟩ := load_keeps hg
  rw [readLines_append] at r3
  obtain ⟨m1, oa, ob, _, ra, rb⟩ := r3.split
  obtain ⟨e1, e2⟩ := r1.det ra
  rw [← e1, ← hhome] at rb
  obtain ⟨g', hg'⟩ := appendAll_of_run hL rb
  exact ⟨g, g', hg, hg'⟩

/-- C05, failure: if the first part loads but the whole does not, then streaming the rest raises the same
exception, or the exception comes from the duration estimate (which streaming does not compute): a
ZeroDivisionError, or a ValueError for a G4 line with a malformed P word. -/
theorem C05_stream_fails (env : Env α) (a b : List Str) (light : Bool) (home : Home α) (g : GCode α) (e : Err)
    (h1 : GCode.load env a light home = .ok g) (h3 : GCode.load env (a ++ b) light home = .error e) :
    appendAll g b = .error e ∨ e = .zeroDivision ∨
    (e = .valueError ∧ ∃ t ∈ b, (findSpecificCode (strip t) 'P' : Except Err (Option α)) = .error .valueError) := by
  have hb : b ≠ [] := by
    rintro rfl
    rw [List.append_nil, h1] at h3
    simp at h3
  have hfold : (readLines (a ++ b)).foldlM (buildStep env light home)
      (BuildSt.start (GCode.blank light home)) = .error e := by
    unfold GCode.load prepare at h3
    rw [if_neg (by simp [hb])] at h3
    unfold preprocessAll at h3
    have hl : (GCode.blank light home).light = light := rfl
    have hh : (GCode.blank light home).home = home := rfl
    rw [hl, hh] at h3
    cases hf : (readLines (a ++ b)).foldlM (buildStep env light home)
        (BuildSt.start (GCode.blank light home)) with
    | error er => rw [hf] at h3; simpa using h3
    | ok s => rw [hf] at h3; simp at h3
  obtain ⟨o1, r1, hl1⟩ := load_run h1
  obtain ⟨_, L, hL, hLe⟩ := load_appendLayer h1
  obtain ⟨hlight, hhome⟩ := load_keeps h1
  -- the first part of the fold succeeds
  have hfa : ∃ t, (readLines a).foldlM (buildStep env light home) (BuildSt.start (GCode.blank light home)) = .ok t := by
    rcases load_ok h1 with ⟨rfl, _⟩ | ⟨_, s, hs, _⟩
    · exact ⟨_, rfl⟩
    · exact ⟨s, hs⟩
  obtain ⟨t, ht⟩ := hfa
  have hfb : (readLines b).foldlM (buildStep env light home) t = .error e := by
    rw [readLines_append] at hfold
    cases hb2 : (readLines b).foldlM (buildStep env light home) t with
    | ok s =>
      have := foldlM_append_ok.2 ⟨t, ht, hb2⟩
      rw [this] at hfold; simp at hfold
    | error e' =>
      rw [List.foldlM_append, ht] at hfold
      simp only [bind, Except.bind] at hfold
      rw [hb2] at hfold
      exact hfold
  obtain ⟨pre, l, post, u, hsplit, hpre, hstep⟩ := foldlM_error hfb
  obtain ⟨oa, ra, _⟩ := fold_run ht
  obtain ⟨op, rp, _⟩ := fold_run hpre
  have hm : t.m = g.m := (ra.det r1).1
  rcases buildStep_error hstep with hp | ⟨m, l', hp, hd⟩
  · left
    rw [hm, ← hhome] at rp
    rw [← hhome] at hp
    exact appendAll_error hL hsplit rp hp
  · right
    rcases stepDur_error hd with ⟨he, _⟩ | ⟨he, _, hf⟩
    · exact Or.inl he
    · refine Or.inr ⟨he, ?_⟩
      have hmem : l ∈ (readLines b : List (PyLine α)) := by rw [hsplit]; simp
      simp only [readLines, List.mem_map, List.mem_filter] at hmem
      obtain ⟨x, ⟨⟨y, hy, rfl⟩, _⟩, rfl⟩ := hmem
      exact ⟨y, hy, by rw [(processLine_keeps hp).1] at hf; exact hf⟩

example : ∃ g g' : GCode ℚ, GCode.load qEnv (sample.take 8) = .ok g ∧ appendAll g (sample.drop 8) = .ok g' ∧
    g'.m = sampleG.m ∧ g'.m.currentX = 20 ∧ g'.m.maxE = 2 := by
  refine ⟨okOr (GCode.blank false Home.init) (GCode.load qEnv (sample.take 8)),
    okOr (GCode.blank false Home.init) (appendAll (okOr (GCode.blank false Home.init) (GCode.load qEnv (sample.take 8)))
      (sample.drop 8)), ?_⟩
  decide +kernel

/-- C06 is false of the code: after any successful append of a non-blank command to a freshly loaded program,
the recorded position of the new line does not exist (the line number is one too large). -/
theorem C06_refuted (env : Env α) (data : List Str) (light : Bool) (home : Home α) (g g' : GCode α) (c : Str)
    (r : Option (PyLine α)) (h : GCode.load env data light home = .ok g) (hc : ¬ IsBlank c)
    (ha : g.append c = .ok (g', r)) :
    ∃ a b L, g'.idxs g.lines.length = some (a, b) ∧ g'.allLayers[a]? = some L ∧ L.lines[b]? = none ∧
      g'.lines[g.lines.length]? ≠ none := by
  obtain ⟨_, L, hL, hLe⟩ := load_appendLayer h
  have hall : appendAll g [c] = .ok g' := by rw [appendAll, ha]; rfl
  obtain ⟨out, hr, hA⟩ := appendAll_ok hL hall
  have hcs : strip c ≠ [] := fun hh => hc ((strip_eq_nil_iff c).1 hh)
  have hone : (if g.light then (readLines [c] : List (PyLine α)) else out).length = 1 := by
    have : (readLines [c] : List (PyLine α)).length = 1 := by rw [readLines_cons, if_neg hcs]; rfl
    split_ifs
    · exact this
    · rw [hr.length, this]
  obtain ⟨x, hx⟩ := List.length_eq_one_iff.1 hone
  rw [hx] at hA
  have hlens := C03_layers_partition env data light home g h
  refine ⟨g.appendLayerId, 1, { L with lines := L.lines ++ [x] }, ?_, ?_, ?_, ?_⟩
  · have h1 : g'.layerIdxs[g.lines.length]? = some g.appendLayerId := by
      rw [hA.lay, ← hlens.2.1]; simp
    have h2 : g'.lineIdxs[g.lines.length]? = some 1 := by
      rw [hA.lin, ← hlens.2.2.1]; simp [hLe]
    simp [GCode.idxs, h1, h2]
  · rw [hA.layers]
    obtain ⟨hlt, _⟩ := List.getElem?_eq_some_iff.1 hL
    simp [hlt]
  · simp [hLe]
  · rw [hA.lines]; simp

/-- C06, what does hold (missing: the line number of appended entries, see `C06_refuted`).  After any sequence
of appends: the lines loaded before keep their addresses, the append layer holds exactly the appended lines in
order, every appended line is recorded with the append layer's number, but with its position there plus one. -/
theorem C06_append_index_partial (env : Env α) (data b : List Str) (light : Bool) (home : Home α) (g g' : GCode α)
    (h : GCode.load env data light home = .ok g) (ha : appendAll g b = .ok g') :
    (∀ i, i < g.lines.length → ∃ a k L, g'.idxs i = some (a, k) ∧ g'.allLayers[a]? = some L ∧
      L.lines[k]? = g'.lines[i]? ∧ k < L.lines.length) ∧
    ∃ new L, g'.lines = g.lines ++ new ∧ g'.allLayers[g'.appendLayerId]? = some L ∧ L.lines = new ∧
      ∀ j, j < new.length → g'.idxs (g.lines.length + j) = some (g'.appendLayerId, j + 1) := by
  obtain ⟨_, L, hL, hLe⟩ := load_appendLayer h
  obtain ⟨out, hr, hA⟩ := appendAll_ok hL ha
  obtain ⟨_, hl1, hl2, hl3, _⟩ := C03_layers_partition env data light home g h
  generalize (if g.light then (readLines b : List (PyLine α)) else out) = new at hA
  constructor
  · intro i hi
    obtain ⟨a, k, M, h1, h2, h3, h4⟩ := hl3 i hi
    have hne : a ≠ g.appendLayerId := by
      rintro rfl
      rw [hL] at h2
      simp only [Option.some.injEq] at h2
      subst h2
      rw [hLe] at h3
      simp at h3
    refine ⟨a, k, M, ?_, ?_, ?_, h3⟩
    · have e1 : g'.layerIdxs[i]? = g.layerIdxs[i]? := by
        rw [hA.lay, List.getElem?_append_left (by omega)]
      have e2 : g'.lineIdxs[i]? = g.lineIdxs[i]? := by
        rw [hA.lin, List.getElem?_append_left (by omega)]
      rw [GCode.idxs, e1, e2]; exact h1
    · rw [hA.layers, List.getElem?_set_ne (Ne.symm hne)]; exact h2
    · rw [hA.lines, List.getElem?_append_left hi]; exact h4
  · refine ⟨new, { L with lines := L.lines ++ new }, hA.lines, ?_, by simp [hLe], ?_⟩
    · rw [hA.layers, hA.id]
      obtain ⟨hlt, _⟩ := List.getElem?_eq_some_iff.1 hL
      simp [hlt]
    · intro j hj
      have e1 : g'.layerIdxs[g.lines.length + j]? = some g.appendLayerId := by
        rw [hA.lay, List.getElem?_append_right (by omega), hl1]; simp [hj]
      have e2 : g'.lineIdxs[g.lines.length + j]? = some (j + 1) := by
        rw [hA.lin, List.getElem?_append_right (by omega), hl2]; simp [hj, hLe, Nat.add_comm]
      rw [GCode.idxs, e1, e2, hA.id]

example : ∃ g', appendAll sampleG [c!"G1 X5 Y5", c!"", c!"G1 X6"] = .ok g' ∧
    g'.idxs 12 = some (3, 1) ∧ (g'.allLayers[3]?).map (·.lines.length) = some 2 := by
  refine ⟨okOr sampleG (appendAll sampleG [c!"G1 X5 Y5", c!"", c!"G1 X6"]), ?_⟩
  decide +kernel

end GCodeUtils
