import Verif.Lemmas.Readable
import Verif.Lemmas.Quicker
import Verif.Props.LayerTime
import Verif.Props.Analysis
import Verif.Props.Common

/-
  C143: what the analysis says about the beginning of a program stays true when the program goes on.
-/

set_option linter.unusedSectionVars false

namespace GCodeUtils

open Spec

variable {α : Type} [Field α] [LinearOrder α] [IsStrictOrderedRing α] [FloorRing α]

/-- What only grows while lines are read. -/
structure Onward (s s' : BuildSt α) : Prop where
  done : s.done <+: s'.done
  layers : s.ls.allLayers <+: s'.ls.allLayers
  filament : s.m.maxE ≤ s'.m.maxE
  heights : s.ls.allZs <+: s'.ls.allZs

theorem Onward.rfl' (s : BuildSt α) : Onward s s := ⟨List.prefix_rfl, List.prefix_rfl, le_rfl, List.prefix_rfl⟩

theorem Onward.trans {s t u : BuildSt α} (h : Onward s t) (k : Onward t u) : Onward s u :=
  ⟨h.done.trans k.done, h.layers.trans k.layers, h.filament.trans k.filament, h.heights.trans k.heights⟩

theorem addZ_prefix (b : Bool) (zs : List (Option α)) (z : Option α) : zs <+: addZ b zs z := by
  unfold addZ
  split_ifs
  · exact List.prefix_append _ _
  · exact List.prefix_rfl

theorem addZ_dropLast (b : Bool) (zs : List (Option α)) (z : Option α) : (addZ b zs z).dropLast <+: zs := by
  unfold addZ
  split_ifs
  · rw [List.dropLast_concat]
  · exact List.dropLast_prefix _

theorem stepLayer_heights (mode : RoundMode) (s : LayerSt α) (l : PyLine α) (a b : α) : s.allZs <+: (stepLayer mode s l a b).1.allZs := by
  unfold stepLayer
  simp only
  split_ifs
  · exact addZ_prefix _ _ _
  · exact List.prefix_rfl
  · exact List.prefix_rfl

theorem stepLayer_prefix (mode : RoundMode) (s : LayerSt α) (l : PyLine α) (a b : α) : s.allLayers <+: (stepLayer mode s l a b).1.allLayers := by
  unfold stepLayer
  simp only
  split_ifs
  · exact List.prefix_append _ _
  · exact List.prefix_rfl
  · exact List.prefix_rfl

theorem buildStep_onward {env : Env α} {light : Bool} {home : Home α} {s s' : BuildSt α} {l0 : PyLine α} (h : buildStep env light home s l0 = .ok s') : Onward s s' := by
  obtain ⟨m, l, hp, h⟩ := buildStep_ok h
  have hm := process_maxE hp
  rcases h with ⟨_, rfl⟩ | ⟨cmd, ds, _, _, _, rfl⟩
  · exact ⟨List.prefix_append _ _, List.prefix_rfl, hm, List.prefix_rfl⟩
  · exact ⟨List.prefix_append _ _, stepLayer_prefix env.mode { s.ls with hasExtrusion := s.ls.hasExtrusion || l.extruding.getD false } l ds.total ds.layerBegin, hm,
      stepLayer_heights env.mode { s.ls with hasExtrusion := s.ls.hasExtrusion || l.extruding.getD false } l ds.total ds.layerBegin⟩

theorem fold_onward {env : Env α} {light : Bool} {home : Home α} (ls : List (PyLine α)) :
    ∀ {s s' : BuildSt α}, ls.foldlM (buildStep env light home) s = .ok s' → Onward s s' := by
  induction ls with
  | nil => intro s s' h; obtain rfl := Except.ok.inj h; exact Onward.rfl' _
  | cons l ls ih =>
    intro s s' h
    rw [List.foldlM_cons] at h
    cases hb : buildStep env light home s l with
    | error e => rw [hb] at h; cases h
    | ok t =>
      rw [hb] at h
      exact (buildStep_onward hb).trans (ih h)

/-- The states after the first part and after the whole. -/
theorem load_cut {env : Env α} {light : Bool} {home : Home α} {data rest : List Str} (hd : data ≠ []) {g' : GCode α}
    (h : GCode.load env (data ++ rest) light home = .ok g') :
    ∃ s s' : BuildSt α, GCode.load env data light home = .ok (finalize (GCode.blank light home) s) ∧ g' = finalize (GCode.blank light home) s' ∧ Onward s s' := by
  rcases load_ok h with ⟨hn, _⟩ | ⟨_, s', hs', rfl⟩
  · exact absurd (List.append_eq_nil_iff.1 hn).1 hd
  · rw [readLines_append, List.foldlM_append] at hs'
    cases hf : (readLines data).foldlM (buildStep env light home) (BuildSt.start (GCode.blank light home)) with
    | error e => rw [hf] at hs'; cases hs'
    | ok s =>
      rw [hf] at hs'
      refine ⟨s, s', ?_, rfl, fold_onward _ hs'⟩
      unfold GCode.load prepare
      rw [if_neg (by simpa [List.isEmpty_iff] using hd)]
      unfold preprocessAll
      have : (GCode.blank light home : GCode α).light = light ∧ (GCode.blank light home : GCode α).home = home := ⟨rfl, rfl⟩
      rw [this.1, this.2, hf]

/-- C143, lines, layers and filament. If a file can be read, so can its beginning. The lines of the beginning, with everything that was found out about
them, are the first lines of the whole; all its layers but the last are, with their heights and times, the first layers of the whole (every program
ends with an empty layer, which does not count here); the heights found but the last are the first heights of the whole; and the whole needs no
less filament. -/
theorem C143_beginning {env : Env α} {light : Bool} {home : Home α} {data rest : List Str} (hd : data ≠ []) {g' : GCode α}
    (h : GCode.load env (data ++ rest) light home = .ok g') :
    ∃ g, GCode.load env data light home = .ok g ∧ g.lines <+: g'.lines ∧ g.allLayers.dropLast.dropLast <+: g'.allLayers ∧ g.allZs.dropLast <+: g'.allZs ∧
      ∃ a b, g.filamentLength = some a ∧ g'.filamentLength = some b ∧ a ≤ b := by
  obtain ⟨s, s', h1, rfl, ho⟩ := load_cut hd h
  refine ⟨_, h1, ho.done, ?_, ?_, _, _, rfl, rfl, ho.filament⟩
  rotate_left
  · have f1 : (finalize (GCode.blank light home) s).allZs.dropLast <+: s.ls.allZs := by
      unfold finalize closeLast
      simp only
      split_ifs
      · exact List.dropLast_prefix _
      · exact addZ_dropLast _ _ _
    have f2 : s'.ls.allZs <+: (finalize (GCode.blank light home) s').allZs := by
      unfold finalize closeLast
      simp only
      split_ifs
      · exact List.prefix_rfl
      · exact addZ_prefix _ _ _
    exact (f1.trans ho.heights).trans f2
  have e : ∀ t : BuildSt α, ∃ B, (finalize (GCode.blank light home) t).allLayers = (t.ls.allLayers ++ B) ++ [{ lines := [], z := none, duration := some 0 }] ∧ B.length ≤ 1 := by
    intro t
    unfold finalize closeLast
    simp only
    split_ifs
    · exact ⟨[], by simp, by simp⟩
    · exact ⟨[_], rfl, by simp⟩
  obtain ⟨B, e1, hB⟩ := e s
  obtain ⟨B', e2, _⟩ := e s'
  rw [e1, e2, List.dropLast_concat, List.append_assoc]
  have hp : (s.ls.allLayers ++ B).dropLast <+: s.ls.allLayers := by
    match B, hB with
    | [], _ => rw [List.append_nil]; exact List.dropLast_prefix _
    | [b], _ => rw [List.dropLast_concat]
  exact (hp.trans ho.layers).trans (List.prefix_append _ _)

/-- The layer being read goes on, or is closed with further lines. -/
def Growing (s s' : LayerSt α) : Prop :=
  (s'.allLayers = s.allLayers ∧ s.curLines <+: s'.curLines) ∨ ∃ L B, s'.allLayers = s.allLayers ++ L :: B ∧ s.curLines <+: L.lines

theorem Growing.trans {s t u : LayerSt α} (h : Growing s t) (k : Growing t u) : Growing s u := by
  rcases h with ⟨h1, h2⟩ | ⟨L, B, h1, h2⟩
  · rcases k with ⟨k1, k2⟩ | ⟨L, B, k1, k2⟩
    · exact .inl ⟨k1.trans h1, h2.trans k2⟩
    · exact .inr ⟨L, B, by rw [k1, h1], h2.trans k2⟩
  · rcases k with ⟨k1, _⟩ | ⟨L', B', k1, _⟩
    · exact .inr ⟨L, B, k1.trans h1, h2⟩
    · exact .inr ⟨L, B ++ L' :: B', by rw [k1, h1]; simp, h2⟩

theorem growing_step (mode : RoundMode) (s : LayerSt α) (b : Bool) (l r : PyLine α) (t t0 : α) :
    Growing s (recordLine (stepLayer mode { s with hasExtrusion := b } l t t0).1 r) := by
  unfold stepLayer
  simp only
  split_ifs
  · exact .inr ⟨_, [], rfl, List.prefix_rfl⟩
  · exact .inl ⟨rfl, List.prefix_append _ _⟩
  · exact .inl ⟨rfl, List.prefix_append _ _⟩

theorem fold_growing {env : Env α} {light : Bool} {home : Home α} (ls : List (PyLine α)) :
    ∀ {s s' : BuildSt α}, ls.foldlM (buildStep env light home) s = .ok s' → Growing s.ls s'.ls := by
  induction ls with
  | nil => intro s s' h; obtain rfl := Except.ok.inj h; exact .inl ⟨rfl, List.prefix_rfl⟩
  | cons l ls ih =>
    intro s s' h
    rw [List.foldlM_cons] at h
    cases hb : buildStep env light home s l with
    | error e => rw [hb] at h; cases h
    | ok t =>
      rw [hb] at h
      refine Growing.trans ?_ (ih h)
      obtain ⟨m, q, _, k⟩ := buildStep_ok hb
      rcases k with ⟨_, rfl⟩ | ⟨cmd, ds, _, _, _, rfl⟩
      · exact .inl ⟨rfl, List.prefix_append _ _⟩
      · exact growing_step env.mode s.ls _ q _ _ _

theorem fold_open {env : Env α} {light : Bool} {home : Home α} (ls : List (PyLine α)) :
    ∀ {s s' : BuildSt α}, ls.foldlM (buildStep env light home) s = .ok s' → (ls ≠ [] ∨ s.ls.curLines ≠ []) → s'.ls.curLines ≠ [] := by
  induction ls with
  | nil => intro s s' h hn; obtain rfl := Except.ok.inj h; simpa using hn
  | cons l ls ih =>
    intro s s' h _
    rw [List.foldlM_cons] at h
    cases hb : buildStep env light home s l with
    | error e => rw [hb] at h; cases h
    | ok t =>
      rw [hb] at h
      refine ih h (.inr ?_)
      obtain ⟨m, q, _, k⟩ := buildStep_ok hb
      rcases k with ⟨_, rfl⟩ | ⟨cmd, ds, _, _, _, rfl⟩ <;> simp [recordLine]

/-- C143, the last layer of the beginning: its lines are the first lines of the layer with the same number of the whole. -/
theorem C143_last_layer {env : Env α} {light : Bool} {home : Home α} {data rest : List Str} {g g' : GCode α}
    (h : GCode.load env data light home = .ok g) (h' : GCode.load env (data ++ rest) light home = .ok g') (hne : g.lines ≠ []) :
    ∃ (A B : List (Layer α)) (L L' E : Layer α), g.allLayers = A ++ [L, E] ∧ E.lines = [] ∧ g'.allLayers = A ++ L' :: B ∧ L.lines <+: L'.lines ∧ L.lines ≠ [] := by
  rcases load_ok h with ⟨_, rfl⟩ | ⟨hd, s, hs, rfl⟩
  · exact absurd rfl hne
  rcases load_ok h' with ⟨hn, _⟩ | ⟨_, s', hs', rfl⟩
  · exact absurd (List.append_eq_nil_iff.1 hn).1 hd
  rw [readLines_append, List.foldlM_append, hs] at hs'
  have hl : (readLines data : List (PyLine α)) ≠ [] := by
    intro k
    apply hne
    rw [k] at hs
    obtain rfl := Except.ok.inj hs
    rfl
  have o1 := fold_open _ hs (.inl hl)
  have o2 := fold_open _ hs' (.inr o1)
  have e : ∀ {t : BuildSt α}, t.ls.curLines ≠ [] → (finalize (GCode.blank light home) t).allLayers = t.ls.allLayers ++
      [{ lines := t.ls.curLines, z := t.ls.prevZ, duration := some (t.ds.total - t.ds.layerBegin) }, { lines := [], z := none, duration := some 0 }] := by
    intro t ht
    unfold finalize closeLast
    simp only
    rw [if_neg (by simpa [List.isEmpty_iff] using ht), List.append_assoc]
    rfl
  rcases fold_growing _ hs' with ⟨k1, k2⟩ | ⟨L, B, k1, k2⟩
  · exact ⟨_, _, _, _, _, e o1, rfl, by rw [e o2, k1], k2, o1⟩
  · exact ⟨_, _, _, L, _, e o1, rfl, by rw [e o2, k1, List.append_assoc, List.cons_append], k2, o1⟩

/-- C143, errors: a file whose beginning cannot be read cannot be read, for the same reason. -/
theorem C143_errors {env : Env α} {light : Bool} {home : Home α} {data rest : List Str} {e : Err}
    (h : GCode.load env data light home = .error e) : GCode.load env (data ++ rest) light home = .error e := by
  obtain ⟨hd, hf⟩ := load_error h
  unfold GCode.load prepare
  rw [if_neg (by simp [List.isEmpty_iff, hd])]
  unfold preprocessAll
  have : (GCode.blank light home : GCode α).light = light ∧ (GCode.blank light home : GCode α).home = home := ⟨rfl, rfl⟩
  rw [this.1, this.2, readLines_append, List.foldlM_append, hf]
  rfl

/-- C143 (partial), bounding box. If the beginning extrudes along a move, the box of the whole contains its box. -/
theorem C143_box_partial {env : Env α} {home : Home α} {data rest : List Str} (hd : data ≠ []) {g g' : GCode α}
    (h : GCode.load env data false home = .ok g) (h' : GCode.load env (data ++ rest) false home = .ok g')
    (hfl : ∃ a, g.filamentLength = some a ∧ 0 < a) (hm : ∃ l ∈ g.lines, l.isMove = true ∧ l.extruding = some true) :
    ∃ x0 x1 y0 y1 x0' x1' y0' y1', g.xmin = some x0 ∧ g.xmax = some x1 ∧ g.ymin = some y0 ∧ g.ymax = some y1 ∧
      g'.xmin = some x0' ∧ g'.xmax = some x1' ∧ g'.ymin = some y0' ∧ g'.ymax = some y1' ∧ x0' ≤ x0 ∧ x1 ≤ x1' ∧ y0' ≤ y0 ∧ y1 ≤ y1' := by
  obtain ⟨q, hq, hp, _, _, a, b, f1, f2, hab⟩ := C143_beginning hd h'
  rw [h] at hq
  obtain rfl := Except.ok.inj hq
  obtain ⟨c, hc, h0⟩ := hfl
  obtain rfl : c = a := Option.some.inj (hc.symm.trans f1)
  obtain ⟨st, fl, x0, x1, y0, y1, k1, k2, k3, k4, k5, _, _, k6, _⟩ := C23_bounding_box h hd
  obtain ⟨_, fl', x0', x1', y0', y1', m1, m2, m3, m4, m5, _, _, m6, _⟩ := C23_bounding_box h' (by simp [hd])
  obtain rfl : fl = c := Option.some.inj (k1.symm.trans f1)
  obtain rfl : fl' = b := Option.some.inj (m1.symm.trans f2)
  obtain ⟨bx, by_⟩ := k6 h0
  obtain ⟨bx', by'⟩ := m6 (lt_of_lt_of_le h0 hab)
  obtain ⟨l, hl, hl2⟩ := hm
  obtain ⟨x, y, hx, hy⟩ := st l hl hl2.1
  have key : ∀ {S S' : Set α} {a b a' b' v : α}, Bounds S a b → Bounds S' a' b' → S ⊆ S' → v ∈ S → a' ≤ a ∧ b ≤ b' := by
    intro S S' a b a' b' v hB hB' hsub hv
    rcases hB with ⟨k, _⟩ | ⟨k1, k2⟩
    · rw [k] at hv; exact absurd hv (by simp)
    · rcases hB' with ⟨k, _⟩ | ⟨k1', k2'⟩
      · have := hsub hv
        rw [k] at this; exact absurd this (by simp)
      · exact ⟨k1'.2 (hsub k1.1), k2'.2 (hsub k2.1)⟩
  obtain ⟨r1, r2⟩ := key bx bx' (fun v ⟨q, a, b, c⟩ => ⟨q, hp.subset a, b, c⟩) ⟨l, hl, hl2, hx⟩
  obtain ⟨r3, r4⟩ := key by_ by' (fun v ⟨q, a, b, c⟩ => ⟨q, hp.subset a, b, c⟩) ⟨l, hl, hl2, hy⟩
  exact ⟨_, _, _, _, _, _, _, _, k2, k3, k4, k5, m2, m3, m4, m5, r1, r2, r3, r4⟩

/-! ### time -/

theorem ramp_nonneg {c v s : α} (hc : 0 ≤ c) (hv : 0 ≤ v) (hs : 0 ≤ s) : 0 ≤ rampTime c v s := by
  unfold rampTime
  simp only
  have hm : 0 ≤ (c + v) / 2 := by positivity
  have hd : 0 ≤ |v ^ 2 - c ^ 2| / 2000 := by positivity
  split_ifs with h1 h2
  · positivity
  · have := h2.1
    exact add_nonneg (div_nonneg hd hm) (div_nonneg (by linarith) hv)
  · positivity

theorem times_nonneg {hyp : α → α → α} (hh : ∀ a b, 0 ≤ hyp a b) (ls : List (PyLine α)) (hf : ∀ l ∈ ls, FeedOk l) (hw : ∀ l ∈ ls, 0 ≤ dwell l) :
    ∀ p : Pace α, 0 ≤ p.v → ∀ t ∈ lineTimes hyp p ls, 0 ≤ t := by
  induction ls with
  | nil => intro p _ t ht; simp [lineTimes] at ht
  | cons l ls ih =>
    intro p hp t ht
    have hv : 0 ≤ (p.next l).v := by
      unfold Pace.next
      split_ifs with hL
      · cases e : l.f with
        | none => exact hp
        | some f =>
          have := hf l (by simp) hL f e
          show 0 ≤ f / 60
          positivity
      · exact hp
    rw [lineTimes, List.mem_cons] at ht
    rcases ht with rfl | ht
    · unfold lineTime
      split_ifs with hL hdir
      · exact ramp_nonneg hp hv (paceLength_nonneg hh p l)
      · exact ramp_nonneg le_rfl hv (paceLength_nonneg hh p l)
      · exact hw l (by simp)
    · exact ih (fun l hl => hf l (by simp [hl])) (fun l hl => hw l (by simp [hl])) _ hv t ht

/-- C143 (partial), time. The estimate for the whole is not shorter than the one for the beginning, unless feed rates or waiting times are negative. -/
theorem C143_time_partial {env : Env α} (hh : ∀ a b, 0 ≤ env.hypot a b) {home : Home α} {data rest : List Str} (hd : data ≠ []) {g' : GCode α}
    (h : GCode.load env (data ++ rest) false home = .ok g')
    (hf : ∀ l ∈ g'.lines, Linear l → ∀ f, l.f = some f → 0 ≤ f) (hw : ∀ l ∈ g'.lines, 0 ≤ dwell l) :
    ∃ g t t', GCode.load env data false home = .ok g ∧ g.duration = some t ∧ g'.duration = some t' ∧ 0 ≤ t ∧ t ≤ t' := by
  obtain ⟨g, hg, ⟨B, hB⟩, _⟩ := C143_beginning hd h
  refine ⟨g, _, _, hg, C130_total hg hd, C130_total h (by simp [hd]), ?_⟩
  have hall := times_nonneg hh g'.lines hf hw .rest le_rfl
  rw [← hB, lineTimes_append] at hall ⊢
  rw [List.sum_append]
  have n1 : 0 ≤ (lineTimes env.hypot .rest g.lines).sum := List.sum_nonneg fun t ht => hall t (by simp [ht])
  have n2 : 0 ≤ (lineTimes env.hypot (paceAfter .rest g.lines) B).sum := List.sum_nonneg fun t ht => hall t (by simp [ht])
  refine ⟨?_, pyInt_mono (by linarith)⟩
  unfold pyInt
  rw [if_pos n1]
  exact Int.floor_nonneg.2 n1

/-! ### the hypotheses are met -/

example : GCode.load qEnv (sample.take 9 ++ sample.drop 9) = .ok sampleG ∧ sample.take 9 ≠ [] ∧ GCode.load qEnv (sample.take 9) = .ok (loadQ (sample.take 9)) ∧
    (∃ a, (loadQ (sample.take 9)).filamentLength = some a ∧ 0 < a) ∧ (∃ l ∈ (loadQ (sample.take 9)).lines, l.isMove = true ∧ l.extruding = some true) ∧
    (∀ l ∈ sampleG.lines, Linear l → ∀ f ∈ l.f, 0 ≤ f) ∧ (∀ l ∈ sampleG.lines, 0 ≤ dwell l) := by
  refine ⟨by decide +kernel, by decide +kernel, by decide +kernel, ⟨2, by decide +kernel⟩, by decide +kernel, ?_, ?_⟩
  · unfold Linear HasCmd; decide +kernel
  · decide +kernel

example : GCode.load qEnv [c!"G1 X1", c!"T"] = .error .valueError := by decide +kernel

/-! ### where it is false -/

/-- C143 is false for the height: a rise by less than a hundredth of a millimetre counts if the file ends there, and does not if the file goes on. -/
theorem C143_height_refuted : ∃ data rest : List Str,
    (loadQ data).zmax = some (121 / 200) ∧ (loadQ (data ++ rest)).zmax = some (3 / 5) ∧
    GCode.load qEnv data = .ok (loadQ data) ∧ GCode.load qEnv (data ++ rest) = .ok (loadQ (data ++ rest)) :=
  ⟨[c!"G1 Z0.3", c!"G1 X1 E1", c!"G1 Z0.6", c!"G1 X2 E2", c!"G1 Z0.605", c!"G1 X3 E3"], [c!"G1 Z0.5", c!"G1 X3 E4"], by decide +kernel⟩

/-- C143 is false for the box of a beginning that only travels, which is the box of the travel. -/
theorem C143_travel_refuted : ∃ data rest : List Str,
    (loadQ data).xmax = some 100 ∧ (loadQ (data ++ rest)).xmax = some 20 ∧
    GCode.load qEnv data = .ok (loadQ data) ∧ GCode.load qEnv (data ++ rest) = .ok (loadQ (data ++ rest)) :=
  ⟨[c!"G1 X100 Y50"], [c!"G1 X20 Y20 E5"], by decide +kernel⟩

/-- C143 is false for the time after a negative waiting time, which the estimate subtracts. -/
theorem C143_wait_refuted : ∃ data rest : List Str,
    (loadQ data).duration = some 6 ∧ (loadQ (data ++ rest)).duration = some 3 ∧
    GCode.load qEnv data = .ok (loadQ data) ∧ GCode.load qEnv (data ++ rest) = .ok (loadQ (data ++ rest)) :=
  ⟨[c!"G1 X10 F600", c!"G4 P5000"], [c!"G4 P-3000"], by decide +kernel⟩

end GCodeUtils
