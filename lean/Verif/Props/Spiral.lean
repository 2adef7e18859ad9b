import Verif.Lemmas.Layered
import Verif.Props.Height
import Verif.Props.Load

/-
  C120, C121, C122: the layer height of a program, its layers, and the heights of layers that lie close together.
-/

set_option linter.unusedSectionVars false

namespace GCodeUtils

open Spec

variable {α : Type} [Field α] [LinearOrder α] [IsStrictOrderedRing α] [FloorRing α]

/-- C120, the layer height of every program: it is looked for at the first height within 0.01 mm of the one recorded before, is the typical
step of the heights recorded up to there, does not change afterwards, and is positive. -/
theorem C120_layer_height {env : Env α} {data : List Str} {home : Home α} {g : GCode α} (h : GCode.load env data false home = .ok g) :
    LayerHeight env.mode (leftHeights g.lines) g.est ∧ ∀ e, g.est = some e → 0 < e := by
  have key : LayerHeight env.mode (leftHeights g.lines) g.est := by
    rcases load_ok h with ⟨_, rfl⟩ | ⟨_, s, hs, rfl⟩
    · refine .inl ⟨rfl, fun a p b e => ?_⟩
      simp [GCode.blank, leftHeights, leaves] at e
    · have he : (finalize (GCode.blank false home) s).est = s.ls.est := by
        simp only [finalize, closeLast]; split_ifs <;> rfl
      rw [he]
      exact (load_spiral hs).2.est
  exact ⟨key, fun e he => layerHeight_pos (he ▸ key)⟩

/-- C120, what the layer height is: no other number satisfies the description. -/
theorem C120_unique {mode : RoundMode} {us : List α} {e e' : Option α} (h : LayerHeight mode us e) (h' : LayerHeight mode us e') : e = e' :=
  layerHeight_unique h h'

/-- C120, evenly spaced layers: the typical step is their distance. -/
theorem C120_even {mode : RoundMode} {u d : α} {n : ℕ} (hd : 0 < d) (hm : ∃ m : ℤ, d = m / 1000) {zs : List α} {h : α}
    (hz : zs.Perm ((List.range (n + 2)).map (fun i : ℕ => u + i * d))) (ht : Typical mode zs h) : h = d := by
  obtain ⟨ss, p, hs, hx⟩ := ht
  have hp : ((List.range (n + 2)).map (fun i : ℕ => u + i * d)).Pairwise (· ≤ ·) := by
    rw [List.pairwise_map]
    refine List.pairwise_lt_range.imp fun {a b} hab => ?_
    have : (a : α) ≤ b := by exact_mod_cast hab.le
    nlinarith
  obtain rfl : ss = _ := (p.trans hz).eq_of_pairwise (fun a b _ _ h1 h2 => le_antisymm h1 h2) hs hp
  have hr : pyRound mode 3 d = d := by
    obtain ⟨m, rfl⟩ := hm
    have := pyRound_exact (α := α) mode 3 m
    norm_num at this
    exact this
  have hall : ∀ x ∈ stepsOf mode ((List.range (n + 2)).map (fun i : ℕ => u + i * d)), x = d := by
    intro x hx
    unfold stepsOf at hx
    have hx := (List.mem_filter.1 hx).1
    rw [List.mem_iff_getElem] at hx
    obtain ⟨i, hi, rfl⟩ := hx
    simp only [List.getElem_zipWith, List.getElem_tail, List.getElem_map, List.getElem_range]
    rw [show u + ((i + 1 : ℕ) : α) * d - (u + (i : α) * d) = d by push_cast; ring, hr]
  have hne : stepsOf mode ((List.range (n + 2)).map (fun i : ℕ => u + i * d)) ≠ [] := by
    intro h0
    unfold stepsOf at h0
    rw [List.filter_eq_nil_iff] at h0
    have := h0 d (by
      rw [List.mem_iff_getElem]
      refine ⟨0, by simp, ?_⟩
      simp only [List.getElem_zipWith, List.getElem_tail, List.getElem_map, List.getElem_range]
      rw [show u + ((0 + 1 : ℕ) : α) * d - (u + ((0 : ℕ) : α) * d) = d by push_cast; ring, hr])
    simp [hd.ne'] at this
  rcases hx with ⟨d', r, hx⟩ | hx | ⟨hx, _⟩
  · exact hall h (by rw [hx]; simp)
  · exact hall h (by rw [hx]; simp)
  · exact absurd hx hne

/-- C120, the height a layer is recorded under, for every layer of every program: the height at its end, in hundredths or as it is, or the
multiple of the layer height reached there. -/
theorem C120_heights {env : Env α} {data : List Str} {home : Home α} {g : GCode α} (h : GCode.load env data false home = .ok g)
    {k : ℕ} {L : Layer α} (hL : g.allLayers[k]? = some L) (hne : L.lines ≠ []) :
    RecordedAt env.mode g.est (heightAfter ((g.allLayers.take (k + 1)).flatMap (·.lines))) L.z := by
  rcases load_ok h with ⟨_, rfl⟩ | ⟨_, s, hs, rfl⟩
  · cases k with
    | zero => simp at hL; subst hL; simp at hne
    | succ k => simp at hL
  · have he : (finalize (GCode.blank false home) s).est = s.ls.est := by
      simp only [finalize, closeLast]; split_ifs <;> rfl
    obtain ⟨hh, hi⟩ := load_spiral hs
    obtain ⟨f1, f2⟩ := final_layers (home := home) hh
    rw [he]
    rcases f1 k L hL hne with ⟨hk, hL'⟩ | ⟨hk, hc, hz⟩
    · rw [f2 (k + 1) hk]
      have := hi.lay k L hL'
      unfold closedLines at this
      rw [← List.map_take, List.flatten_eq_flatMap, List.flatMap_map] at this
      exact this
    · refine .inl ?_
      have hfl : (closedLines s.ls).flatten ++ s.ls.curLines = s.done := hh.inv.1.flat.symm
      rw [hz, List.take_add_one, f2 k hk.le, hL, hk, List.take_length, List.flatMap_append, hh.cur, ← hfl]
      simp [hc, closedLines, List.flatMap]

/-- C120, how far the recorded height is from the height at the end of the layer: at most half a hundredth above, and less than a layer height
and half a hundredth below. -/
theorem C120_near {env : Env α} {data : List Str} {home : Home α} {g : GCode α} (h : GCode.load env data false home = .ok g)
    {k : ℕ} {L : Layer α} (hL : g.allLayers[k]? = some L) (hne : L.lines ≠ []) :
    (L.z = none ↔ heightAfter ((g.allLayers.take (k + 1)).flatMap (·.lines)) = none) ∧
    ∀ u v, heightAfter ((g.allLayers.take (k + 1)).flatMap (·.lines)) = some u → L.z = some v →
      v ≤ u + 1 / 200 ∧ u - g.est.getD 0 - 1 / 200 ≤ v := by
  have hpos := (C120_layer_height h).2
  have hge : 0 ≤ g.est.getD 0 := by
    cases he : g.est with
    | none => simp
    | some e => simpa using (hpos e he).le
  rcases C120_heights h hL hne with hr | ⟨p, hp, hr | ⟨e, he, n, h1, h2, hr⟩⟩
  · rw [hr]
    refine ⟨Iff.rfl, fun u v hu hv => ?_⟩
    rw [hu] at hv
    obtain rfl := Option.some.inj hv
    constructor <;> linarith [hge]
  · rw [hr, hp]
    refine ⟨by simp, fun u v hu hv => ?_⟩
    obtain rfl := Option.some.inj hu
    obtain rfl := Option.some.inj hv
    have hb := pyRound_bound env.mode 2 p
    norm_num at hb
    have := abs_le.1 hb
    constructor <;> linarith [this.1, this.2, hge]
  · rw [hr, hp]
    refine ⟨by simp, fun u v hu hv => ?_⟩
    obtain rfl := Option.some.inj hu
    obtain rfl := Option.some.inj hv
    have hb := pyRound_bound env.mode 2 ((n : α) * e)
    norm_num at hb
    have := abs_le.1 hb
    rw [he]
    simp only [Option.getD_some]
    constructor <;> nlinarith [this.1, this.2]

/-- C122, the layers of every program, exactly: which lines begin a layer, and the height each layer is recorded under. The last layer is the
empty one behind the last line. -/
theorem C122_layered {env : Env α} {data : List Str} {home : Home α} {g : GCode α} (h : GCode.load env data false home = .ok g) (hne : g.lines ≠ []) :
    Layered env.mode (g.allLayers.dropLast.map (·.lines)) (g.allLayers.dropLast.map (·.z)) ∧
    (g.allLayers.dropLast.map (·.lines)).flatten = g.lines ∧ g.allLayers.dropLast ≠ [] ∧
    (∀ L ∈ g.allLayers.dropLast.tail, L.lines ≠ []) ∧ ∃ L, g.allLayers.getLast? = some L ∧ L.lines = [] ∧ L.z = none := by
  rcases load_ok h with ⟨_, rfl⟩ | ⟨_, s, hs, rfl⟩
  · simp [GCode.blank] at hne
  · obtain ⟨hh, _, hr⟩ := load_rule hs
    have hfl : (closedLines s.ls).flatten ++ s.ls.curLines = s.done := hh.inv.1.flat.symm
    have hcur : s.ls.curLines ≠ [] := by
      by_cases h0 : s.ls.allLayers = []
      · intro h1
        apply hne
        change s.done = []
        rw [← hfl, h1]
        simp [closedLines, h0]
      · exact hh.inv.2 h0
    have hall : (finalize (GCode.blank false home) s).allLayers = (s.ls.allLayers ++ [{ lines := s.ls.curLines, z := s.ls.curZ, duration := some (s.ds.total - s.ds.layerBegin) }]) ++
        [{ lines := [], z := none, duration := some 0 }] := by
      change (closeLast s.ls s.ds.total s.ds.layerBegin).allLayers ++ _ = _
      unfold closeLast
      rw [if_neg (by simpa using hcur), ← hh.prev]
    rw [hall, List.dropLast_concat]
    refine ⟨?_, ?_, by simp, ?_, ⟨_, List.getLast?_concat, rfl, rfl⟩⟩
    · have := ruleInv_layered hh hr
      simpa [allSoFar, closedLines] using this
    · change _ = s.done
      rw [← hfl]
      simp [closedLines]
    · intro L hL
      have ht := hh.inv.1.tail
      unfold closedLines at ht
      cases hA : s.ls.allLayers with
      | nil => rw [hA] at hL; simp at hL
      | cons A As =>
        rw [hA] at hL ht
        simp only [List.cons_append, List.tail_cons, List.mem_append, List.mem_singleton] at hL
        rcases hL with hL | rfl
        · exact ht _ (by simpa using ⟨L, hL, rfl⟩)
        · exact hcur

/-- C122, the description is complete: any division of the lines into layers with recorded heights that meets it is the one of the program. -/
theorem C122_complete {env : Env α} {data : List Str} {home : Home α} {g : GCode α} (h : GCode.load env data false home = .ok g) (hne : g.lines ≠ [])
    {Ls : List (List (PyLine α))} {zs : List (Option α)} (hl : Layered env.mode Ls zs) (hlen : Ls.length = zs.length) (hf : Ls.flatten = g.lines)
    (ht : ∀ L ∈ Ls.tail, L ≠ []) : Ls = g.allLayers.dropLast.map (·.lines) ∧ zs = g.allLayers.dropLast.map (·.z) := by
  obtain ⟨c1, c2, c3, c4, _⟩ := C122_layered h hne
  refine layered_unique hl c1 hlen (by simp) ht ?_ ?_ (hf.trans c2.symm)
  · intro L hL
    rw [← List.map_tail, List.mem_map] at hL
    obtain ⟨M, hM, rfl⟩ := hL
    exact c4 M hM
  · constructor
    · rintro rfl; exact absurd hf.symm hne
    · intro h0; exact absurd (List.map_eq_nil_iff.1 h0) c3

/-- A spiral on a base of two layers of 0.2 mm on a first layer of 0.3 mm. -/
def vase : List Str :=
  [c!"G1 Z0.3", c!"G1 X1 E1", c!"G1 Z0.5", c!"G1 X2 E2", c!"G1 Z0.7", c!"G1 X1 E3", c!"G1 Z0.705 X2 E4", c!"G1 Z0.75 X1 E5", c!"G1 Z0.79 X2 E6",
   c!"G1 Z0.82 X1 E7", c!"G1 Z0.9 X2 E8", c!"G1 Z1.01 X1 E9"]

/-- The hypotheses are met, and the layer height of the spiral is the one of the base, without its first layer. -/
example : (loadQ vase).est = some (2 / 10) ∧
    leftHeights (loadQ vase).lines = [3 / 10, 5 / 10, 7 / 10, 705 / 1000, 75 / 100, 79 / 100, 82 / 100, 9 / 10] ∧
    ∃ L, (loadQ vase).allLayers[4]? = some L ∧ L.lines ≠ [] ∧ L.z = some (6 / 10) := by
  refine ⟨by decide +kernel, by decide +kernel, ?_⟩
  have : ((loadQ vase).allLayers[4]?.map fun L => (L.lines.length, L.z)) = some (1, some (6 / 10)) := by decide +kernel
  cases h : (loadQ vase).allLayers[4]? with
  | none => rw [h] at this; simp at this
  | some L =>
    rw [h] at this
    simp only [Option.map_some, Option.some.injEq, Prod.mk.injEq] at this
    exact ⟨L, rfl, by intro h0; rw [h0] at this; simp at this, this.2⟩

/-- The layers of the spiral as `C122_layered` describes them: the close height 0.705 is recorded as 3 * 0.2, and the line to 0.79 does not begin
a layer because 0.75 gives 3 * 0.2 again. -/
example : (loadQ vase).lines ≠ [] ∧ (loadQ vase).allLayers.dropLast.map (fun L => (L.lines.length, L.z)) =
    [(0, none), (2, some (3 / 10)), (2, some (5 / 10)), (2, some (7 / 10)), (1, some (6 / 10)), (3, some (82 / 100)), (1, some (8 / 10)), (1, some (101 / 100))] ∧
    heightAfter ((loadQ vase).lines.take 8) = some (75 / 100) ∧ heightAfter ((loadQ vase).lines.take 9) = some (79 / 100) := by
  refine ⟨?_, by decide +kernel, by decide +kernel, by decide +kernel⟩
  have : (loadQ vase).lines.length = 12 := by decide +kernel
  intro h0
  rw [h0] at this
  simp at this

/-- C121, for programs whose heights change by at least 0.015 mm at a time: if the head never goes down, each layer is recorded above the one
before. Missing: finer changes, see `C121_refuted`. -/
theorem C121_rising_partial {env : Env α} {data : List Str} {home : Home α} {g : GCode α} (h : GCode.load env data false home = .ok g)
    (ha : HeightsApart g.lines) (hr : NeverDown g.lines) {k : ℕ} {L M : Layer α} (hL : g.allLayers[k]? = some L) (hM : g.allLayers[k + 1]? = some M)
    (hl : L.lines ≠ []) (hm : M.lines ≠ []) {v w : α} (hv : L.z = some v) (hw : M.z = some w) : v < w := by
  obtain ⟨c1, c2⟩ := C81_apart_partial h ha
  obtain ⟨z, r1, e1⟩ := c1 k L hL hl
  obtain ⟨z', r2, e2⟩ := c1 (k + 1) M hM hm
  obtain ⟨l, r, hlr⟩ := List.exists_cons_of_ne_nil hm
  have e1 := e1 L.lines [] (by simp) hl
  have e2 := e2 [l] r (by rw [hlr]; rfl) (by simp)
  have c2 := c2 k M l r hM hlr
  have hk : (g.allLayers.take (k + 1)).flatMap (·.lines) = (g.allLayers.take k).flatMap (·.lines) ++ L.lines := by
    rw [List.take_add_one, hL]; simp
  rw [← hk] at e1
  rw [e1, e2] at c2
  rw [hv] at r1
  rw [hw] at r2
  rcases r1 with ⟨_, r1⟩ | ⟨u, v', rfl, q, r1⟩
  · simp at r1
  rcases r2 with ⟨_, r2⟩ | ⟨u', w', rfl, q', r2⟩
  · simp at r2
  obtain rfl := Option.some.inj q
  obtain rfl := Option.some.inj q'
  have hsplit : g.lines = (g.allLayers.take (k + 1)).flatMap (·.lines) ++ l :: (r ++ (g.allLayers.drop (k + 2)).flatMap (·.lines)) := by
    have hf : g.lines = g.allLayers.flatMap (·.lines) := by
      rw [← (C03_layers_partition env data false home g h).1, List.flatMap]
    rw [hf]
    conv_lhs => rw [← List.take_append_drop (k + 1) g.allLayers]
    rw [List.flatMap_append, List.drop_eq_getElem_cons (by
      by_contra hc
      rw [List.getElem?_eq_none (by omega)] at hM; simp at hM)]
    have : g.allLayers[k + 1]'(by
      by_contra hc
      rw [List.getElem?_eq_none (by omega)] at hM; simp at hM) = M := by
      rw [List.getElem?_eq_some_iff] at hM; exact hM.2
    rw [List.flatMap_cons, this, hlr]
    simp
  have h1 := hr _ _ _ hsplit u u' e1 e2
  have h2 := ha _ _ _ hsplit u u' e1 e2
  have h2 : 3 / 200 ≤ u' - u := by
    rcases h2 with h2 | h2
    · rw [h2] at c2; simp at c2
    · rwa [abs_of_nonneg (by linarith)] at h2
  have a1 := abs_le.1 r1
  have a2 := abs_le.1 r2
  linarith [a1.2, a2.1]

theorem neverDown_of_splits {ls : List (PyLine ℚ)} (h : ∀ k < ls.length, ∀ u ∈ heightAfter (ls.take k), ∀ v ∈ heightAfter (ls.take (k + 1)), u ≤ v) :
    NeverDown ls := by
  rintro a l b rfl u v hu hv
  have h1 := h a.length (by simp)
  have e1 : (a ++ l :: b).take a.length = a := List.take_left
  have e2 : (a ++ l :: b).take (a.length + 1) = a ++ [l] := by
    rw [show a ++ l :: b = (a ++ [l]) ++ b by simp, List.take_append_of_le_length (by simp), List.take_of_length_le (by simp)]
  rw [e1, e2] at h1
  exact h1 u hu v hv

/-- The hypotheses are met by a program with heights in eighths. -/
example : GCode.load qEnv eighths = .ok (loadQ eighths) ∧ HeightsApart (loadQ eighths).lines ∧ NeverDown (loadQ eighths).lines ∧
    (loadQ eighths).allLayers.map (fun L => (L.lines.length, L.z)) =
      [(0, none), (2, some (1 / 8)), (2, some (25 / 100)), (2, some (38 / 100)), (1, some (1 / 2)), (0, none)] :=
  ⟨by decide +kernel, apart_of_splits (by decide +kernel), neverDown_of_splits (by decide +kernel), by decide +kernel⟩

/-- C121, for programs in which no two heights left are so close that a layer height is looked for: if the head never goes down, each layer
before the last is recorded above the one before, and the last at most half a hundredth below it. Missing: programs with closer heights, see
`C121_refuted`. -/
theorem C121_no_estimate_partial {env : Env α} {data : List Str} {home : Home α} {g : GCode α} (h : GCode.load env data false home = .ok g)
    (he : g.est = none) (hr : NeverDown g.lines) {k : ℕ} {L M : Layer α} (hL : g.allLayers[k]? = some L) (hM : g.allLayers[k + 1]? = some M)
    (hm : M.lines ≠ []) {v w : α} (hv : L.z = some v) (hw : M.z = some w) :
    v ≤ w + 1 / 200 ∧ (∀ N, g.allLayers[k + 2]? = some N → N.lines ≠ [] → v < w) := by
  have hne : g.lines ≠ [] := by
    rw [← (C03_layers_partition env data false home g h).1]
    intro h0
    rw [List.flatten_eq_nil_iff] at h0
    exact hm (h0 _ (List.mem_map.2 ⟨M, List.mem_of_getElem? hM, rfl⟩))
  obtain ⟨c1, c2, c3, c4, E, hE, hE1, hE2⟩ := C122_layered h hne
  have hA : g.allLayers = g.allLayers.dropLast ++ [E] := by
    have h0 : g.allLayers ≠ [] := by rintro h0; rw [h0] at hL; simp at hL
    rw [List.getLast?_eq_some_getLast h0] at hE
    rw [← Option.some.inj hE, List.dropLast_append_getLast h0]
  have hin : ∀ {i : ℕ} {X : Layer α}, g.allLayers[i]? = some X → X.lines ≠ [] → i < g.allLayers.dropLast.length ∧ g.allLayers.dropLast[i]? = some X := by
    intro i X hX hx
    rw [hA] at hX
    by_cases hi : i < g.allLayers.dropLast.length
    · exact ⟨hi, by rw [List.getElem?_append_left hi] at hX; exact hX⟩
    · rw [List.getElem?_append_right (by omega), List.getElem?_singleton] at hX
      split_ifs at hX
      obtain rfl := Option.some.inj hX
      exact absurd hE1 hx
  obtain ⟨hk1, hM1⟩ := hin hM hm
  have hL1 : g.allLayers.dropLast[k]? = some L := by
    rw [hA, List.getElem?_append_left (by omega)] at hL; exact hL
  have htk : ∀ i, i ≤ g.allLayers.dropLast.length → ((g.allLayers.dropLast.map (·.lines)).take i).flatten = (g.allLayers.take i).flatMap (·.lines) := by
    intro i hi
    conv_rhs => rw [hA, List.take_append_of_le_length hi]
    rw [← List.map_take, List.flatMap]
  have hdr : ∀ i, ∃ c, g.lines = ((g.allLayers.dropLast.map (·.lines)).take i).flatten ++ c := by
    intro i
    exact ⟨((g.allLayers.dropLast.map (·.lines)).drop i).flatten, by rw [← List.flatten_append, List.take_append_drop, c2]⟩
  have hlz : L.lines ≠ [] := by
    cases k with
    | zero =>
      intro h0
      have := c1.first L.z (by rw [List.getElem?_map, hL1]; rfl)
      rw [hv] at this
      have h1 : (g.allLayers.dropLast.map (·.lines)).take 1 = [[]] := by
        rw [List.take_add_one, List.getElem?_map, hL1]; simp [h0]
      rw [h1] at this
      simp [heightAfter] at this
    | succ k =>
      refine c4 L ?_
      rw [List.mem_iff_getElem?]
      exact ⟨k, by rw [List.getElem?_tail]; exact hL1⟩
  obtain ⟨u, hu⟩ : ∃ u, heightAfter ((g.allLayers.dropLast.map (·.lines)).take (k + 1)).flatten = some u := by
    rw [htk _ (by omega)]
    have := (C120_near h hL hlz).1
    rw [hv] at this
    exact Option.ne_none_iff_exists'.1 (fun e => by simpa using this.2 e)
  obtain ⟨u', hu'⟩ : ∃ u', heightAfter ((g.allLayers.dropLast.map (·.lines)).take (k + 2)).flatten = some u' := by
    rw [htk _ (by omega)]
    have := (C120_near h hM hm).1
    rw [hw] at this
    exact Option.ne_none_iff_exists'.1 (fun e => by simpa using this.2 e)
  have hvu : v ≤ u + 1 / 200 := ((C120_near h hL hlz).2 u v (by rw [← htk _ (by omega)]; exact hu) hv).1
  have huu : u ≤ u' := by
    obtain ⟨c, hc⟩ := hdr (k + 2)
    have e : ((g.allLayers.dropLast.map (·.lines)).take (k + 2)).flatten = ((g.allLayers.dropLast.map (·.lines)).take (k + 1)).flatten ++ M.lines := by
      rw [List.take_add_one (i := k + 1), List.getElem?_map, hM1]; simp
    rw [e] at hc hu'
    exact neverDown_later (hc ▸ hr) hu hu'
  by_cases hlast : k + 2 < g.allLayers.dropLast.length
  · obtain ⟨hrule, _⟩ := c1.rule k L.z M.z (by rw [List.getElem?_map, hL1]; rfl) (by rw [List.getElem?_map, hM1]; rfl) (by simpa using hlast)
    obtain ⟨l, r, hlr⟩ := List.exists_cons_of_ne_nil (c4 _ (by
      rw [List.mem_iff_getElem?]
      exact ⟨k + 1, by rw [List.getElem?_tail, List.getElem?_eq_getElem hlast]⟩))
    have hN : (g.allLayers.dropLast.map (·.lines))[k + 1 + 1]? = some (l :: r) := by
      rw [List.getElem?_map, List.getElem?_eq_getElem hlast, ← hlr]; rfl
    have hch := c1.begins (k + 1) l r hN
    have hest := (C120_layer_height h).1
    rw [he] at hest
    obtain ⟨c, hc⟩ := hdr (k + 3)
    rw [List.take_add_one, hN] at hc
    rw [show ((g.allLayers.dropLast.map (·.lines)).take (k + 2) ++ (some (l :: r)).toList).flatten ++ c = ((g.allLayers.dropLast.map (·.lines)).take (k + 2)).flatten ++ l :: (r ++ c) by simp] at hc
    rw [hv] at hrule
    rw [hc] at hest
    obtain ⟨r1, r2⟩ := rule_apart hest hrule hu' hch
    rw [hw] at r1
    have r1 := Option.some.inj r1
    have hb := pyRound_bound env.mode 2 u'
    norm_num at hb
    rw [← r1] at hb
    have hb := abs_le.1 hb
    have : v < w := by
      rcases abs_cases (u' - v) with ⟨ha, _⟩ | ⟨ha, _⟩ <;> rw [ha] at r2 <;> linarith [hb.1, hb.2]
    exact ⟨by linarith, fun _ _ _ => this⟩
  · have hz := c1.last M.z (by
      rw [List.length_map, show g.allLayers.dropLast.length - 1 = k + 1 by omega, List.getElem?_map, hM1]; rfl) (fun e => c3 (List.map_eq_nil_iff.1 e))
    have ht : (g.allLayers.dropLast.map (·.lines)).take (k + 2) = g.allLayers.dropLast.map (·.lines) := List.take_of_length_le (by simp; simp at hlast; omega)
    rw [ht] at hu'
    rw [hu', hw] at hz
    obtain rfl := Option.some.inj hz
    refine ⟨by linarith, fun N hN hn => ?_⟩
    exact absurd (hin hN hn).1 hlast

/-- A program that rises in steps of 0.012 mm and at last by 0.001 mm. -/
def fine : List Str := [c!"G1 Z0.2", c!"G1 X1 E1", c!"G1 Z0.212", c!"G1 X2 E2", c!"G1 Z0.227", c!"G1 X1 E3", c!"G1 Z0.228", c!"G1 X2 E4"]

/-- The hypotheses are met by a program with steps below 0.015 mm; its last layer is recorded below the one before. -/
example : GCode.load qEnv fine = .ok (loadQ fine) ∧ (loadQ fine).est = none ∧ NeverDown (loadQ fine).lines ∧
    (loadQ fine).allLayers.map (fun L => (L.lines.length, L.z)) =
      [(0, none), (2, some (2 / 10)), (2, some (21 / 100)), (2, some (23 / 100)), (2, some (228 / 1000)), (0, none)] :=
  ⟨by decide +kernel, by decide +kernel, neverDown_of_splits (by decide +kernel), by decide +kernel⟩

/-- C121 is false in general: a spiral that only rises, with layers recorded at 0.7, 0.6, 0.82, 0.8 mm. -/
theorem C121_refuted : GCode.load qEnv vase = .ok (loadQ vase) ∧ NeverDown (loadQ vase).lines ∧
    (loadQ vase).allLayers.map (fun L => (L.lines.length, L.z)) =
      [(0, none), (2, some (3 / 10)), (2, some (5 / 10)), (2, some (7 / 10)), (1, some (6 / 10)), (3, some (82 / 100)), (1, some (8 / 10)),
       (1, some (101 / 100)), (0, none)] :=
  ⟨by decide +kernel, neverDown_of_splits (by decide +kernel), by decide +kernel⟩

end GCodeUtils
