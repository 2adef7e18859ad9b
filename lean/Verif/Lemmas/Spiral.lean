import Verif.Spec.Spiral
import Verif.Lemmas.Apart

set_option linter.unusedSectionVars false

namespace GCodeUtils

open Spec

variable {α : Type} [Field α] [LinearOrder α] [IsStrictOrderedRing α] [FloorRing α]

theorem leaves_snoc (z : Option α) (ls : List (PyLine α)) (l : PyLine α) :
    leaves z (ls ++ [l]) = leaves z ls ++
      (if heightStep (ls.foldl heightStep z) l ≠ ls.foldl heightStep z then (ls.foldl heightStep z).toList else []) := by
  induction ls generalizing z with
  | nil =>
    change (if heightStep z l ≠ z then z.toList else []) ++ [] = [] ++ (if heightStep z l ≠ z then z.toList else [])
    rw [List.append_nil, List.nil_append]
  | cons x xs ih => rw [List.cons_append, leaves, leaves, ih, List.append_assoc]; rfl

theorem leftHeights_same {ls : List (PyLine α)} {l : PyLine α} (h : heightAfter (ls ++ [l]) = heightAfter ls) :
    leftHeights (ls ++ [l]) = leftHeights ls := by
  unfold leftHeights
  rw [heightAfter_snoc] at h
  rw [leaves_snoc, if_neg (by rw [not_not]; exact h), List.append_nil]

theorem leftHeights_new {ls : List (PyLine α)} {l : PyLine α} (h : heightAfter (ls ++ [l]) ≠ heightAfter ls) :
    leftHeights (ls ++ [l]) = leftHeights ls ++ (heightAfter ls).toList := by
  unfold leftHeights
  rw [heightAfter_snoc] at h
  rw [leaves_snoc, if_pos (by exact h)]
  rfl

theorem diffs_zip (zs : List α) : diffs zs = List.zipWith (fun a b => b - a) zs zs.tail := by
  induction zs with
  | nil => rfl
  | cons a r ih =>
    cases r with
    | nil => rfl
    | cons b r => simp only [diffs, List.tail_cons, List.zipWith_cons_cons]; rw [ih]; rfl

theorem stepsOf_eq (mode : RoundMode) (zs : List α) : stepsOf mode zs = ((diffs zs).map (pyRound mode 3)).filter (· ≠ 0) := by
  rw [diffs_zip, stepsOf, List.map_zipWith]

theorem estimate_typical (mode : RoundMode) (Ls : List (Layer α)) : Typical mode (Ls.filterMap (·.z)) (estimateHeight mode Ls) := by
  refine ⟨(Ls.filterMap (·.z)).insertionSort (· ≤ ·), List.perm_insertionSort _ _, ?_, ?_⟩
  · exact List.pairwise_insertionSort _ _
  · rw [stepsOf_eq]
    unfold estimateHeight
    simp only
    generalize (((diffs ((Ls.filterMap (·.z)).insertionSort (· ≤ ·))).map (pyRound mode 3)).filter (· ≠ 0)) = hs
    rcases hs with _ | ⟨a, _ | ⟨b, r⟩⟩
    · exact .inr (.inr ⟨rfl, rfl⟩)
    · exact .inr (.inl rfl)
    · exact .inl ⟨a, r, rfl⟩

theorem steps_pos {mode : RoundMode} {ss : List α} (h : ss.Pairwise (· ≤ ·)) : ∀ d ∈ stepsOf mode ss, 0 < d := by
  rw [stepsOf_eq]
  intro d hd
  rw [List.mem_filter, List.mem_map] at hd
  obtain ⟨⟨x, hx, rfl⟩, hn⟩ := hd
  have hx0 : 0 ≤ x := by
    clear hn
    induction ss with
    | nil => simp [diffs] at hx
    | cons a r ih =>
      cases r with
      | nil => simp [diffs] at hx
      | cons b r =>
        rw [List.pairwise_cons] at h
        simp only [diffs, List.mem_cons] at hx
        rcases hx with rfl | hx
        · exact sub_nonneg.2 (h.1 b (by simp))
        · exact ih h.2 hx
  have h0 : pyRound mode 3 (0 : α) = 0 := by simpa using pyRound_natCast (α := α) mode 3 0
  have := pyRound_mono mode 3 hx0
  rw [h0] at this
  exact lt_of_le_of_ne this (Ne.symm (by simpa using hn))

theorem typical_pos {mode : RoundMode} {zs : List α} {h : α} (ht : Typical mode zs h) : 0 < h := by
  obtain ⟨ss, _, hs, ⟨d, r, e⟩ | e | ⟨_, rfl⟩⟩ := ht
  · exact steps_pos hs h (by rw [e]; simp)
  · exact steps_pos hs h (by rw [e]; simp)
  · norm_num

theorem layerHeight_pos {mode : RoundMode} {us : List α} {h : α} (hl : LayerHeight mode us (some h)) : 0 < h := by
  rcases hl with ⟨e, _⟩ | ⟨_, _, _, _, h', _, _, _, _, ht, e⟩
  · simp at e
  · rw [Option.some.inj e]; exact typical_pos ht

theorem layerHeight_unique {mode : RoundMode} {us : List α} {e e' : Option α} (h : LayerHeight mode us e) (h' : LayerHeight mode us e') : e = e' := by
  have typ : ∀ {zs : List α} {x y : α}, Typical mode zs x → Typical mode zs y → x = y := by
    rintro zs x y ⟨ss, p, hs, hx⟩ ⟨ss', p', hs', hy⟩
    obtain rfl : ss = ss' := (p.trans p'.symm).eq_of_pairwise (fun a b _ _ h1 h2 => le_antisymm h1 h2) hs hs'
    rcases hx with ⟨d, r, hx⟩ | hx | ⟨hx, rfl⟩ <;> rcases hy with ⟨d', r', hy⟩ | hy | ⟨hy, rfl⟩ <;> rw [hx] at hy <;> simp at hy
    · exact hy.2.1
    · exact hy
  rcases h with ⟨rfl, h⟩ | ⟨a, p, b, z, x, e1, e2, e3, e4, e5, rfl⟩
  · rcases h' with ⟨rfl, _⟩ | ⟨a, p, b, z, x, e1, e2, e3, _⟩
    · rfl
    · exact absurd e3 (not_lt.2 (h a p b e1 z e2))
  · rcases h' with ⟨rfl, h'⟩ | ⟨a', p', b', z', x', f1, f2, f3, f4, f5, rfl⟩
    · exact absurd e3 (not_lt.2 (h' a p b e1 z e2))
    · have : a = a' := by
        rw [e1] at f1
        rcases List.append_eq_append_iff.1 f1 with ⟨c, c1, c2⟩ | ⟨c, c1, c2⟩
        · cases c with
          | nil => simpa using c1.symm
          | cons q c =>
            simp at c2
            obtain ⟨rfl, c2⟩ := c2
            exact absurd e3 (not_lt.2 (f4 a p c c1 z e2))
        · cases c with
          | nil => simpa using c1
          | cons q c =>
            simp at c2
            obtain ⟨rfl, c2⟩ := c2
            exact absurd f3 (not_lt.2 (e4 a' p' c c1 z' f2))
      subst this
      rw [typ e5 f5]

theorem layerHeight_more {mode : RoundMode} {us vs : List α} {h : α} (hl : LayerHeight mode us (some h)) : LayerHeight mode (us ++ vs) (some h) := by
  rcases hl with ⟨e, _⟩ | ⟨a, p, b, z, h', e, r⟩
  · simp at e
  · exact .inr ⟨a, p, b ++ vs, z, h', by rw [e]; simp, r⟩

theorem noneClose_snoc {mode : RoundMode} {us : List α} {p : α} (h : NoneClose mode us)
    (hp : ∀ z, (recorded mode us).getLast? = some z → 1 / 100 ≤ |p - z|) : NoneClose mode (us ++ [p]) := by
  intro a q b e z hz
  rcases List.eq_nil_or_concat b with rfl | ⟨b', y, rfl⟩
  · obtain ⟨rfl, e2⟩ := List.append_inj' e rfl
    obtain rfl : p = q := by simpa using e2
    exact hp z hz
  · rw [List.concat_eq_append, ← List.cons_append, ← List.append_assoc] at e
    obtain ⟨rfl, _⟩ := List.append_inj' e rfl
    exact h a q b' rfl z hz

theorem recorded_snoc {mode : RoundMode} {us : List α} (p : α) (h : us ≠ []) : recorded mode (us ++ [p]) = recorded mode us ++ [pyRound mode 2 p] := by
  cases us with
  | nil => exact absurd rfl h
  | cons u us => simp [recorded]

theorem recorded_nil {mode : RoundMode} {us : List α} (h : recorded mode us = []) : us = [] := by
  cases us with
  | nil => rfl
  | cons u us => simp [recorded] at h

theorem pyMod_floor {p h : α} (hh : 0 < h) : p - pyMod p h = (⌊p / h⌋ : ℤ) * h ∧ ((⌊p / h⌋ : ℤ) : α) * h ≤ p ∧ p < (((⌊p / h⌋ : ℤ) : α) + 1) * h := by
  refine ⟨by unfold pyMod; ring, ?_, ?_⟩
  · rw [← le_div_iff₀ hh]; exact Int.floor_le _
  · rw [← div_lt_iff₀ hh]; exact Int.lt_floor_add_one _

theorem recordedAt_later {mode : RoundMode} {e : Option α} {h : α} {u v : Option α} (he : e = none ∨ e = some h) (hr : RecordedAt mode e u v) :
    RecordedAt mode (some h) u v := by
  rcases hr with hr | ⟨p, hp, hr | ⟨k, hk, r⟩⟩
  · exact .inl hr
  · exact .inr ⟨p, hp, .inl hr⟩
  · rcases he with he | he
    · rw [he] at hk; simp at hk
    · rw [he] at hk; rw [Option.some.inj hk]; exact .inr ⟨p, hp, .inr ⟨k, rfl, r⟩⟩

/-- What the loop has found out about the layer height. -/
structure SpiralInv (mode : RoundMode) (s : BuildSt α) : Prop where
  none_ : s.ls.est = none → s.ls.allLayers.filterMap (·.z) = recorded mode (leftHeights s.done) ∧
    s.ls.lastLayerZ = (recorded mode (leftHeights s.done)).getLast? ∧
    (s.ls.prevBaseZ = none ∧ leftHeights s.done = [] ∨ s.ls.prevBaseZ = some s.ls.lastLayerZ) ∧ (s.ls.curZ = none → leftHeights s.done = [])
  est : LayerHeight mode (leftHeights s.done) s.ls.est
  lay : ∀ k L, s.ls.allLayers[k]? = some L → RecordedAt mode s.ls.est (heightAfter ((closedLines s.ls).take (k + 1)).flatten) L.z

/-- The height under which the layer that ends is recorded, and the layer height then. -/
theorem spiral_base {mode : RoundMode} {s : BuildSt α} (hh : HeightInv s) (hi : SpiralInv mode s) :
    RecordedAt mode (baseZ mode s.ls).2 s.ls.curZ (baseZ mode s.ls).1 ∧
    LayerHeight mode (leftHeights s.done ++ s.ls.curZ.toList) (baseZ mode s.ls).2 ∧
    ((baseZ mode s.ls).2 = none → s.ls.est = none ∧ (some (baseZ mode s.ls).1 = s.ls.prevBaseZ → s.ls.curZ = none) ∧
      s.ls.allLayers.filterMap (·.z) ++ (baseZ mode s.ls).1.toList = recorded mode (leftHeights s.done ++ s.ls.curZ.toList) ∧
      (baseZ mode s.ls).1 = (recorded mode (leftHeights s.done ++ s.ls.curZ.toList)).getLast?) ∧
    (s.ls.est = none ∨ s.ls.est = (baseZ mode s.ls).2) := by
  have hest := hi.est
  unfold baseZ
  rw [hh.prev]
  cases hz : s.ls.curZ with
  | none =>
    refine ⟨.inl rfl, by simpa using hest, fun he => ?_, .inr rfl⟩
    obtain ⟨a, b, c, d⟩ := hi.none_ he
    have d := d hz
    refine ⟨he, fun _ => rfl, by rw [a]; simp, by rw [d]; simp [recorded]⟩
  | some p =>
    cases hl : s.ls.lastLayerZ with
    | none =>
      refine ⟨.inl rfl, ?_, fun he => ?_, .inr rfl⟩
      · cases he : s.ls.est with
        | some h => simp only; rw [he] at hest; exact layerHeight_more hest
        | none =>
          rw [he] at hest
          rcases hest with ⟨_, hn⟩ | ⟨_, _, _, _, _, _, _, _, _, _, e⟩
          · refine .inl ⟨rfl, noneClose_snoc hn fun z hz => ?_⟩
            rw [← (hi.none_ he).2.1, hl] at hz; simp at hz
          · simp at e
      · obtain ⟨a, b, c, d⟩ := hi.none_ he
        rw [hl] at b
        have hn := recorded_nil (List.getLast?_eq_none_iff.1 b.symm)
        refine ⟨he, fun hc => ?_, by rw [a, hn]; simp [recorded], by rw [hn]; simp [recorded]⟩
        rcases c with ⟨c, _⟩ | c
        · rw [c] at hc; simp at hc
        · rw [c, hl] at hc; simp at hc
    | some z =>
      simp only
      cases he : s.ls.est with
      | some h =>
        have hpos := layerHeight_pos (he ▸ hest)
        simp only
        rw [if_pos hpos.ne']
        obtain ⟨f1, f2, f3⟩ := pyMod_floor (p := p) hpos
        rw [he] at hest
        by_cases hc : |p - z| < h
        · rw [if_pos hc]
          exact ⟨.inr ⟨p, rfl, .inr ⟨h, rfl, ⌊p / h⌋, f2, f3, by rw [f1]⟩⟩, layerHeight_more hest, fun e => by simp at e, .inr rfl⟩
        · rw [if_neg hc]
          exact ⟨.inr ⟨p, rfl, .inl rfl⟩, layerHeight_more hest, fun e => by simp at e, .inr rfl⟩
      | none =>
        obtain ⟨a, b, c, d⟩ := hi.none_ he
        rw [hl] at b
        have hnil : leftHeights s.done ≠ [] := by intro h0; rw [h0] at b; simp [recorded] at b
        rw [he] at hest
        have hn : NoneClose mode (leftHeights s.done) := by
          rcases hest with ⟨_, hn⟩ | ⟨_, _, _, _, _, _, _, _, _, _, e⟩
          · exact hn
          · simp at e
        simp only
        by_cases hc : |p - z| < 1 / 100
        · rw [if_pos hc]
          have ht := estimate_typical mode s.ls.allLayers
          rw [a] at ht
          obtain ⟨f1, f2, f3⟩ := pyMod_floor (p := p) (typical_pos ht)
          exact ⟨.inr ⟨p, rfl, .inr ⟨_, rfl, ⌊p / _⌋, f2, f3, by rw [f1]⟩⟩, .inr ⟨_, p, [], z, _, by simp, b.symm, hc, hn, ht, rfl⟩, fun e => by simp at e, .inl (by trivial)⟩
        · rw [if_neg hc]
          refine ⟨.inr ⟨p, rfl, .inl rfl⟩, .inl ⟨rfl, noneClose_snoc hn fun w hw => ?_⟩, fun _ => ⟨by trivial, fun hc2 => ?_, ?_, ?_⟩, .inl (by trivial)⟩
          · rw [← b] at hw; rw [← Option.some.inj hw]; exact not_lt.1 hc
          · rcases c with ⟨_, c⟩ | c
            · exact absurd c hnil
            · rw [c, hl] at hc2
              have e := Option.some.inj (Option.some.inj hc2)
              have hr := pyRound_bound mode 2 p
              norm_num at hr
              rw [e, abs_sub_comm] at hr
              exact absurd (lt_of_le_of_lt hr (by norm_num)) hc
          · simp only [Option.toList]; rw [recorded_snoc p hnil, a]
          · simp only [Option.toList]; rw [recorded_snoc p hnil]; simp

theorem spiralInv_step {env : Env α} {home : Home α} {s s' : BuildSt α} {l0 : PyLine α} (hh : HeightInv s) (hi : SpiralInv env.mode s) (hl0 : l0.extruding = none)
    (h : buildStep env false home s l0 = .ok s') : SpiralInv env.mode s' := by
  obtain ⟨l, hd, hc, hp, hcase⟩ := buildStep_layer h hh.prev hl0
  obtain ⟨b1, b2, b3, b4⟩ := spiral_base hh hi
  have hcur : heightAfter (s.done ++ [l]) = s'.ls.curZ := by rw [heightAfter_snoc, ← hh.cur, ← hc]
  have hsome : s'.ls.curZ = none → s.ls.curZ = none := by
    intro h0
    rw [hc] at h0
    unfold heightStep at h0
    cases hz : s.ls.curZ with
    | none => rfl
    | some z =>
      rw [hz] at h0
      split_ifs at h0
      all_goals exact absurd h0 (by cases l.z <;> simp)
  rcases hcase with ⟨a1, a2, a3, a4, a5, a6 | a6⟩ | ⟨d, a1, a2, a3, a4, a5, a6, a7, a8, a9⟩
  · have hl : leftHeights s'.done = leftHeights s.done := by
      rw [hd]; exact leftHeights_same (by rw [hcur, a6.1, hh.cur])
    have hcl : closedLines s'.ls = closedLines s.ls := by unfold closedLines; rw [a1]
    refine ⟨?_, ?_, ?_⟩
    · rw [a6.2.2, a1, hl, a4, a6.2.1, a6.1]; exact hi.none_
    · rw [hl, a6.2.2]; exact hi.est
    · rw [a1, hcl, a6.2.2]; exact hi.lay
  · have hl : leftHeights s'.done = leftHeights s.done ++ s.ls.curZ.toList := by
      rw [hd, hh.cur]; exact leftHeights_new (by rw [hcur, ← hh.cur]; exact a6.1)
    have hcl : closedLines s'.ls = closedLines s.ls := by unfold closedLines; rw [a1]
    refine ⟨fun he => ?_, ?_, ?_⟩
    · rw [a6.2.2.2] at he
      obtain ⟨c1, c2, c3, c4⟩ := b3 he
      have c2 := c2 a6.2.2.1
      obtain ⟨e1, e2, e3, e4⟩ := hi.none_ c1
      have hl' : leftHeights s'.done = leftHeights s.done := by rw [hl, c2]; simp
      rw [a1, hl', a4, a6.2.1]
      exact ⟨e1, e2, e3, fun _ => e4 c2⟩
    · rw [hl, a6.2.2.2]; exact b2
    · rw [a1, hcl, a6.2.2.2]
      intro k L hL
      rcases b4 with b4 | b4
      · have := hi.lay k L hL
        cases he : (baseZ env.mode s.ls).2 with
        | none => rw [← b4]; exact this
        | some x => exact recordedAt_later (.inl b4) this
      · rw [← b4]; exact hi.lay k L hL
  · have hl : leftHeights s'.done = leftHeights s.done ++ s.ls.curZ.toList := by
      rw [hd, hh.cur]; exact leftHeights_new (by rw [hcur, ← hh.cur]; exact a5)
    have hcl : closedLines s'.ls = closedLines s.ls ++ [s.ls.curLines] := by unfold closedLines; rw [a1]; simp
    have hlen : (closedLines s.ls).length = s.ls.allLayers.length := by simp [closedLines]
    have hfl : (closedLines s.ls).flatten ++ s.ls.curLines = s.done := hh.inv.1.flat.symm
    refine ⟨fun he => ?_, ?_, ?_⟩
    · rw [a9] at he
      obtain ⟨c1, c2, c3, c4⟩ := b3 he
      rw [a1, hl, a7, a8]
      refine ⟨?_, c4, .inr rfl, fun h0 => ?_⟩
      · rw [← c3, List.filterMap_append]
        cases (baseZ env.mode s.ls).1 <;> simp
      · rw [hsome h0, (hi.none_ c1).2.2.2 (hsome h0)]; rfl
    · rw [hl, a9]; exact b2
    · rw [a9]
      intro k L hL
      rw [a1] at hL
      rw [hcl]
      by_cases hk : k < s.ls.allLayers.length
      · rw [List.getElem?_append_left hk] at hL
        rw [List.take_append_of_le_length (by omega)]
        have := hi.lay k L hL
        rcases b4 with b4 | b4
        · cases he : (baseZ env.mode s.ls).2 with
          | none => rw [← b4]; exact this
          | some x => exact recordedAt_later (.inl b4) this
        · rw [← b4]; exact this
      · rw [List.getElem?_append_right (by omega)] at hL
        have hk' : k = s.ls.allLayers.length := by
          by_contra hx
          rw [List.getElem?_eq_none (by simp; omega)] at hL
          simp at hL
        subst hk'
        simp at hL
        subst hL
        rw [List.take_of_length_le (by simp [hlen])]
        rw [show (closedLines s.ls ++ [s.ls.curLines]).flatten = s.done by rw [← hfl]; simp, ← hh.cur]
        exact b1

theorem spiral_start {mode : RoundMode} (home : Home α) : SpiralInv mode (BuildSt.start (GCode.blank false home)) := by
  refine ⟨?_, ?_, ?_⟩
  · intro _; simp [BuildSt.start, GCode.blank, leftHeights, leaves, recorded]
  · refine .inl ⟨rfl, ?_⟩
    intro a p b e
    simp [BuildSt.start, leftHeights, leaves] at e
  · simp [BuildSt.start]

theorem load_spiral {env : Env α} {data : List Str} {home : Home α} {s : BuildSt α}
    (hs : (readLines data).foldlM (buildStep env false home) (BuildSt.start (GCode.blank false home)) = .ok s) :
    HeightInv s ∧ SpiralInv env.mode s := by
  have := foldlM_inv (buildStep env false home) (fun pre s => (∀ l ∈ pre, l.extruding = none) → HeightInv s ∧ SpiralInv env.mode s)
    (fun pre b s s' hp hs hl => by
      have hb := hl b (by simp)
      obtain ⟨h1, h2⟩ := hp (fun l hx => hl l (by simp [hx]))
      exact ⟨heightInv_step h1 hb hs, spiralInv_step h1 h2 hb hs⟩) _ [] _ s (fun _ => ⟨(start_height _ rfl).1, spiral_start home⟩) hs
  exact this (by simpa using readLines_fresh data)

end GCodeUtils
