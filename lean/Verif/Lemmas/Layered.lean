import Verif.Lemmas.Spiral

set_option linter.unusedSectionVars false

namespace GCodeUtils

open Spec

variable {α : Type} [Field α] [LinearOrder α] [IsStrictOrderedRing α] [FloorRing α]

/-- The lines of the layers so far, with the current one. -/
def allSoFar (s : LayerSt α) : List (List (PyLine α)) := closedLines s ++ [s.curLines]

/-- What the loop has made of the changes of height so far. -/
structure RuleInv (mode : RoundMode) (s : BuildSt α) : Prop where
  none_ : s.ls.allLayers = [] → s.ls.lastLayerZ = none ∧ s.ls.prevBaseZ = none
  lastz : ∀ L, s.ls.allLayers.getLast? = some L → s.ls.lastLayerZ = L.z ∧ s.ls.prevBaseZ = some L.z
  begins : ∀ k l r, (allSoFar s.ls)[k + 1]? = some (l :: r) →
    heightAfter (((allSoFar s.ls).take (k + 1)).flatten ++ [l]) ≠ heightAfter ((allSoFar s.ls).take (k + 1)).flatten
  inside : ∀ k a l b, (allSoFar s.ls)[k]? = some (a ++ l :: b) → k = 0 ∨ a ≠ [] →
    heightAfter (((allSoFar s.ls).take k).flatten ++ a ++ [l]) ≠ heightAfter (((allSoFar s.ls).take k).flatten ++ a) →
      ∃ j v, k = j + 1 ∧ (s.ls.allLayers.map (·.z))[j]? = some v ∧
        Rule mode (leftHeights (((allSoFar s.ls).take k).flatten ++ a)) v (heightAfter (((allSoFar s.ls).take k).flatten ++ a)) v
  rule : ∀ k v w, (s.ls.allLayers.map (·.z))[k]? = some v → (s.ls.allLayers.map (·.z))[k + 1]? = some w →
    Rule mode (leftHeights ((closedLines s.ls).take (k + 2)).flatten) v (heightAfter ((closedLines s.ls).take (k + 2)).flatten) w ∧ w ≠ v
  first : ∀ w, (s.ls.allLayers.map (·.z))[0]? = some w → w = heightAfter ((closedLines s.ls).take 1).flatten

/-- The base height the code computes is the one of the rule. -/
theorem rule_base {mode : RoundMode} {s : BuildSt α} (hh : HeightInv s) (hi : SpiralInv mode s) :
    Rule mode (leftHeights s.done) s.ls.lastLayerZ s.ls.curZ (baseZ mode s.ls).1 := by
  intro e0 e1 h0 h1
  have he0 : s.ls.est = e0 := layerHeight_unique hi.est h0
  have he1 : (baseZ mode s.ls).2 = e1 := layerHeight_unique (spiral_base hh hi).2.1 h1
  have hpos : ∀ h, e0 = some h → 0 < h := fun h e => layerHeight_pos (e ▸ h0)
  have hpos1 : ∀ h, e1 = some h → 0 < h := fun h e => layerHeight_pos (e ▸ h1)
  have hoff : (match s.ls.est with | some h => if h ≠ 0 then h else 1 / 100 | none => (1 / 100 : α)) = e0.getD (1 / 100) := by
    rw [he0]
    cases he : e0 with
    | none => rfl
    | some h => simp [(hpos h he).ne']
  refine ⟨?_, ?_, ?_⟩
  · intro x p hx hp hc
    unfold baseZ at he1 ⊢
    rw [hh.prev, hp, hx] at he1 ⊢
    simp only at he1 ⊢
    split_ifs at he1 ⊢ with hc'
    swap
    · exact absurd (lt_of_lt_of_eq hc hoff.symm) hc'
    have hp1 := hpos1 _ he1.symm
    obtain ⟨f1, f2, f3⟩ := pyMod_floor (p := p) hp1
    exact ⟨_, he1.symm, _, f2, f3, by rw [f1]⟩
  · intro x p hx hp hc
    unfold baseZ
    rw [hh.prev, hp, hx]
    simp only
    split_ifs with hc'
    · exact absurd (lt_of_lt_of_le (lt_of_lt_of_eq hc' hoff) hc) (lt_irrefl _)
    · rfl
  · intro h
    unfold baseZ
    rw [hh.prev]
    rcases h with h | h
    · rw [h]; cases s.ls.curZ <;> rfl
    · rw [h]

theorem ruleInv_step {env : Env α} {home : Home α} {s s' : BuildSt α} {l0 : PyLine α} (hh : HeightInv s) (hs : SpiralInv env.mode s) (hi : RuleInv env.mode s)
    (hl0 : l0.extruding = none) (h : buildStep env false home s l0 = .ok s') : RuleInv env.mode s' := by
  obtain ⟨l, hd, hc, hp, hcase⟩ := buildStep_layer h hh.prev hl0
  have hrule := rule_base hh hs
  have hcur : heightAfter (s.done ++ [l]) = s'.ls.curZ := by rw [heightAfter_snoc, ← hh.cur, ← hc]
  have hfl : (closedLines s.ls).flatten ++ s.ls.curLines = s.done := hh.inv.1.flat.symm
  have hlen : (closedLines s.ls).length = s.ls.allLayers.length := by simp [closedLines]
  have hsplit : ∀ {x a b : List (PyLine α)} {y : PyLine α}, x ++ [l] = a ++ y :: b → (a = x ∧ y = l ∧ b = []) ∨ ∃ b', x = a ++ y :: b' ∧ b = b' ++ [l] := by
    intro x a b y he
    rcases List.eq_nil_or_concat b with rfl | ⟨b', z, rfl⟩
    · obtain ⟨h1, h2⟩ := List.append_inj' he rfl
      left; exact ⟨h1.symm, by simpa using h2.symm, rfl⟩
    · right
      rw [List.concat_eq_append, ← List.cons_append, ← List.append_assoc] at he
      obtain ⟨h1, h2⟩ := List.append_inj' he rfl
      exact ⟨b', h1, by rw [List.concat_eq_append, h2]⟩
  by_cases hstay : s'.ls.allLayers = s.ls.allLayers
  · -- the line stays in the layer
    obtain ⟨a2, a4, hin⟩ : s'.ls.curLines = s.ls.curLines ++ [l] ∧ (s'.ls.lastLayerZ = s.ls.lastLayerZ ∧ s'.ls.prevBaseZ = s.ls.prevBaseZ) ∧
        (s'.ls.curZ = s.ls.curZ ∨ some (baseZ env.mode s.ls).1 = s.ls.prevBaseZ) := by
      rcases hcase with ⟨a1, a2, a3, a4, a5, a6 | a6⟩ | ⟨d, a1, _⟩
      · exact ⟨a2, ⟨a4, a6.2.1⟩, .inl a6.1⟩
      · exact ⟨a2, ⟨a4, a6.2.1⟩, .inr a6.2.2.1⟩
      · rw [a1] at hstay; simp at hstay
    have hcl : closedLines s'.ls = closedLines s.ls := by unfold closedLines; rw [hstay]
    have hold : ∀ k, k < (closedLines s.ls).length → (allSoFar s'.ls)[k]? = (allSoFar s.ls)[k]? := by
      intro k hk
      unfold allSoFar
      rw [hcl, List.getElem?_append_left hk, List.getElem?_append_left hk]
    have hnew : (allSoFar s'.ls)[(closedLines s.ls).length]? = some (s.ls.curLines ++ [l]) := by
      unfold allSoFar; rw [hcl, a2]; simp
    have hnewo : (allSoFar s.ls)[(closedLines s.ls).length]? = some s.ls.curLines := by unfold allSoFar; simp
    have hout : ∀ k, (closedLines s.ls).length < k → (allSoFar s'.ls)[k]? = none := by
      intro k hk; unfold allSoFar; rw [hcl]; exact List.getElem?_eq_none (by simp; omega)
    have htake : ∀ k, k ≤ (closedLines s.ls).length → (allSoFar s'.ls).take k = (allSoFar s.ls).take k := by
      intro k hk
      unfold allSoFar
      rw [hcl, List.take_append_of_le_length hk, List.take_append_of_le_length hk]
    have htakeo : (allSoFar s.ls).take (closedLines s.ls).length = closedLines s.ls := by unfold allSoFar; simp
    refine ⟨by rw [hstay, a4.1, a4.2]; exact hi.none_, by rw [hstay, a4.1, a4.2]; exact hi.lastz, ?_, ?_, by rw [hstay, hcl]; exact hi.rule, by rw [hstay, hcl]; exact hi.first⟩
    · intro k x r hk
      rcases lt_trichotomy (k + 1) (closedLines s.ls).length with hlt | heq | hgt
      · rw [hold _ hlt] at hk
        rw [htake _ hlt.le]
        exact hi.begins k x r hk
      · rw [heq, hnew] at hk
        rw [htake _ heq.le, heq]
        have hne := hh.inv.2 (by intro h0; rw [hlen, h0] at heq; simp at heq)
        obtain ⟨y, ys, hy⟩ := List.exists_cons_of_ne_nil hne
        rw [hy] at hk
        have hx : y = x := by simpa using congrArg (Option.map List.head?) hk
        subst hx
        have := hi.begins k y ys (by rw [heq, hnewo, hy])
        rw [heq] at this
        exact this
      · rw [hout _ hgt] at hk; simp at hk
    · intro k a x b hk hne hch
      rw [hstay]
      rcases lt_trichotomy k (closedLines s.ls).length with hlt | heq | hgt
      · rw [hold _ hlt] at hk
        rw [htake _ hlt.le] at hch ⊢
        exact hi.inside k a x b hk hne hch
      · rw [heq, hnew] at hk
        rw [htake _ heq.le, heq] at hch ⊢
        rcases hsplit (Option.some.inj hk) with ⟨rfl, rfl, rfl⟩ | ⟨b', hb', rfl⟩
        · rw [htakeo, hfl] at hch ⊢
          rw [hcur, ← hh.cur] at hch
          rw [← hh.cur]
          have hin := hin.resolve_left hch
          by_cases h0 : s.ls.allLayers = []
          · rw [(hi.none_ h0).2] at hin; simp at hin
          · obtain ⟨L, hL⟩ : ∃ L, s.ls.allLayers.getLast? = some L := ⟨_, List.getLast?_eq_some_getLast h0⟩
            obtain ⟨q1, q2⟩ := hi.lastz L hL
            rw [q2] at hin
            have hin := Option.some.inj hin
            rw [q1, hin] at hrule
            have hpos : 0 < s.ls.allLayers.length := List.length_pos_of_ne_nil h0
            refine ⟨s.ls.allLayers.length - 1, L.z, by rw [hlen]; omega, ?_, hrule⟩
            rw [List.getElem?_map, ← List.getLast?_eq_getElem?, hL]; rfl
        · rw [← heq] at hch ⊢
          exact hi.inside k a x b' (by rw [heq, hnewo, hb']) hne hch
      · rw [hout _ hgt] at hk; simp at hk
  · -- the line begins a layer
    obtain ⟨d, a1, a2, a5, a6, a7, a8⟩ : ∃ d, s'.ls.allLayers = s.ls.allLayers ++ [{ lines := s.ls.curLines, z := (baseZ env.mode s.ls).1, duration := d }] ∧ s'.ls.curLines = [l] ∧
        s'.ls.curZ ≠ s.ls.curZ ∧ some (baseZ env.mode s.ls).1 ≠ s.ls.prevBaseZ ∧ s'.ls.lastLayerZ = (baseZ env.mode s.ls).1 ∧
        s'.ls.prevBaseZ = some (baseZ env.mode s.ls).1 := by
      rcases hcase with ⟨a1, _⟩ | ⟨d, a1, a2, a3, a4, a5, a6, a7, a8, a9⟩
      · exact absurd a1 hstay
      · exact ⟨d, a1, a2, a5, a6, a7, a8⟩
    have hcl : closedLines s'.ls = closedLines s.ls ++ [s.ls.curLines] := by unfold closedLines; rw [a1]; simp
    have hdone : (closedLines s.ls ++ [s.ls.curLines]).flatten = s.done := by rw [← hfl]; simp
    have hall : allSoFar s'.ls = allSoFar s.ls ++ [[l]] := by unfold allSoFar; rw [hcl, a2]
    have hallen : (allSoFar s.ls).length = (closedLines s.ls).length + 1 := by unfold allSoFar; simp
    have hallfl : (allSoFar s.ls).flatten = s.done := hdone
    have hzs : s'.ls.allLayers.map (·.z) = s.ls.allLayers.map (·.z) ++ [(baseZ env.mode s.ls).1] := by rw [a1]; simp
    have hzlen : (s.ls.allLayers.map (·.z)).length = (closedLines s.ls).length := by simp [closedLines]
    refine ⟨fun h0 => by rw [a1] at h0; simp at h0, fun L hL => ?_, ?_, ?_, ?_, ?_⟩
    · rw [a1] at hL
      simp at hL
      subst hL
      exact ⟨a7, a8⟩
    · intro k x r hk
      rw [hall] at hk ⊢
      by_cases hlt : k + 1 < (allSoFar s.ls).length
      · rw [List.getElem?_append_left hlt] at hk
        rw [List.take_append_of_le_length hlt.le]
        exact hi.begins k x r hk
      · rw [List.getElem?_append_right (by omega)] at hk
        by_cases heq : k + 1 = (allSoFar s.ls).length
        · rw [heq] at hk ⊢
          simp at hk
          rw [List.take_left, hallfl, ← hk.1, hcur, ← hh.cur]
          exact a5
        · rw [List.getElem?_eq_none (by simp; omega)] at hk; simp at hk
    · intro k a x b hk hne hch
      rw [hall] at hk hch ⊢
      by_cases hlt : k < (allSoFar s.ls).length
      · rw [List.getElem?_append_left hlt] at hk
        rw [List.take_append_of_le_length hlt.le] at hch ⊢
        obtain ⟨j, v, hj, hv, hr⟩ := hi.inside k a x b hk hne hch
        exact ⟨j, v, hj, by rw [hzs, List.getElem?_append_left (List.getElem?_eq_some_iff.1 hv).1]; exact hv, hr⟩
      · rw [List.getElem?_append_right (by omega)] at hk
        by_cases heq : k = (allSoFar s.ls).length
        · rw [heq] at hk
          simp at hk
          cases a with
          | nil => exact absurd rfl (hne.resolve_left (by omega))
          | cons y ys => simp at hk
        · rw [List.getElem?_eq_none (by simp; omega)] at hk; simp at hk
    · intro k v w hv hw
      rw [hzs] at hv hw
      rw [hcl]
      by_cases hlt : k + 1 < (closedLines s.ls).length
      · rw [List.getElem?_append_left (by omega)] at hv hw
        rw [List.take_append_of_le_length (by omega)]
        exact hi.rule k v w hv hw
      · rw [List.getElem?_append_right (l₁ := s.ls.allLayers.map (·.z)) (i := k + 1) (by omega)] at hw
        by_cases heq : k + 1 = (closedLines s.ls).length
        · rw [hzlen, heq] at hw
          simp at hw
          subst hw
          rw [List.getElem?_append_left (by omega)] at hv
          have hlast : s.ls.allLayers.getLast?.map (·.z) = some v := by
            rw [List.getLast?_eq_getElem?, ← List.getElem?_map, ← hv]
            congr 1
            omega
          cases hL : s.ls.allLayers.getLast? with
          | none => rw [hL] at hlast; simp at hlast
          | some L =>
            rw [hL] at hlast
            obtain ⟨q1, q2⟩ := hi.lastz L hL
            have hLv : L.z = v := by simpa using hlast
            rw [List.take_of_length_le (by simp; omega), hdone, ← hh.cur]
            rw [q1, hLv] at hrule
            rw [q2, hLv] at a6
            exact ⟨hrule, fun e => a6 (by rw [e])⟩
        · rw [List.getElem?_eq_none (by simp at hzlen ⊢; omega)] at hw; simp at hw
    · intro w hw
      rw [hzs] at hw
      rw [hcl]
      by_cases h0 : s.ls.allLayers = []
      · have hc0 : closedLines s.ls = [] := by unfold closedLines; rw [h0]; rfl
        rw [h0] at hw
        simp at hw
        rw [hc0] at hdone ⊢
        simp at hdone
        simp
        rw [hdone, ← hw, ← hh.cur]
        have hn : s.ls.lastLayerZ = none := (hi.none_ h0).1
        obtain ⟨e1, he1⟩ : ∃ e, LayerHeight env.mode (leftHeights s.done ++ s.ls.curZ.toList) e := ⟨_, (spiral_base hh hs).2.1⟩
        exact (hrule _ _ hs.est he1).2.2 (.inl hn)
      · have hpos : 0 < s.ls.allLayers.length := List.length_pos_of_ne_nil h0
        rw [List.getElem?_append_left (by simpa using hpos)] at hw
        rw [List.take_append_of_le_length (by omega)]
        exact hi.first w hw

theorem load_rule {env : Env α} {data : List Str} {home : Home α} {s : BuildSt α}
    (hs : (readLines data).foldlM (buildStep env false home) (BuildSt.start (GCode.blank false home)) = .ok s) :
    HeightInv s ∧ SpiralInv env.mode s ∧ RuleInv env.mode s := by
  have := foldlM_inv (buildStep env false home) (fun pre s => (∀ l ∈ pre, l.extruding = none) → HeightInv s ∧ SpiralInv env.mode s ∧ RuleInv env.mode s)
    (fun pre b s s' hp hs hl => by
      have hb := hl b (by simp)
      obtain ⟨h1, h2, h3⟩ := hp (fun l hx => hl l (by simp [hx]))
      exact ⟨heightInv_step h1 hb hs, spiralInv_step h1 h2 hb hs, ruleInv_step h1 h2 h3 hb hs⟩) _ [] _ s (fun _ => ⟨(start_height _ rfl).1, spiral_start home, by
        refine ⟨?_, ?_, ?_, ?_, ?_, ?_⟩
        · intro _; exact ⟨rfl, rfl⟩
        · intro L hL; simp [BuildSt.start] at hL
        · intro k l r hk; simp [allSoFar, closedLines, BuildSt.start] at hk
        · intro k a l b hk
          simp [allSoFar, closedLines, BuildSt.start] at hk
          rw [List.getElem?_singleton] at hk
          split_ifs at hk
          simp at hk
        · intro k v w hv; simp [BuildSt.start] at hv
        · intro w hw; simp [BuildSt.start] at hw⟩) hs
  exact this (by simpa using readLines_fresh data)

/-- At the end of the file: the layers with the current one as the last. -/
theorem ruleInv_layered {mode : RoundMode} {s : BuildSt α} (hh : HeightInv s) (hi : RuleInv mode s) :
    Layered mode (allSoFar s.ls) (s.ls.allLayers.map (·.z) ++ [s.ls.curZ]) := by
  have hfl : (allSoFar s.ls).flatten = s.done := by
    rw [show s.done = (closedLines s.ls).flatten ++ s.ls.curLines from hh.inv.1.flat]; simp [allSoFar]
  have hzlen : (s.ls.allLayers.map (·.z)).length = (closedLines s.ls).length := by simp [closedLines]
  have hallen : (allSoFar s.ls).length = (closedLines s.ls).length + 1 := by unfold allSoFar; simp
  have htake : ∀ k, k ≤ (closedLines s.ls).length → (allSoFar s.ls).take k = (closedLines s.ls).take k := by
    intro k hk
    unfold allSoFar
    rw [List.take_append_of_le_length hk]
  refine ⟨hi.begins, ?_, ?_, ?_, ?_⟩
  · intro k a l b hk hne hch
    obtain ⟨j, v, hj, hv, hr⟩ := hi.inside k a l b hk hne hch
    exact ⟨j, v, hj, by rw [List.getElem?_append_left (List.getElem?_eq_some_iff.1 hv).1]; exact hv, hr⟩
  · intro k v w hv hw hlt
    rw [List.getElem?_append_left (by omega)] at hv hw
    rw [htake _ (by omega)]
    exact hi.rule k v w hv hw
  · intro w hw
    by_cases h0 : s.ls.allLayers = []
    · rw [h0] at hw
      simp at hw
      have hc0 : closedLines s.ls = [] := by unfold closedLines; rw [h0]; rfl
      rw [List.take_of_length_le (by rw [hallen, hc0]; simp), hfl, ← hw, hh.cur]
    · have hpos : 0 < s.ls.allLayers.length := List.length_pos_of_ne_nil h0
      rw [List.getElem?_append_left (by simpa using hpos)] at hw
      rw [htake _ (by simp at hzlen; omega)]
      exact hi.first w hw
  · intro w hw _
    rw [hallen, ← hzlen] at hw
    simp at hw
    rw [hfl, ← hw, hh.cur]

theorem layerHeight_exists (mode : RoundMode) (us : List α) : ∃ e, LayerHeight mode us e := by
  have typ : ∀ zs : List α, ∃ h, Typical mode zs h := fun zs => by
    have := estimate_typical mode (zs.map fun z => ({ lines := [], z := some z, duration := none } : Layer α))
    rw [List.filterMap_map] at this
    exact ⟨_, by simpa [Function.comp_def] using this⟩
  induction us using List.reverseRecOn with
  | nil => exact ⟨none, .inl ⟨rfl, fun a p b e => by simp at e⟩⟩
  | append_singleton us p ih =>
    obtain ⟨e, he⟩ := ih
    rcases he with ⟨rfl, hn⟩ | ⟨a, q, b, z, h, e1, e2, e3, e4, e5, rfl⟩
    · by_cases hc : ∃ z, (recorded mode us).getLast? = some z ∧ |p - z| < 1 / 100
      · obtain ⟨z, h1, h2⟩ := hc
        obtain ⟨h, ht⟩ := typ (recorded mode us)
        exact ⟨some h, .inr ⟨us, p, [], z, h, by simp, h1, h2, hn, ht, rfl⟩⟩
      · refine ⟨none, .inl ⟨rfl, noneClose_snoc hn fun z hz => ?_⟩⟩
        by_contra hlt
        exact hc ⟨z, hz, not_le.1 hlt⟩
    · exact ⟨some h, .inr ⟨a, q, b ++ [p], z, h, by rw [e1]; simp, e2, e3, e4, e5, rfl⟩⟩

/-- The rule gives one height. -/
theorem rule_unique {mode : RoundMode} {us : List α} {v u w w' : Option α} (h : Rule mode us v u w) (h' : Rule mode us v u w') : w = w' := by
  obtain ⟨e0, h0⟩ := layerHeight_exists mode us
  obtain ⟨e1, h1⟩ := layerHeight_exists mode (us ++ u.toList)
  obtain ⟨a1, a2, a3⟩ := h e0 e1 h0 h1
  obtain ⟨b1, b2, b3⟩ := h' e0 e1 h0 h1
  cases v with
  | none => rw [a3 (.inl rfl), b3 (.inl rfl)]
  | some x =>
    cases u with
    | none => rw [a3 (.inr rfl), b3 (.inr rfl)]
    | some p =>
      by_cases hc : |p - x| < e0.getD (1 / 100)
      · obtain ⟨h, q, n, n1, n2, n3⟩ := a1 x p rfl rfl hc
        obtain ⟨h', q', n', m1, m2, m3⟩ := b1 x p rfl rfl hc
        obtain rfl : h = h' := by rw [q] at q'; exact Option.some.inj q'
        have hp : 0 < h := layerHeight_pos (q ▸ h1)
        have : n = n' := by
          have l1 : (n : α) < n' + 1 := lt_of_mul_lt_mul_right (lt_of_le_of_lt n1 m2) hp.le
          have l2 : (n' : α) < n + 1 := lt_of_mul_lt_mul_right (lt_of_le_of_lt m1 n2) hp.le
          have l1 : n < n' + 1 := by exact_mod_cast l1
          have l2 : n' < n + 1 := by exact_mod_cast l2
          omega
        rw [n3, m3, this]
      · rw [a2 x p rfl rfl (not_lt.1 hc), b2 x p rfl rfl (not_lt.1 hc)]

/-- Two descriptions of layers cannot part at a line that one begins a layer with and the other does not. -/
theorem layered_stop {mode : RoundMode} {Ls Ls' : List (List (PyLine α))} {zs zs' : List (Option α)} (h : Layered mode Ls zs) (h' : Layered mode Ls' zs')
    (hlen' : Ls'.length = zs'.length) 
    (hne' : ∀ L ∈ Ls'.tail, L ≠ []) {k : ℕ} (hz : ∀ j, j < k → j + 1 < Ls.length → j + 1 < Ls'.length → zs[j]? = zs'[j]?) {p b r : List (PyLine α)} {l : PyLine α}
    (ht : Ls.take k = Ls'.take k) (hk : Ls[k]? = some (p ++ l :: b)) (hk' : Ls'[k]? = some p) (hn : Ls'[k + 1]? = some (l :: r)) : False := by
  have hlt : k < Ls.length := (List.getElem?_eq_some_iff.1 hk).1
  have hlt' : k + 1 < Ls'.length := (List.getElem?_eq_some_iff.1 hn).1
  have htk : (Ls'.take (k + 1)).flatten = (Ls.take k).flatten ++ p := by rw [List.take_add_one, hk', ht]; simp
  have hch := h'.begins k l r hn
  rw [htk] at hch
  have hp : k = 0 ∨ p ≠ [] := by
    rcases Nat.eq_zero_or_pos k with h0 | h0
    · exact .inl h0
    · refine .inr (hne' p ?_)
      rw [List.mem_iff_getElem?]
      exact ⟨k - 1, by rw [List.getElem?_tail, Nat.sub_add_cancel h0]; exact hk'⟩
  obtain ⟨j, v, rfl, hv, hr⟩ := h.inside k p l b hk hp hch
  have hw : ∃ w, zs'[j + 1]? = some w := ⟨_, List.getElem?_eq_getElem (by omega)⟩
  obtain ⟨w, hw⟩ := hw
  obtain ⟨q1, q2⟩ := h'.rule j v w (by rw [← hz j (by omega) (by omega) (by omega)]; exact hv) hw (by omega)
  rw [htk] at q1
  exact q2 (rule_unique q1 hr)

theorem layered_zs {mode : RoundMode} {Ls Ls' : List (List (PyLine α))} {zs zs' : List (Option α)} (h : Layered mode Ls zs) (h' : Layered mode Ls' zs')
    (hlen : Ls.length = zs.length) (hlen' : Ls'.length = zs'.length) {k : ℕ} (ht : Ls.take k = Ls'.take k) :
    ∀ j, j < k → j + 1 < Ls.length → j + 1 < Ls'.length → zs[j]? = zs'[j]? := by
  intro j
  induction j with
  | zero =>
    intro hj hl hl'
    have e1 := List.getElem?_eq_getElem (l := zs) (i := 0) (by omega)
    have e2 := List.getElem?_eq_getElem (l := zs') (i := 0) (by omega)
    have ht1 : Ls.take 1 = Ls'.take 1 := by
      have := congrArg (List.take 1) ht
      simpa [List.take_take, Nat.min_eq_left hj] using this
    rw [e1, e2, h.first _ e1, h'.first _ e2, ht1]
  | succ j ih =>
    intro hj hl hl'
    have h0 := ih (by omega) (by omega) (by omega)
    have e0 := List.getElem?_eq_getElem (l := zs) (i := j) (by omega)
    have e1 := List.getElem?_eq_getElem (l := zs) (i := j + 1) (by omega)
    have e2 := List.getElem?_eq_getElem (l := zs') (i := j + 1) (by omega)
    have ht1 : Ls.take (j + 2) = Ls'.take (j + 2) := by
      have := congrArg (List.take (j + 2)) ht
      simpa [List.take_take, Nat.min_eq_left (show j + 2 ≤ k by omega)] using this
    have r1 := (h.rule j _ _ e0 e1 (by omega)).1
    have r2 := (h'.rule j _ _ (h0 ▸ e0) e2 (by omega)).1
    rw [ht1] at r1
    rw [e1, e2, rule_unique r1 r2]

/-- The description of the layers is complete: it is met by one division into layers with one list of recorded heights. -/
theorem layered_unique {mode : RoundMode} {Ls Ls' : List (List (PyLine α))} {zs zs' : List (Option α)} (h : Layered mode Ls zs) (h' : Layered mode Ls' zs')
    (hlen : Ls.length = zs.length) (hlen' : Ls'.length = zs'.length) (hne : ∀ L ∈ Ls.tail, L ≠ []) (hne' : ∀ L ∈ Ls'.tail, L ≠ [])
    (h0 : Ls = [] ↔ Ls' = []) (hf : Ls.flatten = Ls'.flatten) : Ls = Ls' ∧ zs = zs' := by
  have nonempty : ∀ {Ms : List (List (PyLine α))} (_ : ∀ L ∈ Ms.tail, L ≠ []) {k : ℕ}, k + 1 < Ms.length → ∃ l r, Ms[k + 1]? = some (l :: r) := by
    intro Ms hM k hk
    have : Ms[k + 1]'hk ≠ [] := hM _ (by
      rw [List.mem_iff_getElem?]
      exact ⟨k, by rw [List.getElem?_tail, List.getElem?_eq_getElem hk]⟩)
    obtain ⟨l, r, e⟩ := List.exists_cons_of_ne_nil this
    exact ⟨l, r, by rw [List.getElem?_eq_getElem hk, e]⟩
  have short : ∀ {Ms Ms' : List (List (PyLine α))} (_ : ∀ L ∈ Ms.tail, L ≠ []) (_ : Ms = [] ↔ Ms' = []) {k : ℕ}, k < Ms.length → ¬ k < Ms'.length →
      (Ms.drop k).flatten = (Ms'.drop k).flatten → False := by
    intro Ms Ms' hM h0 k hk hk' hd
    rw [List.drop_eq_nil_of_le (as := Ms') (by omega)] at hd
    cases k with
    | zero =>
      have : Ms' = [] := List.eq_nil_of_length_eq_zero (by omega)
      rw [h0.2 this] at hk
      simp at hk
    | succ k =>
      obtain ⟨l, r, e⟩ := nonempty hM hk
      rw [List.drop_eq_getElem_cons hk] at hd
      rw [List.getElem?_eq_getElem hk] at e
      rw [Option.some.inj e] at hd
      simp at hd
  have key : ∀ k, Ls.take k = Ls'.take k := by
    intro k
    induction k with
    | zero => simp
    | succ k ih =>
      have hz := layered_zs h h' hlen hlen' ih
      have hdrop : (Ls.drop k).flatten = (Ls'.drop k).flatten := by
        have e1 : Ls.flatten = (Ls.take k).flatten ++ (Ls.drop k).flatten := by rw [← List.flatten_append, List.take_append_drop]
        have e2 : Ls'.flatten = (Ls'.take k).flatten ++ (Ls'.drop k).flatten := by rw [← List.flatten_append, List.take_append_drop]
        rw [e1, e2, ih] at hf
        exact List.append_cancel_left hf
      by_cases hk : k < Ls.length
      · by_cases hk' : k < Ls'.length
        · have e1 := List.getElem?_eq_getElem hk
          have e2 := List.getElem?_eq_getElem hk'
          rw [List.take_add_one, List.take_add_one, ih, e1, e2]
          congr 2
          generalize hp : Ls[k] = p at *
          generalize hp' : Ls'[k] = p' at *
          rw [List.drop_eq_getElem_cons hk, List.drop_eq_getElem_cons hk', hp, hp', List.flatten_cons, List.flatten_cons] at hdrop
          rcases List.append_eq_append_iff.1 hdrop with ⟨c, c1, c2⟩ | ⟨c, c1, c2⟩
          · cases c with
            | nil => simpa using c1.symm
            | cons l c =>
              exfalso
              have hk1 : k + 1 < Ls.length := by
                by_contra hcon
                rw [List.drop_eq_nil_of_le (by omega)] at c2; simp at c2
              obtain ⟨l', r, hr⟩ := nonempty hne hk1
              have : l' = l := by
                rw [List.drop_eq_getElem_cons hk1, List.flatten_cons] at c2
                have := (List.getElem?_eq_getElem hk1).symm.trans hr
                rw [Option.some.inj this] at c2
                simpa using congrArg List.head? c2
              subst this
              exact layered_stop h' h hlen hne (fun j a b c => (hz j a c b).symm) ih.symm (c1 ▸ e2) e1 hr
          · cases c with
            | nil => simpa using c1
            | cons l c =>
              exfalso
              have hk1 : k + 1 < Ls'.length := by
                by_contra hcon
                rw [List.drop_eq_nil_of_le (by omega)] at c2; simp at c2
              obtain ⟨l', r, hr⟩ := nonempty hne' hk1
              have : l' = l := by
                rw [List.drop_eq_getElem_cons hk1, List.flatten_cons] at c2
                have := (List.getElem?_eq_getElem hk1).symm.trans hr
                rw [Option.some.inj this] at c2
                simpa using congrArg List.head? c2
              subst this
              exact layered_stop h h' hlen' hne' hz ih (c1 ▸ e1) e2 hr
        · exact (short hne h0 hk hk' hdrop).elim
      · by_cases hk' : k < Ls'.length
        · exact (short hne' h0.symm hk' hk hdrop.symm).elim
        · rw [List.take_of_length_le (by omega), List.take_of_length_le (by omega)] at ih ⊢
          exact ih
  have hL : Ls = Ls' := by
    have := key (max Ls.length Ls'.length)
    rwa [List.take_of_length_le (le_max_left _ _), List.take_of_length_le (le_max_right _ _)] at this
  subst hL
  refine ⟨rfl, List.ext_getElem? fun j => ?_⟩
  by_cases hj : j + 1 < Ls.length
  · exact layered_zs h h' hlen hlen' (k := j + 1) rfl j (by omega) hj hj
  · by_cases hj2 : j + 1 = Ls.length
    · have hn : Ls ≠ [] := by rintro rfl; simp at hj2
      have e1 := List.getElem?_eq_getElem (l := zs) (i := j) (by omega)
      have e2 := List.getElem?_eq_getElem (l := zs') (i := j) (by omega)
      have hj3 : Ls.length - 1 = j := by omega
      rw [e1, e2, h.last (zs[j]'(by omega)) (by rw [hj3]; exact e1) hn, h'.last (zs'[j]'(by omega)) (by rw [hj3]; exact e2) hn]
    · rw [List.getElem?_eq_none (by omega), List.getElem?_eq_none (by omega)]

theorem leaves_append (z : Option α) (a b : List (PyLine α)) : leaves z (a ++ b) = leaves z a ++ leaves (a.foldl heightStep z) b := by
  induction a generalizing z with
  | nil => rfl
  | cons l r ih => simp only [List.cons_append, leaves, List.foldl_cons, ih, List.append_assoc]

theorem leftHeights_append (a b : List (PyLine α)) : leftHeights (a ++ b) = leftHeights a ++ leaves (heightAfter a) b := leaves_append none a b

/-- As long as no layer height has been looked for, the rule gives the height itself, which is apart from the one before. -/
theorem rule_apart {mode : RoundMode} {ls b : List (PyLine α)} {l : PyLine α} {x p : α} {w : Option α} (hn : LayerHeight mode (leftHeights (ls ++ l :: b)) none)
    (hr : Rule mode (leftHeights ls) (some x) (heightAfter ls) w) (hp : heightAfter ls = some p) (hc : heightAfter (ls ++ [l]) ≠ heightAfter ls) :
    w = some (pyRound mode 2 p) ∧ 1 / 100 ≤ |p - x| := by
  obtain ⟨e0, h0⟩ := layerHeight_exists mode (leftHeights ls)
  obtain ⟨e1, h1⟩ := layerHeight_exists mode (leftHeights ls ++ (heightAfter ls).toList)
  have hsp : ∃ c, leftHeights (ls ++ l :: b) = (leftHeights ls ++ (heightAfter ls).toList) ++ c := by
    refine ⟨leaves (heightStep (heightAfter ls) l) b, ?_⟩
    rw [leftHeights_append]
    rw [heightAfter_snoc] at hc
    simp only [leaves, if_pos hc, List.append_assoc]
  obtain ⟨c, hsp⟩ := hsp
  have e0n : e0 = none := by
    cases e0 with
    | none => rfl
    | some e =>
      have := layerHeight_more (vs := (heightAfter ls).toList ++ c) h0
      rw [← List.append_assoc, ← hsp] at this
      exact absurd (layerHeight_unique this hn) (by simp)
  have e1n : e1 = none := by
    cases e1 with
    | none => rfl
    | some e =>
      have := layerHeight_more (vs := c) h1
      rw [← hsp] at this
      exact absurd (layerHeight_unique this hn) (by simp)
  obtain ⟨a1, a2, _⟩ := hr e0 e1 h0 h1
  by_cases hcl : |p - x| < e0.getD (1 / 100)
  · obtain ⟨q, q1, _⟩ := a1 x p rfl hp hcl
    rw [e1n] at q1; simp at q1
  · rw [not_lt, e0n] at hcl
    exact ⟨a2 x p rfl hp (by rw [e0n]; exact hcl), hcl⟩

theorem neverDown_later {a b c : List (PyLine α)} (h : NeverDown (a ++ b ++ c)) {u u' : α} (hu : heightAfter a = some u) (hu' : heightAfter (a ++ b) = some u') : u ≤ u' := by
  induction b using List.reverseRecOn generalizing u' c with
  | nil => rw [List.append_nil, hu] at hu'; exact le_of_eq (Option.some.inj hu')
  | append_singleton b l ih =>
    have hs : ∃ m, heightAfter (a ++ b) = some m := by
      unfold heightAfter at hu ⊢
      rw [List.foldl_append, hu]
      clear ih h hu hu'
      induction b using List.reverseRecOn with
      | nil => exact ⟨u, rfl⟩
      | append_singleton b x ihb =>
        obtain ⟨m, hm⟩ := ihb
        rw [List.foldl_append, hm]
        simp only [List.foldl_cons, List.foldl_nil, heightStep]
        split_ifs <;> simp
    obtain ⟨m, hm⟩ := hs
    have h1 := ih (c := l :: c) (by simpa using h) hm
    have h2 := h (a ++ b) l c (by simp) m u' hm (by rw [← hu']; simp)
    exact h1.trans h2

end GCodeUtils
