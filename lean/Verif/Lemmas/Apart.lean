import Verif.Lemmas.Height

/-
  Layers of programs whose heights are not close to each other.
-/

set_option linter.unusedSectionVars false

namespace GCodeUtils

open Spec

variable {α : Type} [Field α] [LinearOrder α] [IsStrictOrderedRing α] [FloorRing α]

/-- Layers of one height, for heights that are not close to each other. -/
structure ApartInv (s : BuildSt α) : Prop where
  est : s.ls.est = none
  lay : ∀ k L, s.ls.allLayers[k]? = some L → ∃ h, RecordedAs h L.z ∧
    ∀ a b, L.lines = a ++ b → a ≠ [] → heightAfter (((closedLines s.ls).take k).flatten ++ a) = h
  cur : ∀ a b, s.ls.curLines = a ++ b → a ≠ [] → heightAfter ((closedLines s.ls).flatten ++ a) = s.ls.curZ
  last : ∀ L, s.ls.allLayers.getLast? = some L → s.ls.lastLayerZ = L.z ∧ s.ls.prevBaseZ = some L.z ∧
    ∃ h, RecordedAs h L.z ∧ h ≠ s.ls.curZ ∧ ∀ u v, h = some u → s.ls.curZ = some v → 3 / 200 ≤ |v - u|
  first : s.ls.allLayers = [] → s.ls.lastLayerZ = none ∧ s.ls.prevBaseZ = none
  begins : ∀ k M l r, s.ls.allLayers[k + 1]? = some M → M.lines = l :: r →
    heightAfter (((closedLines s.ls).take (k + 1)).flatten ++ [l]) ≠ heightAfter ((closedLines s.ls).take (k + 1)).flatten
  curBegins : ∀ l r, s.ls.allLayers ≠ [] → s.ls.curLines = l :: r →
    heightAfter ((closedLines s.ls).flatten ++ [l]) ≠ heightAfter (closedLines s.ls).flatten

/-- The base height of the layer that ends is its height, up to rounding. -/
theorem apart_base {mode : RoundMode} {s : BuildSt α} (hi : ApartInv s) (hp : s.ls.prevZ = s.ls.curZ) :
    ∃ b, baseZ mode s.ls = (b, none) ∧ RecordedAs s.ls.curZ b ∧ some b ≠ s.ls.prevBaseZ := by
  have hne : s.ls.lastLayerZ ≠ none → s.ls.allLayers ≠ [] := fun h h0 => h (hi.first h0).1
  unfold baseZ
  rw [hi.est, hp]
  cases hz : s.ls.curZ with
  | none =>
    refine ⟨none, rfl, .inl ⟨rfl, rfl⟩, ?_⟩
    by_cases h0 : s.ls.allLayers = []
    · rw [(hi.first h0).2]; simp
    · obtain ⟨L, hL⟩ : ∃ L, s.ls.allLayers.getLast? = some L := ⟨_, List.getLast?_eq_some_getLast h0⟩
      obtain ⟨_, h2, h, h3, h4, _⟩ := hi.last L hL
      rw [h2]
      intro e
      rcases h3 with ⟨h3, _⟩ | ⟨u, v, _, h3, _⟩
      · rw [hz] at h4; exact h4 h3
      · rw [h3] at e; simp at e
  | some pz =>
    cases hl : s.ls.lastLayerZ with
    | none =>
      refine ⟨some pz, rfl, .inr ⟨pz, pz, rfl, rfl, by simp⟩, ?_⟩
      by_cases h0 : s.ls.allLayers = []
      · rw [(hi.first h0).2]; simp
      · obtain ⟨L, hL⟩ : ∃ L, s.ls.allLayers.getLast? = some L := ⟨_, List.getLast?_eq_some_getLast h0⟩
        obtain ⟨h1, h2, _⟩ := hi.last L hL
        rw [h2, ← h1, hl]; simp
    | some lz =>
      obtain ⟨L, hL⟩ : ∃ L, s.ls.allLayers.getLast? = some L := ⟨_, List.getLast?_eq_some_getLast (hne (by rw [hl]; simp))⟩
      obtain ⟨h1, h2, h, h3, h4, h5⟩ := hi.last L hL
      rw [hl] at h1
      rcases h3 with ⟨_, h3⟩ | ⟨u, v, hu, hv, h3⟩
      · rw [h3] at h1; simp at h1
      rw [hv] at h1
      obtain rfl := Option.some.inj h1
      have hfar := h5 u pz hu hz
      have hr := pyRound_bound mode 2 pz
      norm_num at hr
      have a1 := abs_le.1 h3
      have a2 := abs_le.1 hr
      have k1 : 1 / 100 ≤ |pz - lz| := by
        rcases le_abs.1 hfar with k | k
        · exact le_abs.2 (.inl (by linarith [a1.1, a1.2]))
        · exact le_abs.2 (.inr (by linarith [a1.1, a1.2]))
      refine ⟨some (pyRound mode 2 pz), ?_, .inr ⟨pz, _, rfl, rfl, hr⟩, ?_⟩
      · simp only
        rw [if_neg (not_lt.2 k1)]
      · rw [h2, hv]
        intro e
        have e := Option.some.inj (Option.some.inj e)
        rcases le_abs.1 hfar with k | k
        · linarith [a1.1, a1.2, a2.1, a2.2]
        · linarith [a1.1, a1.2, a2.1, a2.2]

theorem apartInv_step {env : Env α} {home : Home α} {s s' : BuildSt α} {l0 : PyLine α} (hh : HeightInv s) (hi : ApartInv s) (hl0 : l0.extruding = none)
    (h : buildStep env false home s l0 = .ok s') (hap : HeightsApart s'.done) : ApartInv s' := by
  obtain ⟨l, hd, hc, hp, hcase⟩ := buildStep_layer h hh.prev hl0
  have hflat := hh.inv.1.flat
  obtain ⟨b0, hb, hrec, hnb⟩ := apart_base (mode := env.mode) hi hh.prev
  rw [hb] at hcase
  have hsplit : ∀ {x a b : List (PyLine α)}, x ++ [l] = a ++ b → a ≠ [] → (∃ b', x = a ++ b') ∨ a = x ++ [l] := by
    intro x a b he ha
    rcases List.eq_nil_or_concat b with rfl | ⟨b', y, rfl⟩
    · right; simpa using he.symm
    · left
      rw [List.concat_eq_append, ← List.append_assoc] at he
      exact ⟨b', (List.append_inj' he rfl).1⟩
  have hfl : (closedLines s.ls).flatten ++ s.ls.curLines = s.done := hflat.symm
  rcases hcase with ⟨a1, a2, a3, a4, a5, a6 | a6⟩ | ⟨d, a1, a2, a3, a4, a5, a6, a7, a8, a9⟩
  · have hcl : closedLines s'.ls = closedLines s.ls := by unfold closedLines; rw [a1]
    refine ⟨by rw [a6.2.2]; exact hi.est, by rw [a1, hcl]; exact hi.lay, ?_, ?_, ?_, by rw [a1, hcl]; exact hi.begins, ?_⟩
    · intro a b hab hne
      rw [a2] at hab
      rw [hcl, a6.1]
      rcases hsplit hab hne with ⟨b', hb'⟩ | rfl
      · exact hi.cur a b' hb' hne
      · rw [← List.append_assoc, hfl, heightAfter_snoc, ← hh.cur, ← hc, a6.1]
    · rw [a1, a6.1, a4, a6.2.1]; exact hi.last
    · rw [a1, a4, a6.2.1]; exact hi.first
    · intro k r hne hk
      rw [a1] at hne
      rw [hcl]
      have hcn := hh.inv.2 hne
      obtain ⟨x, xs, hx⟩ := List.exists_cons_of_ne_nil hcn
      rw [a2, hx] at hk
      obtain rfl : x = k := by simpa using congrArg List.head? hk
      exact hi.curBegins x xs hne hx
  · exact absurd a6.2.2.1 hnb
  · have hcl : closedLines s'.ls = closedLines s.ls ++ [s.ls.curLines] := by unfold closedLines; rw [a1]; simp
    have hlen : (closedLines s.ls).length = s.ls.allLayers.length := by simp [closedLines]
    have hdone : (closedLines s.ls ++ [s.ls.curLines]).flatten = s.done := by rw [← hfl]; simp
    have hchange : heightAfter (s.done ++ [l]) ≠ heightAfter s.done := by
      rw [heightAfter_snoc, ← hh.cur, ← hc]; exact a5
    refine ⟨a9, ?_, ?_, ?_, ?_, ?_, ?_⟩
    · intro k L hL
      rw [a1] at hL
      rw [hcl]
      by_cases hk : k < s.ls.allLayers.length
      · rw [List.getElem?_append_left hk] at hL
        rw [List.take_append_of_le_length (by omega)]
        exact hi.lay k L hL
      · rw [List.getElem?_append_right (by omega)] at hL
        have hk' : k = s.ls.allLayers.length := by
          by_contra hx
          rw [List.getElem?_eq_none (by simp; omega)] at hL
          simp at hL
        subst hk'
        simp at hL
        subst hL
        refine ⟨s.ls.curZ, hrec, ?_⟩
        intro a b hab hne
        rw [← hlen]
        simp
        exact hi.cur a b hab hne
    · intro a b hab hne
      rw [a2] at hab
      have : a = [l] := by
        cases a with
        | nil => exact absurd rfl hne
        | cons x xs => simp at hab; rw [← hab.1, hab.2.1]
      rw [this, hcl, hdone, hc, hh.cur, heightAfter_snoc]
    · intro L hL
      rw [a1] at hL
      simp at hL
      subst hL
      refine ⟨a7, a8, s.ls.curZ, hrec, fun e => a5 e.symm, ?_⟩
      intro u v hu hv
      rw [hh.cur] at hu
      have hv' : heightAfter (s.done ++ [l]) = some v := by rw [heightAfter_snoc, ← hh.cur, ← hc, hv]
      rcases hap s.done l [] (by rw [hd]) u v hu hv' with e | e
      · exact absurd (hv'.trans (by rw [e, hu])) hchange
      · exact e
    · intro h0; rw [a1] at h0; simp at h0
    · intro k M x r hM hx
      rw [a1] at hM
      rw [hcl]
      by_cases hk : k + 1 < s.ls.allLayers.length
      · rw [List.getElem?_append_left hk] at hM
        rw [List.take_append_of_le_length (by omega)]
        exact hi.begins k M x r hM hx
      · rw [List.getElem?_append_right (by omega)] at hM
        have hk' : k + 1 = s.ls.allLayers.length := by
          by_contra hx
          rw [List.getElem?_eq_none (by simp; omega)] at hM
          simp at hM
        rw [hk'] at hM ⊢
        simp at hM
        subst hM
        rw [← hlen, List.take_left]
        exact hi.curBegins x r (by intro h0; rw [h0] at hk'; simp at hk') hx
    · intro x r _ hx
      rw [a2] at hx
      simp at hx
      rw [hcl, hdone, ← hx.1]
      exact hchange

theorem load_apart {env : Env α} {data : List Str} {home : Home α} {s : BuildSt α}
    (hs : (readLines data).foldlM (buildStep env false home) (BuildSt.start (GCode.blank false home)) = .ok s) :
    HeightInv s ∧ (HeightsApart s.done → ApartInv s) := by
  have := foldlM_inv (buildStep env false home) (fun pre s => (∀ l ∈ pre, l.extruding = none) → HeightInv s ∧ (HeightsApart s.done → ApartInv s))
    (fun pre b s s' hp hs hl => by
      have hb := hl b (by simp)
      obtain ⟨h1, h2⟩ := hp (fun l hx => hl l (by simp [hx]))
      refine ⟨heightInv_step h1 hb hs, fun hun => apartInv_step h1 (h2 ?_) hb hs hun⟩
      obtain ⟨l, _, hd⟩ := buildStep_m hs
      intro a x r hx
      exact hun a x (r ++ [storedLine false b l]) (by rw [hd, hx]; simp)) _ [] _ s (fun _ => ⟨(start_height _ rfl).1, fun _ => by
        refine ⟨rfl, ?_, ?_, ?_, ?_, ?_, ?_⟩ <;> simp [BuildSt.start, closedLines, GCode.blank]⟩) hs
  exact this (by simpa using readLines_fresh data)

/-- The layers of the loaded program that have lines: those that were closed, and the last one. -/
theorem final_layers {home : Home α} {s : BuildSt α} (hi : HeightInv s) :
    (∀ k L, (finalize (GCode.blank false home) s).allLayers[k]? = some L → L.lines ≠ [] →
      (k < s.ls.allLayers.length ∧ s.ls.allLayers[k]? = some L) ∨ (k = s.ls.allLayers.length ∧ L.lines = s.ls.curLines ∧ L.z = s.ls.curZ)) ∧
    ∀ k, k ≤ s.ls.allLayers.length → (finalize (GCode.blank false home) s).allLayers.take k = s.ls.allLayers.take k := by
  have hall : (finalize (GCode.blank false home) s).allLayers = (closeLast s.ls s.ds.total s.ds.layerBegin).allLayers ++ [{ lines := [], z := none, duration := some 0 }] := rfl
  constructor
  · intro k L hL hne
    rw [hall] at hL
    unfold closeLast at hL
    by_cases hk : k < s.ls.allLayers.length
    · left
      refine ⟨hk, ?_⟩
      split_ifs at hL
      · rw [List.getElem?_append_left hk] at hL; exact hL
      · simp only at hL
        rw [List.append_assoc, List.getElem?_append_left hk] at hL; exact hL
    · right
      split_ifs at hL
      · rw [List.getElem?_append_right (by omega)] at hL
        by_cases hk' : k = s.ls.allLayers.length
        · subst hk'; simp at hL; subst hL; simp at hne
        · rw [List.getElem?_eq_none (by simp; omega)] at hL; simp at hL
      · simp only at hL
        rw [List.append_assoc, List.getElem?_append_right (by omega)] at hL
        by_cases hk' : k = s.ls.allLayers.length
        · subst hk'
          simp at hL
          subst hL
          exact ⟨rfl, rfl, hi.prev⟩
        · by_cases hk2 : k = s.ls.allLayers.length + 1
          · subst hk2; simp at hL; subst hL; simp at hne
          · rw [List.getElem?_eq_none (by simp; omega)] at hL; simp at hL
  · intro k hk
    rw [hall]
    unfold closeLast
    split_ifs
    · rw [List.take_append_of_le_length hk]
    · simp only
      rw [List.append_assoc, List.take_append_of_le_length hk]

end GCodeUtils
