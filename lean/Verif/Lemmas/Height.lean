import Verif.Spec.Height
import Verif.Lemmas.Visit
import Verif.Lemmas.Round

set_option linter.unusedSectionVars false

namespace GCodeUtils

open Spec

variable {α : Type} [Field α] [LinearOrder α] [IsStrictOrderedRing α] [FloorRing α]

theorem nextCurZ_heightStep (z : Option α) (l : PyLine α) : nextCurZ z l = heightStep z l := by
  unfold nextCurZ heightStep
  have hg : (l.isCmd c!"G92" = true) ↔ l.command = some c!"G92" := by simp [PyLine.isCmd]
  cases hz : l.z with
  | none =>
    by_cases h : l.command = some c!"G92" ∨ (l.isMove = true ∧ (l.relative ≠ some true ∨ z = none))
    · rw [if_pos h]; simp
    · rw [if_neg h]; cases z <;> simp
  | some w =>
    by_cases h1 : l.command = some c!"G92"
    · simp only
      rw [if_pos (hg.2 h1), if_pos (Or.inl h1)]; simp
    · simp only
      rw [if_neg (fun h => h1 (hg.1 h))]
      by_cases h2 : l.isMove = true
      · rw [if_pos h2]
        cases hr : l.relative with
        | none => simp [h1, h2]
        | some b =>
          cases b <;> cases z <;> simp [h1, h2]
      · rw [if_neg h2]; simp [h1, h2]

theorem heightAfter_snoc (ls : List (PyLine α)) (l : PyLine α) : heightAfter (ls ++ [l]) = heightStep (heightAfter ls) l := by
  simp [heightAfter]

theorem heightStep_plain (z : Option α) {l : PyLine α} (h : ¬ SetsZ l) : heightStep z l = z := by
  unfold heightStep
  unfold SetsZ at h
  by_cases hz : l.z = none
  · rw [hz]
    split_ifs
    · simp
    · cases z <;> simp
    · rfl
  · have : ¬ (l.isMove = true ∨ l.command = some c!"G92") := fun hc => h ⟨hz, hc⟩
    rw [not_or] at this
    rw [if_neg (by rintro (h | h); exacts [this.2 h, this.1 h.1]), if_neg this.1]

theorem split_extruding (l : PyLine α) : (split l).1.extruding = l.extruding := by
  unfold split
  simp only
  cases dropN (findall (lower l.raw)) with
  | nil => rfl
  | cons t r => cases t <;> rfl

/-- One iteration of the loop on a full program: the line stays in the current layer, or begins a new one. -/
theorem buildStep_layer {env : Env α} {home : Home α} {s s' : BuildSt α} {l0 : PyLine α} (h : buildStep env false home s l0 = .ok s')
    (hz : s.ls.prevZ = s.ls.curZ) (hl0 : l0.extruding = none) :
    ∃ l, s'.done = s.done ++ [l] ∧ s'.ls.curZ = heightStep s.ls.curZ l ∧ s'.ls.prevZ = s'.ls.curZ ∧
      ((s'.ls.allLayers = s.ls.allLayers ∧ s'.ls.curLines = s.ls.curLines ++ [l] ∧ s'.ls.allZs = s.ls.allZs ∧ s'.ls.lastLayerZ = s.ls.lastLayerZ ∧
        (s'.ls.hasExtrusion = true ↔ s.ls.hasExtrusion = true ∨ l.extruding = some true) ∧
        ((s'.ls.curZ = s.ls.curZ ∧ s'.ls.prevBaseZ = s.ls.prevBaseZ ∧ s'.ls.est = s.ls.est) ∨
          (s'.ls.curZ ≠ s.ls.curZ ∧ s'.ls.prevBaseZ = s.ls.prevBaseZ ∧ some (baseZ env.mode s.ls).1 = s.ls.prevBaseZ ∧ s'.ls.est = (baseZ env.mode s.ls).2))) ∨
       (∃ d, s'.ls.allLayers = s.ls.allLayers ++ [{ lines := s.ls.curLines, z := (baseZ env.mode s.ls).1, duration := d }] ∧ s'.ls.curLines = [l] ∧
        s'.ls.allZs = addZ (s.ls.hasExtrusion || l.extruding.getD false) s.ls.allZs s.ls.curZ ∧ s'.ls.hasExtrusion = false ∧
        s'.ls.curZ ≠ s.ls.curZ ∧ some (baseZ env.mode s.ls).1 ≠ s.ls.prevBaseZ ∧ s'.ls.lastLayerZ = (baseZ env.mode s.ls).1 ∧
        s'.ls.prevBaseZ = some (baseZ env.mode s.ls).1 ∧ s'.ls.est = (baseZ env.mode s.ls).2)) := by
  obtain ⟨m, l, hp, h | ⟨cmd, ds, _, _, _, h⟩⟩ := buildStep_ok h
  · have hns : ¬ SetsZ l := fun hs => setsZ_command hp h.1 hs
    have hne : l.extruding ≠ some true := by
      intro he
      rcases processLine_ok hp with ⟨_, _, rfl⟩ | ⟨cmd, hc, hn, _⟩
      · rw [split_extruding, hl0] at he; simp at he
      · rw [← (processLine_keeps hp).2.1] at hc
        rcases h.1 with h | h <;> rw [h] at hc <;> simp at hc
        exact hn hc
    rw [h.2]
    refine ⟨l, by simp [storedLine], by simp only [recordLine]; rw [heightStep_plain _ hns], rfl, Or.inl ⟨rfl, by simp [recordLine, storedLine], rfl, rfl, ?_, Or.inl ⟨rfl, rfl, rfl⟩⟩⟩
    simp [recordLine, hne]
  · rw [h]
    have hx : (s.ls.hasExtrusion || l.extruding.getD false) = true ↔ s.ls.hasExtrusion = true ∨ l.extruding = some true := by
      cases he : l.extruding <;> simp
    unfold stepLayer
    simp only
    have hb : (baseZ env.mode ({ s.ls with hasExtrusion := s.ls.hasExtrusion || l.extruding.getD false, curZ := nextCurZ s.ls.curZ l } : LayerSt α)) = baseZ env.mode s.ls := rfl
    by_cases h1 : nextCurZ s.ls.curZ l ≠ s.ls.prevZ
    · rw [if_pos h1, hb]
      have h1' : heightStep s.ls.curZ l ≠ s.ls.curZ := by rw [← nextCurZ_heightStep]; exact fun e => h1 (e.trans hz.symm)
      by_cases h2 : some (baseZ env.mode s.ls).1 ≠ s.ls.prevBaseZ
      · rw [if_pos h2]
        refine ⟨l, by simp [storedLine], by simp only [recordLine]; rw [nextCurZ_heightStep], rfl, Or.inr ⟨_, rfl, by simp [recordLine, storedLine], ?_, rfl, ?_, h2, rfl, rfl, rfl⟩⟩
        · simp only [recordLine]; rw [hz]
        · simp only [recordLine]; rw [nextCurZ_heightStep]; exact h1'
      · rw [if_neg h2]
        rw [not_not] at h2
        refine ⟨l, by simp [storedLine], by simp only [recordLine]; rw [nextCurZ_heightStep], rfl, Or.inl ⟨rfl, by simp [recordLine, storedLine], rfl, rfl, hx, Or.inr ⟨?_, h2, h2, rfl⟩⟩⟩
        simp only [recordLine]; rw [nextCurZ_heightStep]; exact h1'
    · rw [if_neg h1]
      rw [not_not] at h1
      refine ⟨l, by simp [storedLine], by simp only [recordLine]; rw [nextCurZ_heightStep], rfl, Or.inl ⟨rfl, by simp [recordLine, storedLine], rfl, rfl, hx, Or.inl ⟨?_, rfl, rfl⟩⟩⟩
      simp only [recordLine]; rw [h1, hz]

/-- What the loop has recorded so far. -/
structure HeightInv (s : BuildSt α) : Prop where
  inv : BuildInv s
  prev : s.ls.prevZ = s.ls.curZ
  cur : s.ls.curZ = heightAfter s.done
  flag : s.ls.hasExtrusion = true ↔ Prints (if closedLines s.ls = [] then s.ls.curLines else s.ls.curLines.tail)
  zs : ∀ z, z ∈ s.ls.allZs ↔ ∃ k < (closedLines s.ls).length, z = heightAfter ((closedLines s.ls).take (k + 1)).flatten ∧
    Prints (attributed (closedLines s.ls ++ [s.ls.curLines]) k)
  nodup : s.ls.allZs.Nodup

theorem mem_addZ {flag : Bool} {zs : List (Option α)} {z w : Option α} : w ∈ addZ flag zs z ↔ w ∈ zs ∨ (flag = true ∧ w = z) := by
  unfold addZ
  by_cases hf : flag = true
  · by_cases hz : z ∈ zs
    · have : (if (flag && !zs.contains z) = true then zs ++ [z] else zs) = zs := by simp [hz]
      rw [this]
      exact ⟨Or.inl, fun h => h.elim id (fun h => h.2 ▸ hz)⟩
    · simp [hf, hz]
  · simp [hf]

theorem addZ_nodup {flag : Bool} {zs : List (Option α)} {z : Option α} (h : zs.Nodup) : (addZ flag zs z).Nodup := by
  unfold addZ
  split_ifs with hc
  · simp only [Bool.and_eq_true, Bool.not_eq_true', List.contains_eq_mem, decide_eq_false_iff_not] at hc
    exact List.nodup_append.2 ⟨h, by simp, fun a ha b hb e => hc.2 (by rw [List.mem_singleton] at hb; rw [← hb, ← e]; exact ha)⟩
  · exact h

theorem prints_append {a b : List (PyLine α)} : Prints (a ++ b) ↔ Prints a ∨ Prints b := by
  simp [Prints, or_and_right, exists_or]

theorem prints_one {l : PyLine α} : Prints [l] ↔ l.extruding = some true := by simp [Prints]

theorem getD_left {β : Type} {as bs : List β} {n : ℕ} {d : β} (h : n < as.length) : (as ++ bs).getD n d = as.getD n d := by
  rw [List.getD_eq_getElem?_getD, List.getElem?_append_left h, ← List.getD_eq_getElem?_getD]

theorem attributed_old {Ls : List (List (PyLine α))} {c c' : List (PyLine α)} (h : c.take 1 = c'.take 1) {k : ℕ} (hk : k < Ls.length) :
    attributed (Ls ++ [c]) k = attributed (Ls ++ [c']) k := by
  unfold attributed
  have e1 : (Ls ++ [c]).getD k [] = (Ls ++ [c']).getD k [] := by
    rw [getD_left hk, getD_left hk]
  rw [e1]
  congr 1
  by_cases hk' : k + 1 < Ls.length
  · rw [getD_left hk', getD_left hk']
  · have : k + 1 = Ls.length := by omega
    simp [this, h]

theorem attributed_more {Ls : List (List (PyLine α))} {c : List (PyLine α)} {k : ℕ} (hk : k + 1 < Ls.length) : attributed (Ls ++ [c]) k = attributed Ls k := by
  unfold attributed
  have e1 : (Ls ++ [c]).getD k [] = Ls.getD k [] := getD_left (by omega)
  have e2 : (Ls ++ [c]).getD (k + 1) [] = Ls.getD (k + 1) [] := getD_left hk
  rw [e1, e2]

theorem heightInv_step {env : Env α} {home : Home α} {s s' : BuildSt α} {l0 : PyLine α} (hi : HeightInv s) (hl0 : l0.extruding = none)
    (h : buildStep env false home s l0 = .ok s') : HeightInv s' := by
  have hinv := buildStep_inv hi.inv h
  obtain ⟨l, hd, hc, hp, hcase⟩ := buildStep_layer h hi.prev hl0
  have hcur : s'.ls.curZ = heightAfter s'.done := by rw [hc, hd, heightAfter_snoc, hi.cur]
  rcases hcase with ⟨a1, a2, a3, a4, a5, a6⟩ | ⟨d, a1, a2, a3, a4, a5, a6, a7, a8, a9⟩
  · have hcl : closedLines s'.ls = closedLines s.ls := by unfold closedLines; rw [a1]
    refine ⟨hinv, hp, hcur, ?_, ?_, by rw [a3]; exact hi.nodup⟩
    · rw [a5, hi.flag, hcl, a2]
      by_cases hn : closedLines s.ls = []
      · rw [if_pos hn, if_pos hn, prints_append, prints_one]
      · rw [if_neg hn, if_neg hn]
        have : s.ls.curLines ≠ [] := hi.inv.2 (by intro h0; apply hn; unfold closedLines; rw [h0]; rfl)
        rw [List.tail_append_of_ne_nil this, prints_append, prints_one]
    · intro z
      rw [a3, hi.zs, hcl, a2]
      constructor
      · rintro ⟨k, hk, e1, e2⟩
        refine ⟨k, hk, e1, ?_⟩
        have : s.ls.curLines ≠ [] := hi.inv.2 (by intro h0; unfold closedLines at hk; rw [h0] at hk; simp at hk)
        rw [← attributed_old (c := s.ls.curLines) _ hk]
        · exact e2
        · obtain ⟨x, xs, hx⟩ := List.exists_cons_of_ne_nil this
          rw [hx]; rfl
      · rintro ⟨k, hk, e1, e2⟩
        refine ⟨k, hk, e1, ?_⟩
        have : s.ls.curLines ≠ [] := hi.inv.2 (by intro h0; unfold closedLines at hk; rw [h0] at hk; simp at hk)
        rw [attributed_old (c' := s.ls.curLines ++ [l]) _ hk]
        · exact e2
        · obtain ⟨x, xs, hx⟩ := List.exists_cons_of_ne_nil this
          rw [hx]; rfl
  · have hcl : closedLines s'.ls = closedLines s.ls ++ [s.ls.curLines] := by unfold closedLines; rw [a1]; simp
    have hflat : heightAfter (closedLines s.ls ++ [s.ls.curLines]).flatten = s.ls.curZ := by
      rw [hi.cur, hi.inv.1.flat]; simp
    have hlast : Prints (attributed (closedLines s.ls ++ [s.ls.curLines] ++ [[l]]) (closedLines s.ls).length) ↔
        (s.ls.hasExtrusion || l.extruding.getD false) = true := by
      unfold attributed
      have e1 : (closedLines s.ls ++ [s.ls.curLines] ++ [[l]]).getD (closedLines s.ls).length [] = s.ls.curLines := by simp
      have e2 : (closedLines s.ls ++ [s.ls.curLines] ++ [[l]]).getD ((closedLines s.ls).length + 1) [] = [l] := by
        rw [List.getD_eq_getElem?_getD, List.getElem?_append_right (by simp)]; simp
      rw [e1, e2, prints_append, Bool.or_eq_true, hi.flag]
      have e3 : (l.extruding.getD false = true) ↔ Prints ([l].take 1) := by
        simp only [List.take_succ_cons, List.take_zero, prints_one]
        cases l.extruding <;> simp
      rw [e3]
      by_cases hn : closedLines s.ls = []
      · simp [hn]
      · rw [if_neg hn, if_neg (by rw [List.length_eq_zero_iff]; exact hn)]
    refine ⟨hinv, hp, hcur, ?_, ?_, by rw [a3]; exact addZ_nodup hi.nodup⟩
    · rw [a4, a2, hcl]; simp [Prints]
    · intro z
      rw [a3, mem_addZ, hi.zs, hcl, a2]
      constructor
      · rintro (⟨k, hk, e1, e2⟩ | ⟨e1, e2⟩)
        · refine ⟨k, by simp; omega, ?_, ?_⟩
          · rw [List.take_append_of_le_length (by omega)]; exact e1
          · rw [attributed_more (by simp; omega)]; exact e2
        · refine ⟨(closedLines s.ls).length, by simp, ?_, hlast.2 e1⟩
          rw [List.take_of_length_le (by simp), hflat]; exact e2
      · rintro ⟨k, hk, e1, e2⟩
        rw [List.length_append, List.length_singleton] at hk
        by_cases hk' : k < (closedLines s.ls).length
        · refine Or.inl ⟨k, hk', ?_, ?_⟩
          · rw [List.take_append_of_le_length (by omega)] at e1; exact e1
          · rw [attributed_more (by simp; omega)] at e2; exact e2
        · obtain rfl : k = (closedLines s.ls).length := by omega
          rw [List.take_of_length_le (by simp), hflat] at e1
          exact Or.inr ⟨hlast.1 e2, e1⟩

/-- Layers of one height, for heights in hundredths. -/
structure EvenInv (s : BuildSt α) : Prop where
  est : s.ls.est = none
  lay : ∀ k L, s.ls.allLayers[k]? = some L → ∀ a b, L.lines = a ++ b → a ≠ [] → heightAfter (((closedLines s.ls).take k).flatten ++ a) = L.z
  cur : ∀ a b, s.ls.curLines = a ++ b → a ≠ [] → heightAfter ((closedLines s.ls).flatten ++ a) = s.ls.curZ
  last : ∀ L, s.ls.allLayers.getLast? = some L → L.z ≠ s.ls.curZ ∧ s.ls.lastLayerZ = L.z ∧ s.ls.prevBaseZ = some L.z
  first : s.ls.allLayers = [] → s.ls.lastLayerZ = none ∧ s.ls.prevBaseZ = none
  zero : ∀ L ∈ s.ls.allLayers, ∀ z, L.z = some z → Hundredths z
  hun : ∀ z, s.ls.curZ = some z → Hundredths z
  adj : ∀ k L M, s.ls.allLayers[k]? = some L → s.ls.allLayers[k + 1]? = some M → L.z ≠ M.z

theorem hundredths_far {a b : α} (ha : Hundredths a) (hb : Hundredths b) (h : a ≠ b) : 1 / 100 ≤ |a - b| := by
  obtain ⟨m, rfl⟩ := ha
  obtain ⟨n, rfl⟩ := hb
  have hmn : m ≠ n := fun e => h (by rw [e])
  rw [← sub_div, abs_div, abs_of_pos (show (0 : α) < 100 by norm_num), div_le_div_iff_of_pos_right (by norm_num), ← Int.cast_sub, ← Int.cast_abs]
  have : (1 : ℤ) ≤ |m - n| := Int.one_le_abs (sub_ne_zero.2 hmn)
  exact_mod_cast this

theorem hundredths_round {z : α} (mode : RoundMode) (h : Hundredths z) : pyRound mode 2 z = z := by
  obtain ⟨n, rfl⟩ := h
  have := pyRound_exact (α := α) mode 2 n
  norm_num at this
  exact this

theorem hundredths_step {z : Option α} {l : PyLine α} (hz : ∀ w, z = some w → Hundredths w) (hl : SetsZ l → ∀ w, l.z = some w → Hundredths w) :
    ∀ w, heightStep z l = some w → Hundredths w := by
  intro w hw
  by_cases hs : SetsZ l
  · obtain ⟨v, hv⟩ := Option.ne_none_iff_exists'.1 hs.1
    have hh := hl hs v hv
    unfold heightStep at hw
    split_ifs at hw with h1 h2
    · rw [hv] at hw; simp at hw; rw [← hw]; exact hh
    · cases z with
      | none => simp at hw
      | some u =>
        rw [hv] at hw
        simp at hw
        obtain ⟨m, hm⟩ := hz u rfl
        obtain ⟨n, hn⟩ := hh
        exact ⟨m + n, by rw [← hw, hm, hn]; push_cast; ring⟩
    · exact hz w hw
  · rw [heightStep_plain _ hs] at hw
    exact hz w hw

/-- The base height of the layer that ends is its height. -/
theorem even_base {mode : RoundMode} {s : BuildSt α} (hi : EvenInv s) (hp : s.ls.prevZ = s.ls.curZ) :
    baseZ mode s.ls = (s.ls.curZ, none) ∧ some s.ls.curZ ≠ s.ls.prevBaseZ := by
  constructor
  · unfold baseZ
    rw [hi.est, hp]
    cases hz : s.ls.curZ with
    | none => rfl
    | some pz =>
      cases hl : s.ls.lastLayerZ with
      | none => rfl
      | some lz =>
        simp only
        have hh := hi.hun pz hz
        have hne : s.ls.allLayers ≠ [] := by
          intro h0; rw [(hi.first h0).1] at hl; simp at hl
        obtain ⟨L, hL⟩ : ∃ L, s.ls.allLayers.getLast? = some L := ⟨_, List.getLast?_eq_some_getLast hne⟩
        obtain ⟨h1, h2, _⟩ := hi.last L hL
        rw [hl] at h2
        rw [hz, ← h2] at h1
        have hlz := hi.zero L (List.mem_of_getLast? hL) lz h2.symm
        have hfar := hundredths_far hh hlz (fun e => h1 (by rw [e]))
        rw [if_neg (not_lt.2 hfar), hundredths_round mode hh]
  · by_cases h0 : s.ls.allLayers = []
    · rw [(hi.first h0).2]; simp
    · obtain ⟨L, hL⟩ : ∃ L, s.ls.allLayers.getLast? = some L := ⟨_, List.getLast?_eq_some_getLast h0⟩
      obtain ⟨h1, _, h3⟩ := hi.last L hL
      rw [h3]
      intro e
      exact h1 (Option.some.inj e).symm

theorem evenInv_step {env : Env α} {home : Home α} {s s' : BuildSt α} {l0 : PyLine α} (hh : HeightInv s) (hi : EvenInv s) (hl0 : l0.extruding = none)
    (h : buildStep env false home s l0 = .ok s') (hun : HeightsHundredths s'.done) : EvenInv s' := by
  obtain ⟨l, hd, hc, hp, hcase⟩ := buildStep_layer h hh.prev hl0
  have hflat := hh.inv.1.flat
  have hl : SetsZ l → ∀ w, l.z = some w → Hundredths w := fun hs w hw => hun l (by rw [hd]; simp) hs w hw
  have hun' : ∀ z, s'.ls.curZ = some z → Hundredths z := by rw [hc]; exact hundredths_step hi.hun hl
  obtain ⟨hb, hnb⟩ := even_base (mode := env.mode) hi hh.prev
  rw [hb] at hcase
  have hsplit : ∀ {x a b : List (PyLine α)}, x ++ [l] = a ++ b → a ≠ [] → (∃ b', x = a ++ b') ∨ a = x ++ [l] := by
    intro x a b he ha
    rcases List.eq_nil_or_concat b with rfl | ⟨b', y, rfl⟩
    · right; simpa using he.symm
    · left
      rw [List.concat_eq_append, ← List.append_assoc] at he
      exact ⟨b', (List.append_inj' he rfl).1⟩
  rcases hcase with ⟨a1, a2, a3, a4, a5, a6 | a6⟩ | ⟨d, a1, a2, a3, a4, a5, a6, a7, a8, a9⟩
  · have hcl : closedLines s'.ls = closedLines s.ls := by unfold closedLines; rw [a1]
    refine ⟨by rw [a6.2.2]; exact hi.est, by rw [a1, hcl]; exact hi.lay, ?_, ?_, ?_, by rw [a1]; exact hi.zero, hun', by rw [a1]; exact hi.adj⟩
    · intro a b hab hne
      rw [a2] at hab
      rw [hcl, a6.1]
      rcases hsplit hab hne with ⟨b', hb'⟩ | rfl
      · exact hi.cur a b' hb' hne
      · have : (closedLines s.ls).flatten ++ (s.ls.curLines ++ [l]) = s.done ++ [l] := by rw [hflat]; simp
        rw [this, heightAfter_snoc, ← hh.cur, ← hc, a6.1]
    · rw [a1, a6.1, a4, a6.2.1]; exact hi.last
    · rw [a1, a4, a6.2.1]; exact hi.first
  · exact absurd a6.2.2.1 hnb
  · have hcl : closedLines s'.ls = closedLines s.ls ++ [s.ls.curLines] := by unfold closedLines; rw [a1]; simp
    have hlen : (closedLines s.ls).length = s.ls.allLayers.length := by simp [closedLines]
    refine ⟨a9, ?_, ?_, ?_, ?_, ?_, hun', ?_⟩
    · intro k L hL a b hab hne
      rw [a1] at hL
      rw [hcl]
      by_cases hk : k < s.ls.allLayers.length
      · rw [List.getElem?_append_left hk] at hL
        rw [List.take_append_of_le_length (by omega)]
        exact hi.lay k L hL a b hab hne
      · rw [List.getElem?_append_right (by omega)] at hL
        have hk' : k = s.ls.allLayers.length := by
          by_contra hx
          rw [List.getElem?_eq_none (by simp; omega)] at hL
          simp at hL
        subst hk'
        simp at hL
        subst hL
        rw [← hlen]
        simp
        exact hi.cur a b hab hne
    · intro a b hab hne
      rw [a2] at hab
      have : a = [l] := by
        cases a with
        | nil => exact absurd rfl hne
        | cons x xs => simp at hab; rw [← hab.1, hab.2.1]
      rw [this, hcl, hc, hh.cur, hflat, heightAfter_snoc]
      simp
    · intro L hL
      rw [a1] at hL
      simp at hL
      subst hL
      exact ⟨fun e => a5 e.symm, a7, a8⟩
    · intro h0; rw [a1] at h0; simp at h0
    · intro L hL z hz
      rw [a1] at hL
      rcases List.mem_append.1 hL with hL | hL
      · exact hi.zero L hL z hz
      · simp at hL; subst hL; exact hi.hun z hz
    · intro k L M hL hM
      rw [a1] at hL hM
      by_cases hk : k + 1 < s.ls.allLayers.length
      · rw [List.getElem?_append_left hk] at hM
        rw [List.getElem?_append_left (by omega)] at hL
        exact hi.adj k L M hL hM
      · rw [List.getElem?_append_right (by omega)] at hM
        have hk' : k + 1 = s.ls.allLayers.length := by
          by_contra hx
          rw [List.getElem?_eq_none (by simp; omega)] at hM
          simp at hM
        rw [hk'] at hM
        simp at hM
        subst hM
        rw [List.getElem?_append_left (by omega)] at hL
        refine (hi.last L ?_).1
        rw [List.getLast?_eq_getElem?, ← hk']; exact hL

theorem start_height (g : GCode α) (hg : g.est = none) : HeightInv (BuildSt.start g) ∧ EvenInv (BuildSt.start g) := by
  refine ⟨⟨start_inv g, rfl, rfl, ?_, ?_, ?_⟩, ⟨hg, ?_, ?_, ?_, ?_, ?_, ?_, ?_⟩⟩ <;> simp [BuildSt.start, closedLines, Prints]

theorem readLines_fresh (data : List Str) : ∀ l ∈ (readLines data : List (PyLine α)), l.extruding = none := by
  intro l hl
  simp only [readLines, List.mem_map] at hl
  obtain ⟨t, _, rfl⟩ := hl
  rfl

theorem load_height {env : Env α} {data : List Str} {home : Home α} {s : BuildSt α}
    (hs : (readLines data).foldlM (buildStep env false home) (BuildSt.start (GCode.blank false home)) = .ok s) :
    HeightInv s ∧ (HeightsHundredths s.done → EvenInv s) := by
  have := foldlM_inv (buildStep env false home) (fun pre s => (∀ l ∈ pre, l.extruding = none) → HeightInv s ∧ (HeightsHundredths s.done → EvenInv s))
    (fun pre b s s' hp hs hl => by
      have hb := hl b (by simp)
      obtain ⟨h1, h2⟩ := hp (fun l hx => hl l (by simp [hx]))
      refine ⟨heightInv_step h1 hb hs, fun hun => evenInv_step h1 (h2 ?_) hb hs hun⟩
      obtain ⟨l, _, hd⟩ := buildStep_m hs
      intro x hx
      exact hun x (by rw [hd]; simp [hx])) _ [] _ s (fun _ => ⟨(start_height _ rfl).1, fun _ => (start_height _ rfl).2⟩) hs
  exact this (by simpa using readLines_fresh data)

end GCodeUtils
