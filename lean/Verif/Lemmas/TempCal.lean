import Verif.Spec.TempCal
import Verif.Lemmas.Decimal
import Verif.Lemmas.Build

/-
  Lemmas about the temperature gradients.
-/

set_option linter.unusedSectionVars false

namespace GCodeUtils

open Spec

variable {α : Type} [Field α] [LinearOrder α] [IsStrictOrderedRing α] [FloorRing α]

theorem pyRound_tenth (mode : RoundMode) (x : α) : NearestTenth x (pyRound mode 1 x) := by
  refine ⟨⟨roundInt mode (x * 10 ^ 1), ?_⟩, ?_⟩
  · unfold pyRound; rw [pow_one]
  · have := pyRound_bound mode 1 x
    rw [pow_one] at this
    calc _ ≤ _ := this
      _ = 1 / 20 := by norm_num

theorem isDig_mem {c : Char} (h : isDig c = true) : c ∈ c!"0123456789" := by
  unfold isDig at h
  simp only [Bool.and_eq_true, decide_eq_true_eq] at h
  have h1 : 48 ≤ c.toNat := h.1
  have h2 : c.toNat ≤ 57 := h.2
  have hc : c = Char.ofNat c.toNat := (Char.ofNat_toNat c).symm
  rw [hc]
  generalize c.toNat = n at h1 h2
  have : ∀ n : Fin 58, 48 ≤ n.1 → Char.ofNat n.1 ∈ c!"0123456789" := by decide
  exact this ⟨n, by omega⟩ h1

theorem fmt_tenths (mode : RoundMode) (x : α) (h : 0 ≤ pyRound mode 1 x) :
    ReadsTenths (fmtFixed 1 (pyRound mode 1 x)) (pyRound mode 1 x) := by
  obtain ⟨⟨n, hn⟩, _⟩ := pyRound_tenth mode x
  generalize pyRound mode 1 x = t at h hn
  have hn0 : 0 ≤ n := by
    rw [hn] at h
    have : (0 : α) ≤ n := by
      by_contra hc
      push Not at hc
      have : (n : α) / 10 < 0 := by apply div_neg_of_neg_of_pos hc; norm_num
      linarith
    exact_mod_cast this
  have hm : (roundEven (|t| * 10 ^ 1)).toNat = n.toNat := by
    rw [abs_of_nonneg h, hn, pow_one, div_mul_cancel₀ _ (by norm_num), roundEven_int]
  unfold fmtFixed
  simp only
  rw [hm, if_neg (not_lt.2 h)]
  obtain ⟨n1, n2, n3⟩ := natDigits_spec (n.toNat / 10 ^ 1)
  obtain ⟨p1, p2, p3⟩ := padDigits_spec 1 (n.toNat % 10 ^ 1)
  obtain ⟨c, hc⟩ := List.length_eq_one_iff.1 p1
  have hval : digitsVal (natDigits (n.toNat / 10 ^ 1) ++ padDigits 1 (n.toNat % 10 ^ 1)) = n.toNat := by
    rw [digitsVal_append, n3, p3, p1, Nat.mod_mod, mul_comm, Nat.div_add_mod]
  refine ⟨natDigits (n.toNat / 10 ^ 1), c, n1, fun d hd => isDig_mem (n2 d hd), ?_, ?_, ?_⟩
  · exact isDig_mem (p2 c (by rw [hc]; simp))
  · rw [hc]; simp
  · rw [← hc]
    have e : (List.foldl (fun n d => n * 10 + (d.toNat - 48)) 0 (natDigits (n.toNat / 10 ^ 1) ++ padDigits 1 (n.toNat % 10 ^ 1)) : ℕ) = n.toNat := hval
    rw [e, hn]
    congr 1
    have : ((n.toNat : ℕ) : ℤ) = n := Int.toNat_of_nonneg hn0
    exact_mod_cast congrArg (Int.cast : ℤ → α) this.symm

theorem tempLine_ok (mode : RoundMode) (x : α) : IsTempLine (pyRound mode 1 x) (generateTemperatureGcode (pyRound mode 1 x)) := by
  unfold generateTemperatureGcode absMinTemp absMaxTemp
  by_cases h : (150 : α) ≤ pyRound mode 1 x ∧ pyRound mode 1 x ≤ 250
  · rw [if_pos h]
    exact Or.inl ⟨h.1, h.2, _, rfl, fmt_tenths mode x (by linarith [h.1])⟩
  · rw [if_neg h]
    exact Or.inr ⟨h, rfl⟩

/-! ### the height scan -/

theorem layerZ_startHeight (L : Layer α) : (layerZ L = none ↔ L.lines = []) ∧ (∀ cz, layerZ L = some cz → startHeight L = cz) := by
  unfold layerZ startHeight
  cases L.lines with
  | nil => simp
  | cons l ls => simp

theorem scan_some (minZ : α) (Ls : List (Layer α)) : ∀ zm : α, ∃ b, Ls.foldl (scanZmin minZ) (some zm) = some b ∧
    b ∈ zm :: Ls.filterMap startHeight ∧ b ≤ zm ∧ (b = zm ∨ minZ < b) ∧ ∀ h ∈ Ls.filterMap startHeight, minZ < h → b ≤ h := by
  induction Ls with
  | nil => intro zm; exact ⟨zm, rfl, by simp, le_refl _, Or.inl rfl, by simp⟩
  | cons L Ls ih =>
    intro zm
    rw [List.foldl_cons]
    obtain ⟨h1, h2⟩ := layerZ_startHeight L
    unfold scanZmin
    cases hz : layerZ L with
    | none =>
      have hs : startHeight L = none := by unfold startHeight; rw [h1.1 hz]
      rw [List.filterMap_cons, hs]
      exact ih zm
    | some cz =>
      have hs := h2 cz hz
      rw [List.filterMap_cons, hs]
      cases cz with
      | none => exact ih zm
      | some c =>
        simp only
        by_cases hc : minZ < c ∧ c < zm
        · rw [if_pos hc]
          obtain ⟨b, b1, b2, b3, b4, b5⟩ := ih c
          refine ⟨b, b1, ?_, by linarith [hc.2], Or.inr ?_, ?_⟩
          · exact List.mem_cons_of_mem _ b2
          · rcases b4 with b4 | b4
            · rw [b4]; exact hc.1
            · exact b4
          · intro h hh hm
            rcases List.mem_cons.1 hh with rfl | hh
            · exact b3
            · exact b5 h hh hm
        · rw [if_neg hc]
          obtain ⟨b, b1, b2, b3, b4, b5⟩ := ih zm
          refine ⟨b, b1, ?_, b3, b4, ?_⟩
          · rcases List.mem_cons.1 b2 with b2 | b2
            · rw [b2]; simp
            · exact List.mem_cons_of_mem _ (List.mem_cons_of_mem _ b2)
          · intro h hh hm
            rcases List.mem_cons.1 hh with rfl | hh
            · push Not at hc
              linarith [hc hm]
            · exact b5 h hh hm

theorem scan_none (minZ : α) (Ls : List (Layer α)) :
    (Ls.filterMap startHeight = [] → Ls.foldl (scanZmin minZ) none = none) ∧
    (Ls.filterMap startHeight ≠ [] → ∃ b, Ls.foldl (scanZmin minZ) none = some b ∧ IsBase minZ (Ls.filterMap startHeight) b) := by
  induction Ls with
  | nil => exact ⟨fun _ => rfl, fun h => absurd rfl h⟩
  | cons L Ls ih =>
    rw [List.foldl_cons]
    obtain ⟨h1, h2⟩ := layerZ_startHeight L
    have hskip : startHeight L = none → scanZmin minZ none L = none := by
      intro hs
      unfold scanZmin
      cases hz : layerZ L with
      | none => rfl
      | some cz => have := h2 cz hz; rw [hs] at this; simp [← this]
    cases hs : startHeight L with
    | none =>
      rw [List.filterMap_cons, hs, hskip hs]
      exact ih
    | some c =>
      rw [List.filterMap_cons, hs]
      have hsc : scanZmin minZ none L = some c := by
        unfold scanZmin
        cases hz : layerZ L with
        | none =>
          have := h1.1 hz
          unfold startHeight at hs; rw [this] at hs; simp at hs
        | some cz => have := h2 cz hz; rw [hs] at this; simp [← this]
      rw [hsc]
      refine ⟨fun h => by simp at h, fun _ => ?_⟩
      obtain ⟨b, b1, b2, b3, b4, b5⟩ := scan_some minZ Ls c
      refine ⟨b, b1, c, _, rfl, b2, b3, b4, ?_⟩
      intro h hh hm
      rcases List.mem_cons.1 hh with rfl | hh
      · exact b3
      · exact b5 h hh hm

theorem isBase_unique {minZ : α} {hs : List α} {b b' : α} (h : IsBase minZ hs b) (h' : IsBase minZ hs b') : b = b' := by
  obtain ⟨h0, r, e, m, l, o, a⟩ := h
  obtain ⟨h0', r', e', m', l', o', a'⟩ := h'
  rw [e] at e'
  obtain ⟨rfl, rfl⟩ := List.cons.inj e'
  have k1 : b ≤ b' := by
    rcases o' with o' | o'
    · rw [o']; exact l
    · exact a b' m' o'
  have k2 : b' ≤ b := by
    rcases o with o | o
    · rw [o]; exact l'
    · exact a' b m o
  exact le_antisymm k1 k2

/-! ### the writing loop -/

theorem writeLoop_spec {mode : RoundMode} {temp : TempFn α} {b top : α} {T : α → α} (hT : ∀ c, temp b top c = .ok (some (T c))) (Ls : List (Layer α)) :
    ∀ last, ∃ ts ins last', writeLoop mode temp b top last Ls = (tower ins Ls, .ok last') ∧
      List.Forall₂ (fun t i => (t = none ∧ i = none) ∨ ∃ u s, t = some u ∧ i = some s ∧ IsTempLine u s) ts ins ∧
      Targets T b top last Ls ts := by
  induction Ls with
  | nil =>
    intro last
    refine ⟨[], [], last, rfl, List.Forall₂.nil, rfl, by simp, ?_, by simp⟩
    cases last <;> simp
  | cons L Ls ih =>
    intro last
    obtain ⟨h1, h2⟩ := layerZ_startHeight L
    -- a layer where nothing is inserted
    have keep : ∀ r : List Str × Except Err (Option α), (∀ c, startHeight L = some c → c ≠ 0 → b ≤ c → c ≤ top → ∃ t, last = some t ∧ NearestTenth (T c) t) →
        (writeLoop mode temp b top last (L :: Ls) = (L.lines.map (·.raw) ++ (writeLoop mode temp b top last Ls).1, (writeLoop mode temp b top last Ls).2)) →
        ∃ ts ins last', writeLoop mode temp b top last (L :: Ls) = (tower ins (L :: Ls), .ok last') ∧
          List.Forall₂ (fun t i => (t = none ∧ i = none) ∨ ∃ u s, t = some u ∧ i = some s ∧ IsTempLine u s) ts ins ∧
          Targets T b top last (L :: Ls) ts := by
      intro _ hc he
      obtain ⟨ts, ins, last', e, f, t⟩ := ih last
      refine ⟨none :: ts, none :: ins, last', ?_, List.Forall₂.cons (Or.inl ⟨rfl, rfl⟩) f, ?_, ?_, ?_, ?_⟩
      · rw [he, e]; simp [tower]
      · simp [t.length]
      · intro i u L' hi hL'
        cases i with
        | zero => simp at hi
        | succ i => exact t.sound i u L' (by simpa using hi) (by simpa using hL')
      · simpa using t.change
      · intro i L' c hi hL' hs c0 cb ct
        cases i with
        | zero =>
          simp only [List.getElem?_cons_zero, Option.some.injEq] at hL'
          subst hL'
          obtain ⟨u, hu, hn⟩ := hc c hs c0 cb ct
          exact ⟨u, by simp [hu], hn⟩
        | succ i =>
          obtain ⟨u, hu, hn⟩ := t.complete i L' c (by simpa using hi) (by simpa using hL') hs c0 cb ct
          exact ⟨u, by simpa using hu, hn⟩
    cases hz : layerZ L with
    | none =>
      have hL := h1.1 hz
      apply keep ([], .ok none)
      · intro c hs
        unfold startHeight at hs
        rw [hL] at hs; simp at hs
      · conv_lhs => unfold writeLoop
        rw [hz]
        simp [hL]
    | some cz =>
      have hs := h2 cz hz
      have hw : ∀ last1 ins1, tempStep mode temp b top last cz = .ok (last1, ins1) →
          writeLoop mode temp b top last (L :: Ls) =
            (ins1.toList ++ L.lines.map (·.raw) ++ (writeLoop mode temp b top last1 Ls).1, (writeLoop mode temp b top last1 Ls).2) := by
        intro last1 ins1 h
        conv_lhs => unfold writeLoop
        rw [hz]
        simp only [h]
      cases cz with
      | none =>
        apply keep ([], .ok none)
        · intro c hc; rw [hs] at hc; simp at hc
        · rw [hw last none rfl]; simp
      | some c =>
        by_cases hr : c ≠ 0 ∧ b ≤ c ∧ c ≤ top
        · by_cases ht : some (pyRound mode 1 (T c)) = last
          · apply keep ([], .ok none)
            · intro c' hc' _ _ _
              rw [hs] at hc'
              obtain rfl := Option.some.inj hc'
              exact ⟨_, ht.symm, pyRound_tenth mode (T c)⟩
            · rw [hw last none (by
                unfold tempStep
                simp only
                rw [if_pos hr, hT]
                simp only
                rw [if_neg (not_not.2 ht)])]
              simp
          · obtain ⟨ts, ins, last', e, f, t⟩ := ih (some (pyRound mode 1 (T c)))
            refine ⟨some (pyRound mode 1 (T c)) :: ts, some (generateTemperatureGcode (pyRound mode 1 (T c))) :: ins, last', ?_,
              List.Forall₂.cons (Or.inr ⟨_, _, rfl, rfl, tempLine_ok mode (T c)⟩) f, ?_, ?_, ?_, ?_⟩
            · rw [hw (some (pyRound mode 1 (T c))) (some (generateTemperatureGcode (pyRound mode 1 (T c)))) (by
                unfold tempStep
                simp only
                rw [if_pos hr, hT]
                simp only
                rw [if_pos ht])]
              rw [e]; simp [tower]
            · simp [t.length]
            · intro i u L' hi hL'
              cases i with
              | zero =>
                simp only [List.getElem?_cons_zero, Option.some.injEq] at hi hL'
                subst hi hL'
                exact ⟨c, hs, hr.1, hr.2.1, hr.2.2, pyRound_tenth mode (T c)⟩
              | succ i => exact t.sound i u L' (by simpa using hi) (by simpa using hL')
            · have := t.change
              cases last with
              | none => simpa using this
              | some u =>
                have hu : u ≠ pyRound mode 1 (T c) := fun h => ht (by rw [h])
                simp only [Option.toList_some, List.singleton_append, List.filterMap_cons_some (f := id) rfl] at this ⊢
                exact List.IsChain.cons_cons hu this
            · intro i L' c' hi hL' hs' c0 cb ct
              cases i with
              | zero => simp at hi
              | succ i =>
                obtain ⟨u, hu, hn⟩ := t.complete i L' c' (by simpa using hi) (by simpa using hL') hs' c0 cb ct
                refine ⟨u, ?_, hn⟩
                rw [← hu]
                rw [List.take_succ_cons, List.filterMap_cons_some (f := id) rfl]
                cases last with
                | none => simp
                | some v =>
                  simp only [Option.toList_some, List.singleton_append]
                  rw [List.getLast?_cons_cons]
        · apply keep ([], .ok none)
          · intro c' hc' h0 hb ht
            rw [hs] at hc'
            obtain rfl := Option.some.inj hc'
            exact absurd ⟨h0, hb, ht⟩ hr
          · rw [hw last none (by
              unfold tempStep
              simp only
              rw [if_neg hr])]
            simp

/-- Whatever the temperature function does: the output is that of some of the layers, all of them on success. -/
theorem writeLoop_any (mode : RoundMode) (temp : TempFn α) (b top : α) (Ls : List (Layer α)) : ∀ last, ∃ ins k,
    (writeLoop mode temp b top last Ls).1 = tower ins (Ls.take k) ∧ ins.length = (Ls.take k).length ∧
    (∀ s, some s ∈ ins → ∃ t : α, IsTempLine t s) ∧
    (∀ (i : ℕ) (L : Layer α), ins[i]? ≠ some none → (Ls.take k)[i]? = some L → L.lines ≠ []) ∧
    ((∃ l, (writeLoop mode temp b top last Ls).2 = .ok l) → k = Ls.length) := by
  induction Ls with
  | nil => intro last; exact ⟨[], 0, rfl, rfl, by simp, by simp, fun _ => rfl⟩
  | cons L Ls ih =>
    intro last
    unfold writeLoop
    cases hz : layerZ L with
    | none =>
      have hL := (layerZ_startHeight L).1.1 hz
      obtain ⟨ins, k, e, l, f, n, o⟩ := ih last
      refine ⟨none :: ins, k + 1, by rw [List.take_succ_cons]; simp [tower, hL, e], by simp [l], ?_, ?_, ?_⟩
      · intro s hs
        exact f s (by simpa using hs)
      · intro i L' hi hL'
        cases i with
        | zero => simp at hi
        | succ i => exact n i L' (by simpa using hi) (by simpa using hL')
      · intro h
        rw [List.length_cons, o h]
    | some cz =>
      have hL : L.lines ≠ [] := fun h => by rw [(layerZ_startHeight L).1.2 h] at hz; simp at hz
      simp only
      cases hs : tempStep mode temp b top last cz with
      | error er => exact ⟨[], 0, rfl, rfl, by simp, by simp, by simp⟩
      | ok p =>
        obtain ⟨last1, ins1⟩ := p
        obtain ⟨ins, k, e, l, f, n, o⟩ := ih last1
        refine ⟨ins1 :: ins, k + 1, by rw [List.take_succ_cons]; simp [tower, e], by simp [l], ?_, ?_, ?_⟩
        · intro s hm
          rcases List.mem_cons.1 hm with hm | hm
          · subst hm
            unfold tempStep at hs
            cases cz with
            | none => simp at hs
            | some c =>
              simp only at hs
              by_cases hr : c ≠ 0 ∧ b ≤ c ∧ c ≤ top
              · rw [if_pos hr] at hs
                cases ht : temp b top c with
                | error er => rw [ht] at hs; simp at hs
                | ok o =>
                  rw [ht] at hs
                  cases o with
                  | none => simp at hs
                  | some raw =>
                    simp only at hs
                    by_cases hq : some (pyRound mode 1 raw) ≠ last
                    · rw [if_pos hq] at hs
                      simp only [Except.ok.injEq, Prod.mk.injEq, Option.some.injEq] at hs
                      exact ⟨_, hs.2 ▸ tempLine_ok mode raw⟩
                    · rw [if_neg hq] at hs; simp at hs
              · rw [if_neg hr] at hs; simp at hs
          · exact f s hm
        · intro i L' hi hL'
          cases i with
          | zero =>
            simp only [List.take_succ_cons, List.getElem?_cons_zero, Option.some.injEq] at hL'
            exact hL' ▸ hL
          | succ i => exact n i L' (by simpa using hi) (by simpa using hL')
        · intro h
          rw [List.length_cons, o h]

theorem writeTemp_cases (mode : RoundMode) (temp : TempFn α) (minZ top : α) (g : GCode α) (hz : g.zmax = some top) :
    ((altitudes g = [] ∨ ∃ b, IsBase minZ (altitudes g) b ∧ top ≤ b) ∧ writeTemp mode temp minZ {} g = ([], .error .runtimeError)) ∨
    ∃ b, IsBase minZ (altitudes g) b ∧ b < top ∧ ∀ T : α → α, (∀ c, temp b top c = .ok (some (T c))) →
      ∃ ts ins last, writeTemp mode temp minZ {} g = (tower ins g.allLayers, .ok { zmin := some b, lastTarget := last }) ∧
        List.Forall₂ (fun t i => (t = none ∧ i = none) ∨ ∃ u s, t = some u ∧ i = some s ∧ IsTempLine u s) ts ins ∧
        Targets T b top none g.allLayers ts := by
  obtain ⟨s1, s2⟩ := scan_none minZ g.allLayers
  unfold writeTemp parseHeights
  by_cases hn : g.allLayers.filterMap startHeight = []
  · left
    refine ⟨Or.inl hn, ?_⟩
    rw [show (({} : TempSt α).zmin) = none from rfl, s1 hn]
  · obtain ⟨b, hb, hB⟩ := s2 hn
    rw [show (({} : TempSt α).zmin) = none from rfl, hb, hz]
    simp only
    by_cases hle : top ≤ b
    · left
      refine ⟨Or.inr ⟨b, hB, hle⟩, ?_⟩
      rw [if_pos hle]
    · right
      refine ⟨b, hB, not_le.1 hle, ?_⟩
      intro T hT
      rw [if_neg hle]
      simp only
      obtain ⟨ts, ins, last', e, f, t⟩ := writeLoop_spec (mode := mode) hT g.allLayers none
      refine ⟨ts, ins, last', ?_, f, t⟩
      rw [e]
      rfl

/-- A loaded program has a top height. -/
theorem load_zmax {env : Env α} {data : List Str} {light : Bool} {home : Home α} {g : GCode α}
    (h : GCode.load env data light home = .ok g) : data = [] ∨ ∃ top, g.zmax = some top := by
  rcases load_ok h with ⟨hd, _⟩ | ⟨_, s, hs, rfl⟩
  · exact Or.inl hd
  · exact Or.inr ⟨_, rfl⟩

end GCodeUtils
