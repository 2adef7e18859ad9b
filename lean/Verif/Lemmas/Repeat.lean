import Verif.Lemmas.TempCal

/-
  A second `write` on the same temperature gradient object.
-/

set_option linter.unusedSectionVars false

namespace GCodeUtils

open Spec

variable {α : Type} [Field α] [LinearOrder α] [IsStrictOrderedRing α] [FloorRing α]

/-- No layer starts at a height between `minZ` and `r`. -/
def NoneBetween (minZ r : α) (Ls : List (Layer α)) : Prop := ∀ L ∈ Ls, ∀ c, layerZ L = some (some c) → ¬ (minZ < c ∧ c < r)

theorem scan_stays {minZ r : α} (Ls : List (Layer α)) (h : NoneBetween minZ r Ls) : Ls.foldl (scanZmin minZ) (some r) = some r := by
  induction Ls with
  | nil => rfl
  | cons L Ls ih =>
    have h0 : scanZmin minZ (some r) L = some r := by
      unfold scanZmin
      cases hz : layerZ L with
      | none => rfl
      | some cz =>
        cases cz with
        | none => rfl
        | some c => exact if_neg (h L (by simp) c hz)
    rw [List.foldl_cons, h0]
    exact ih (fun L' hL => h L' (List.mem_cons_of_mem _ hL))

theorem scan_found {minZ : α} (Ls : List (Layer α)) : ∀ z r, Ls.foldl (scanZmin minZ) (some z) = some r → r ≤ z ∧ NoneBetween minZ r Ls := by
  induction Ls with
  | nil =>
    intro z r h
    obtain rfl := Option.some.inj h
    exact ⟨le_rfl, fun L hL => by simp at hL⟩
  | cons L Ls ih =>
    intro z r h
    rw [List.foldl_cons] at h
    obtain ⟨z', hz', hle, hc⟩ : ∃ z', scanZmin minZ (some z) L = some z' ∧ z' ≤ z ∧ ∀ c, layerZ L = some (some c) → ¬ (minZ < c ∧ c < z') := by
      unfold scanZmin
      cases hz : layerZ L with
      | none => exact ⟨z, rfl, le_rfl, fun c hc => by cases hc⟩
      | some cz =>
        cases cz with
        | none => exact ⟨z, rfl, le_rfl, fun c hc => by cases hc⟩
        | some c =>
          by_cases hh : minZ < c ∧ c < z
          · exact ⟨c, if_pos hh, hh.2.le, fun c' hc => by cases hc; exact fun h => lt_irrefl _ h.2⟩
          · exact ⟨z, if_neg hh, le_rfl, fun c' hc => by cases hc; exact hh⟩
    rw [hz'] at h
    obtain ⟨i1, i2⟩ := ih z' r h
    refine ⟨i1.trans hle, ?_⟩
    intro L' hL c hcl hh
    rcases List.mem_cons.1 hL with rfl | hL
    · exact hc c hcl ⟨hh.1, lt_of_lt_of_le hh.2 i1⟩
    · exact i2 L' hL c hcl hh

theorem scan_fresh {minZ : α} (Ls : List (Layer α)) : ∀ r, Ls.foldl (scanZmin minZ) none = some r → NoneBetween minZ r Ls := by
  induction Ls with
  | nil => intro r h; cases h
  | cons L Ls ih =>
    intro r h
    rw [List.foldl_cons] at h
    cases hz : layerZ L with
    | none =>
      rw [show scanZmin minZ none L = none by unfold scanZmin; rw [hz]] at h
      intro L' hL c hcl
      rcases List.mem_cons.1 hL with rfl | hL
      · rw [hz] at hcl; cases hcl
      · exact ih r h L' hL c hcl
    | some cz =>
      rw [show scanZmin minZ none L = cz by unfold scanZmin; rw [hz]] at h
      cases cz with
      | none =>
        intro L' hL c hcl
        rcases List.mem_cons.1 hL with rfl | hL
        · rw [hz] at hcl; cases hcl
        · exact ih r h L' hL c hcl
      | some z =>
        obtain ⟨i1, i2⟩ := scan_found Ls z r h
        intro L' hL c hcl hh
        rcases List.mem_cons.1 hL with rfl | hL
        · rw [hz] at hcl; cases hcl; exact absurd hh.2 (not_lt.2 i1)
        · exact i2 L' hL c hcl hh

/-- The heights found by a second scan. -/
theorem parseHeights_again {minZ : α} {zmax zmin : Option α} {Ls : List (Layer α)} {b top : α} (h : parseHeights minZ zmax zmin Ls = .ok (b, top)) :
    parseHeights minZ zmax (some b) Ls = .ok (b, top) := by
  unfold parseHeights at h ⊢
  cases hf : Ls.foldl (scanZmin minZ) zmin with
  | none => rw [hf] at h; cases h
  | some r =>
    rw [hf] at h
    have hr : r = b := by
      cases zmax with
      | none => cases h
      | some t =>
        simp only at h
        by_cases hl : t ≤ r
        · rw [if_pos hl] at h; cases h
        · rw [if_neg hl] at h; cases h; rfl
    subst hr
    have hn : NoneBetween minZ r Ls := by
      cases zmin with
      | none => exact scan_fresh Ls r hf
      | some z => exact (scan_found Ls z r hf).2
    rw [scan_stays Ls hn]
    exact h

/-- The writing loop from another last target: the same, or one line less. -/
theorem writeLoop_again (mode : RoundMode) (temp : TempFn α) (b top : α) (Ls : List (Layer α)) : ∀ (u : α) (out : List Str) (last : Option α),
    writeLoop mode temp b top none Ls = (out, .ok last) →
    ∃ out' last', writeLoop mode temp b top (some u) Ls = (out', .ok last') ∧ (last ≠ none → last' = last) ∧
      (out' = out ∨ ∃ x s y, IsTempLine u s ∧ out = x ++ s :: y ∧ out' = x ++ y) := by
  induction Ls with
  | nil =>
    intro u out last h
    unfold writeLoop at h
    cases h
    exact ⟨[], some u, rfl, fun h => absurd rfl h, Or.inl rfl⟩
  | cons L Ls ih =>
    intro u out last h
    unfold writeLoop at h ⊢
    cases hz : layerZ L with
    | none =>
      rw [hz] at h
      exact ih u out last h
    | some cz =>
      rw [hz] at h
      simp only at h ⊢
      -- the decision for this layer
      have hstep : (tempStep mode temp b top none cz = .ok (none, none) ∧ tempStep mode temp b top (some u) cz = .ok (some u, none)) ∨
          (∃ er, tempStep mode temp b top none cz = .error er) ∨
          ∃ t, IsTempLine t (generateTemperatureGcode t) ∧ tempStep mode temp b top none cz = .ok (some t, some (generateTemperatureGcode t)) ∧
            ((u ≠ t ∧ tempStep mode temp b top (some u) cz = .ok (some t, some (generateTemperatureGcode t))) ∨
             (u = t ∧ tempStep mode temp b top (some u) cz = .ok (some t, none))) := by
        unfold tempStep
        cases cz with
        | none => exact Or.inl ⟨rfl, rfl⟩
        | some c =>
          simp only
          by_cases hc : c ≠ 0 ∧ b ≤ c ∧ c ≤ top
          · rw [if_pos hc, if_pos hc]
            cases ht : temp b top c with
            | error er => exact Or.inr (Or.inl ⟨er, rfl⟩)
            | ok o =>
              cases o with
              | none => exact Or.inl ⟨rfl, rfl⟩
              | some raw =>
                refine Or.inr (Or.inr ⟨pyRound mode 1 raw, tempLine_ok mode raw, ?_, ?_⟩)
                · simp only; rw [if_pos (by simp)]
                · by_cases he : u = pyRound mode 1 raw
                  · right
                    refine ⟨he, ?_⟩
                    simp only
                    rw [if_neg (by rw [he]; simp), he]
                  · left
                    refine ⟨he, ?_⟩
                    simp only
                    rw [if_pos (fun hh => he (Option.some.inj hh).symm)]
          · rw [if_neg hc, if_neg hc]
            exact Or.inl ⟨rfl, rfl⟩
      rcases hstep with ⟨h1, h2⟩ | ⟨er, h1⟩ | ⟨t, hline, h1, ⟨hne, h2⟩ | ⟨heq, h2⟩⟩
      · rw [h1] at h
        rw [h2]
        simp only at h ⊢
        cases hw : writeLoop mode temp b top none Ls with
        | mk o r =>
          rw [hw] at h
          simp only [Prod.mk.injEq] at h
          obtain ⟨ho, rfl⟩ := h
          obtain ⟨out', last', e1, e3, e4⟩ := ih u o last hw
          rw [e1]
          refine ⟨_, last', rfl, e3, ?_⟩
          rcases e4 with rfl | ⟨x, s, y, hs, rfl, rfl⟩
          · exact Or.inl ho
          · refine Or.inr ⟨L.lines.map (·.raw) ++ x, s, y, hs, ?_, ?_⟩
            · rw [← ho]; simp
            · simp
      · rw [h1] at h; cases h
      · rw [h1] at h
        rw [h2]
        simp only at h ⊢
        cases hw : writeLoop mode temp b top (some t) Ls with
        | mk o r =>
          rw [hw] at h
          simp only [Prod.mk.injEq] at h
          obtain ⟨ho, rfl⟩ := h
          exact ⟨_, last, rfl, fun _ => rfl, Or.inl ho⟩
      · rw [h1] at h
        rw [h2]
        simp only at h ⊢
        cases hw : writeLoop mode temp b top (some t) Ls with
        | mk o r =>
          rw [hw] at h
          simp only [Prod.mk.injEq] at h
          obtain ⟨ho, rfl⟩ := h
          refine ⟨_, last, rfl, fun _ => rfl, Or.inr ⟨[], generateTemperatureGcode t, L.lines.map (·.raw) ++ o, heq ▸ hline, ?_, ?_⟩⟩
          · rw [← ho]; simp
          · simp

end GCodeUtils
