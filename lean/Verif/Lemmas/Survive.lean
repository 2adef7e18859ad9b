import Verif.Spec.Survive
import Verif.Lemmas.ArcSafe

/-
  Arc optimisation: lines without E word, and circular moves.
-/

set_option linter.unusedSectionVars false

namespace GCodeUtils

open Spec

variable {α : Type} [Field α] [LinearOrder α] [IsStrictOrderedRing α] [FloorRing α]

/-- Segment by segment: the path is long enough and the filament positive. -/
theorem flow_steps {paths fils : List α} {avg : α} (h : List.Forall₂ (fun path fil => 1 / 1000000 ≤ path ∧ |fil / path / avg - 1| < 15 / 100) paths fils)
    (hp : 1 / 1000000 ≤ avg) : List.Forall₂ (fun path fil => 0 < path ∧ 0 < fil) paths fils := by
  have ha : 0 < avg := lt_of_lt_of_le (by norm_num) hp
  induction h with
  | nil => exact .nil
  | cons h _ ih =>
    rename_i path fil _ _ _
    refine .cons ?_ ih
    obtain ⟨h1, h2⟩ := h
    have hpath : 0 < path := lt_of_lt_of_le (by norm_num) h1
    refine ⟨hpath, ?_⟩
    have h3 := (abs_lt.1 h2).1
    have h4 : 0 < fil / path / avg := by linarith
    by_contra hn
    have : fil / path / avg ≤ 0 := div_nonpos_of_nonpos_of_nonneg (div_nonpos_of_nonpos_of_nonneg (not_lt.1 hn) hpath.le) ha.le
    exact absurd h4 (not_lt.2 this)

/-- Two facts about the same list of pairs. -/
theorem forall₂_trans {β γ δ : Type} {R : β → γ → Prop} {S : γ → δ → Prop} {a : List β} {b : List γ} {c : List δ} (h : List.Forall₂ R a b)
    (k : List.Forall₂ S b c) : List.Forall₂ (fun x z => ∃ y, R x y ∧ S y z) a c := by
  induction h generalizing c with
  | nil => cases k; exact .nil
  | cons h _ ih => cases k with | cons k ks => exact .cons ⟨_, h, k⟩ (ih ks)

theorem forall₂_and {β γ : Type} {R S : β → γ → Prop} {a : List β} {b : List γ} (h : List.Forall₂ R a b)
    (k : List.Forall₂ S a b) : List.Forall₂ (fun x z => R x z ∧ S x z) a b := by
  induction h with
  | nil => exact .nil
  | cons h _ ih => cases k with | cons k ks => exact .cons ⟨h, k⟩ (ih ks)

theorem forall₂_swap {β γ : Type} {R : β → γ → Prop} {a : List β} {b : List γ} (h : List.Forall₂ R a b) : List.Forall₂ (fun x y => R y x) b a := by
  induction h with
  | nil => exact .nil
  | cons h _ ih => exact .cons h ih

theorem steps_snd {β : Type} {a : β} {ls : List β} {s : β × β} (h : s ∈ steps (a :: ls)) : s.2 ∈ ls := by
  unfold steps at h
  exact (List.of_mem_zip h).2

theorem steps_onto {β : Type} (a : β) (ls : List β) {x : β} (h : x ∈ ls) : ∃ s ∈ steps (a :: ls), s.2 = x := by
  obtain ⟨u, v, rfl⟩ := List.append_of_mem h
  rcases List.eq_nil_or_concat u with rfl | ⟨zs, z, rfl⟩
  · exact ⟨(a, x), by simp [steps], rfl⟩
  · refine ⟨(z, x), ?_, rfl⟩
    have := steps_mem' (a :: zs) z x v
    simpa using this

/-- A replaced window is drawn. -/
theorem replacement_drawn {t : Trig α} (ht : t.sqrt 0 = 0) {start : PyLine α} {w gen : List (PyLine α)} (h : ArcReplacement t start w gen) (hE : ∀ l ∈ w, l.e ≠ none)
    (hM : ∀ l ∈ w, IsMove l) : DrawnWindow start w gen := by
  obtain ⟨⟨h8, _, arc', _, hraw', hgen'⟩, pts, c, r, paths, fils, arc, rest, ho, ha, hc, hg⟩ := h
  have hraw : c!"; generated from " <:+: arc.raw := by
    rcases hgen' with h | ⟨_, _, h⟩ <;> (rw [hg] at h; rw [(List.cons.inj h).1]; exact hraw')
  obtain ⟨hav, hfl⟩ := ho.flow hE
  have hpos := flow_steps hfl hav
  refine ⟨h8, ?_, ?_⟩
  · intro s hs
    have hmem := steps_snd hs
    have k1 := forall₂_trans ho.fils_eq (forall₂_swap hpos)
    have k2 := forall₂_trans (steps_forall₂ ho.at_points) (forall₂_trans ho.paths_eq hpos)
    obtain ⟨y, _, ⟨v, hv, hpv⟩⟩ := forall₂_mem_left k1 s hs
    obtain ⟨y2, _, ⟨pq, hpq, ⟨v2, hv2, hpv2⟩⟩⟩ := forall₂_mem_left k2 s hs
    refine ⟨hM _ hmem, hE _ hmem, ⟨v, hv, hpv.2⟩, ?_⟩
    by_contra hn
    rw [not_or, not_not, not_not] at hn
    obtain ⟨⟨a1, a2⟩, ⟨b1, b2⟩⟩ := hpq
    rw [a1, b1, a2, b2, Option.some.injEq, Option.some.injEq] at hn
    rw [hv2] at hpv2
    have hd : distance t pq.2 pq.1 = 0 := by
      unfold distance
      rw [hn.1, hn.2, sub_self, sub_self, mul_zero, add_zero, ht]
    rw [hd, show pyRound t.mode 7 (0 : α) = 0 by have := pyRound_natCast (α := α) t.mode 7 0; simpa using this] at hpv2
    exact lt_irrefl _ hpv2.1
  · obtain ⟨last, hl, hrel, habs⟩ := ha.filament
    have hlw : last ∈ w := List.mem_of_getLast? hl
    have hae : arc.e ≠ none := by
      by_cases hr : last.relativeE = some true
      · rw [(hrel hr).2]; exact Option.some_ne_none _
      · obtain ⟨_, e0, _, he⟩ := habs hr
        rw [he]; exact Option.some_ne_none _
    intro l hlg
    rw [hg] at hlg
    rcases List.mem_cons.1 hlg with rfl | hlg
    · exact ⟨hae, Or.inl hraw⟩
    · obtain ⟨last', hl', hcc⟩ := hc
      rw [hl, Option.some.injEq] at hl'
      subst hl'
      split at hcc
      · rename_i hcond
        obtain ⟨g, rfl, hcor, _, _, _, hge⟩ := hcc
        obtain rfl := List.mem_singleton.1 hlg
        refine ⟨?_, Or.inr hcor⟩
        rw [hge]
        -- the last line of the window carries its E coordinate
        have hs := steps_onto start _ hlw
        obtain ⟨s, hs, rfl⟩ := hs
        obtain ⟨v, _, hv⟩ := forall₂_mem_left ho.fils_eq s hs
        unfold Pushes at hv
        rw [if_neg hcond.1] at hv
        obtain ⟨a, _, h1, _⟩ := hv
        rw [h1]; exact Option.some_ne_none _
      · rw [hcc] at hlg; simp at hlg

/-- `Rewrites` for another description of the windows, which may use that their lines are lines of the program. -/
theorem rewrites_change {R S : PyLine α → List (PyLine α) → List (PyLine α) → Prop} {x0 : List (PyLine α)}
    (hS : ∀ l' w w' gen, (∀ k ∈ w, k ∈ x0) → List.Forall₂ Kept w w' → R l' w' gen → S l' w' gen) {x y : List (PyLine α)} (h : Rewrites R x y) :
    (∀ k ∈ x, k ∈ x0) → Rewrites S x y := by
  induction h with
  | done => intro _; exact .done
  | keep h _ ih => intro hx; exact .keep h (ih (fun k hk => hx k (List.mem_cons_of_mem _ hk)))
  | arc h hw hR _ ih =>
    intro hx
    exact .arc h hw (hS _ _ _ _ (fun k hk => hx k (List.mem_cons_of_mem _ (List.mem_append_left _ hk))) hw hR)
      (ih (fun k hk => hx k (List.mem_cons_of_mem _ (List.mem_append_right _ hk))))

/-- Lines without E word through a rewriting of drawn windows. -/
theorem rewrites_unfed {x y : List (PyLine α)} (h : Rewrites DrawnWindow x y) : unfedTexts y = unfedTexts x := by
  have hk : ∀ {l l' : PyLine α} (a : List (PyLine α)) (b : List (PyLine α)), Kept l l' → unfedTexts b = unfedTexts a → unfedTexts (l' :: b) = unfedTexts (l :: a) := by
    intro l l' a b h hab
    have he := (kept_z h).2
    have hr : l'.raw = l.raw := by rcases h with rfl | ⟨_, _, _, _, _, _, rfl⟩ <;> rfl
    unfold unfedTexts at hab ⊢
    rw [List.filter_cons, List.filter_cons, he]
    by_cases hd : l.e = none
    · rw [if_pos (by simpa using hd), if_pos (by simpa using hd), List.map_cons, List.map_cons, hr, hab]
    · rw [if_neg (by simpa using hd), if_neg (by simpa using hd), hab]
  have hskip : ∀ (u a : List (PyLine α)), (∀ l ∈ u, l.e ≠ none) → unfedTexts (u ++ a) = unfedTexts a := by
    intro u a hu
    unfold unfedTexts
    rw [List.filter_append, List.filter_eq_nil_iff.2, List.nil_append]
    intro l hl hd
    exact hu l hl (of_decide_eq_true hd)
  induction h with
  | done => rfl
  | keep h _ ih => exact hk _ _ h ih
  | arc h hw hR _ ih =>
    obtain ⟨_, hd, hg⟩ := hR
    refine hk _ _ h ?_
    rw [hskip _ _ (fun l hl => (hg l hl).1), ih, hskip]
    intro l hl
    obtain ⟨l', hl', hkk⟩ := forall₂_mem_left hw l hl
    rw [← (kept_z hkk).2]
    obtain ⟨s, hs, rfl⟩ := steps_onto _ _ hl'
    exact (hd s hs).2.1

/-- Circular moves through a rewriting. -/
theorem rewrites_curves {x0 : List (PyLine α)} (ha : CurvesApart x0) {x y : List (PyLine α)} (h : Rewrites DrawnWindow x y) :
    ∀ pre, x0 = pre ++ x → ownCurves y = ownCurves x := by
  have hk : ∀ {l l' : PyLine α} (a : List (PyLine α)) (b : List (PyLine α)), Kept l l' → ownCurves b = ownCurves a → ownCurves (l' :: b) = ownCurves (l :: a) := by
    intro l l' a b h hab
    have hc := kept_command h
    have hr : l'.raw = l.raw := by rcases h with rfl | ⟨_, _, _, _, _, _, rfl⟩ <;> rfl
    unfold ownCurves at hab ⊢
    have hd : OwnCurve l' ↔ OwnCurve l := by
      unfold OwnCurve IsCurve HasCmd; rw [hc, hr]
    by_cases hd' : OwnCurve l
    · rw [List.filter_cons_of_pos (by simpa only [decide_eq_true_eq] using hd.2 hd'), List.filter_cons_of_pos (by simpa only [decide_eq_true_eq] using hd'), hab]
      have : l' = l := by
        rcases h with h | ⟨hn, _⟩
        · exact h
        · rcases hd'.1 with hh | hh <;> (unfold HasCmd at hh; rw [hn] at hh; cases hh)
      rw [this]
    · rw [List.filter_cons_of_neg (by simpa only [decide_eq_true_eq] using fun h => hd' (hd.1 h)), List.filter_cons_of_neg (by simpa only [decide_eq_true_eq] using hd'), hab]
  have hskip : ∀ (u a : List (PyLine α)), (∀ l ∈ u, ¬ OwnCurve l) → ownCurves (u ++ a) = ownCurves a := by
    intro u a hu
    unfold ownCurves
    rw [List.filter_append, List.filter_eq_nil_iff.2, List.nil_append]
    intro l hl hd
    exact hu l hl (of_decide_eq_true hd)
  induction h with
  | done => intro _ _; rfl
  | keep h _ ih =>
    rename_i l l' a b _
    intro pre he
    exact hk _ _ h (ih (pre ++ [l]) (by rw [he]; simp))
  | arc h hw hR _ ih =>
    rename_i l l' w w' gen a b _
    intro pre he
    obtain ⟨h8, hd, hg⟩ := hR
    refine hk _ _ h ?_
    rw [hskip gen, ih (pre ++ l :: w) (by rw [he]; simp), hskip w]
    · intro k hkm hc
      refine ha (pre ++ [l]) w a (by rw [he]; simp) (by rw [hw.length_eq]; exact h8) ?_ k hkm hc.1
      intro k hkm
      obtain ⟨k', hk', hkk⟩ := forall₂_mem_left hw k hkm
      obtain ⟨s, hs, rfl⟩ := steps_onto l' _ hk'
      exact ⟨(isMove_congr (kept_command hkk)).1 (hd s hs).1, by rw [← (kept_z hkk).2]; exact (hd s hs).2.1⟩
    · intro k hkm hc
      rcases (hg k hkm).2 with hh | hh
      · exact hc.2 hh
      · rcases hc.1 with h2 | h2 <;> exact cmd_exclusive h2 (by decide) hh.1

end GCodeUtils
