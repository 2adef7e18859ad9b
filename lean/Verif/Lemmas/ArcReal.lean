import Verif.Lemmas.ArcGuard
import Verif.Lemmas.Circle
import Mathlib.Analysis.SpecialFunctions.Complex.Arg
import Mathlib.Analysis.Real.Pi.Bounds

/-
  The arc optimiser with the real square root, sine and phase.
-/

set_option linter.unusedSectionVars false

namespace GCodeUtils

open Spec

/-- The mathematical functions. -/
noncomputable def realTrig (mode : RoundMode) : Trig ℝ := ⟨Real.sqrt, Real.sin, fun x y => Complex.arg ⟨x, y⟩, Real.pi, mode⟩

variable {mode : RoundMode}

theorem turn_cases {α : Type} [Field α] [LinearOrder α] (t : Trig α) (c p q : α × α) :
    let d := t.phase (q.1 - c.1) (q.2 - c.2) - t.phase (p.1 - c.1) (p.2 - c.2)
    (d < -t.pi ∧ turn t c p q = d + 2 * t.pi) ∨ (t.pi < d ∧ turn t c p q = d - 2 * t.pi) ∨ (-t.pi ≤ d ∧ d ≤ t.pi ∧ turn t c p q = d) := by
  intro d
  unfold turn
  by_cases h1 : d < -t.pi
  · exact Or.inl ⟨h1, if_pos h1⟩
  · by_cases h2 : t.pi < d
    · exact Or.inr (Or.inl ⟨h2, by rw [if_neg h1, if_pos h2]⟩)
    · exact Or.inr (Or.inr ⟨not_lt.1 h1, not_lt.1 h2, by rw [if_neg h1, if_neg h2]⟩)

theorem turn_bounds (c p q : ℝ × ℝ) : -Real.pi ≤ turn (realTrig mode) c p q ∧ turn (realTrig mode) c p q ≤ Real.pi := by
  have h := turn_cases (realTrig mode) c p q
  simp only at h
  generalize turn (realTrig mode) c p q = T at *
  simp only [realTrig] at h
  have h1 := Complex.neg_pi_lt_arg ⟨q.1 - c.1, q.2 - c.2⟩
  have h2 := Complex.arg_le_pi ⟨q.1 - c.1, q.2 - c.2⟩
  have h3 := Complex.neg_pi_lt_arg ⟨p.1 - c.1, p.2 - c.2⟩
  have h4 := Complex.arg_le_pi ⟨p.1 - c.1, p.2 - c.2⟩
  have := Real.pi_pos
  rcases h with ⟨_, rfl⟩ | ⟨_, rfl⟩ | ⟨_, _, rfl⟩ <;> constructor <;> linarith

theorem sin_turn (c p q : ℝ × ℝ) : Real.sin (turn (realTrig mode) c p q) =
    Real.sin (Complex.arg ⟨q.1 - c.1, q.2 - c.2⟩ - Complex.arg ⟨p.1 - c.1, p.2 - c.2⟩) := by
  have h := turn_cases (realTrig mode) c p q
  simp only at h
  generalize turn (realTrig mode) c p q = T at *
  simp only [realTrig] at h
  rcases h with ⟨_, rfl⟩ | ⟨_, rfl⟩ | ⟨_, _, rfl⟩
  · rw [Real.sin_add_two_pi]
  · rw [Real.sin_sub_two_pi]
  · rfl

/-- The sign of the turn is that of the cross product. -/
theorem turn_cross (c p q : ℝ × ℝ) :
    (0 < (p.1 - c.1) * (q.2 - c.2) - (p.2 - c.2) * (q.1 - c.1) → 0 < turn (realTrig mode) c p q) ∧
    ((p.1 - c.1) * (q.2 - c.2) - (p.2 - c.2) * (q.1 - c.1) < 0 → turn (realTrig mode) c p q < 0) := by
  have key : (p.1 - c.1) * (q.2 - c.2) - (p.2 - c.2) * (q.1 - c.1) ≠ 0 →
      ∃ k : ℝ, 0 < k ∧ Real.sin (turn (realTrig mode) c p q) * k = (p.1 - c.1) * (q.2 - c.2) - (p.2 - c.2) * (q.1 - c.1) := by
    intro hne
    have hz0 : (⟨p.1 - c.1, p.2 - c.2⟩ : ℂ) ≠ 0 := by
      intro h
      have h1 := congrArg Complex.re h
      have h2 := congrArg Complex.im h
      simp only [Complex.zero_re, Complex.zero_im] at h1 h2
      rw [h1, h2] at hne; simp at hne
    have hz2 : (⟨q.1 - c.1, q.2 - c.2⟩ : ℂ) ≠ 0 := by
      intro h
      have h1 := congrArg Complex.re h
      have h2 := congrArg Complex.im h
      simp only [Complex.zero_re, Complex.zero_im] at h1 h2
      rw [h1, h2] at hne; simp at hne
    refine ⟨‖(⟨q.1 - c.1, q.2 - c.2⟩ : ℂ)‖ * ‖(⟨p.1 - c.1, p.2 - c.2⟩ : ℂ)‖, mul_pos (norm_pos_iff.2 hz2) (norm_pos_iff.2 hz0), ?_⟩
    rw [sin_turn, Real.sin_sub, Complex.sin_arg, Complex.sin_arg, Complex.cos_arg hz0, Complex.cos_arg hz2]
    have n0 := (norm_pos_iff.2 hz0).ne'
    have n2 := (norm_pos_iff.2 hz2).ne'
    field_simp
  obtain ⟨b1, b2⟩ := turn_bounds (mode := mode) c p q
  constructor
  · intro h
    obtain ⟨k, hk, he⟩ := key h.ne'
    have hs : 0 < Real.sin (turn (realTrig mode) c p q) := by
      by_contra hc
      have := mul_nonpos_of_nonpos_of_nonneg (not_lt.1 hc) hk.le
      linarith
    by_contra hc
    have := Real.sin_nonpos_of_nonpos_of_neg_pi_le (not_lt.1 hc) b1
    linarith
  · intro h
    obtain ⟨k, hk, he⟩ := key h.ne
    have hs : Real.sin (turn (realTrig mode) c p q) < 0 := by
      by_contra hc
      have := mul_nonneg (not_lt.1 hc) hk.le
      linarith
    by_contra hc
    have := Real.sin_nonneg_of_nonneg_of_le_pi (not_lt.1 hc) b2
    linarith

/-- An arc is at least as long as its chord. -/
theorem arc_ge_chord {a r s : ℝ} (h1 : -Real.pi ≤ a) (h2 : a ≤ Real.pi) (hn : 2 * r * Real.sin (a / 2) ≠ 0) (hs : 0 ≤ s) :
    s ≤ s * (r * a) / (2 * r * Real.sin (a / 2)) := by
  have hr : r ≠ 0 := by rintro rfl; simp at hn
  have hsin : Real.sin (a / 2) ≠ 0 := by intro h; rw [h] at hn; simp at hn
  have ha : a ≠ 0 := by rintro rfl; simp at hsin
  have hpi := Real.pi_pos
  have e : s * (r * a) / (2 * r * Real.sin (a / 2)) = s * ((a / 2) / Real.sin (a / 2)) := by field_simp
  rw [e]
  have hf : 1 ≤ (a / 2) / Real.sin (a / 2) := by
    rcases lt_or_gt_of_ne ha with hneg | hpos
    · have hp : 0 < Real.sin (-(a / 2)) := Real.sin_pos_of_pos_of_lt_pi (by linarith) (by linarith)
      have hl := Real.sin_lt (x := -(a / 2)) (by linarith)
      rw [Real.sin_neg] at hp hl
      rw [← neg_div_neg_eq, one_le_div hp]
      linarith
    · have hp : 0 < Real.sin (a / 2) := Real.sin_pos_of_pos_of_lt_pi (by linarith) (by linarith)
      have hl := Real.sin_lt (x := a / 2) (by linarith)
      rw [one_le_div hp]
      linarith
  nlinarith

theorem sum_zipWith_ge {f : ℝ → ℝ → ℝ} (fils : List ℝ) : ∀ as : List ℝ, fils.length = as.length → (∀ s ∈ fils, ∀ a ∈ as, s ≤ f s a) →
    fils.sum ≤ (List.zipWith f fils as).sum := by
  induction fils with
  | nil => intro as _ _; simp
  | cons s fils ih =>
    intro as hl h
    cases as with
    | nil => simp at hl
    | cons a as =>
      simp only [List.zipWith_cons_cons, List.sum_cons]
      have h1 := h s (by simp) a (by simp)
      have h2 := ih as (by simpa using hl) (fun s hs a ha => h s (List.mem_cons_of_mem _ hs) a (List.mem_cons_of_mem _ ha))
      linarith

section general

variable {α : Type} [Field α] [LinearOrder α] [IsStrictOrderedRing α] [FloorRing α]

theorem sum_pos_of {ls : List α} (hne : ls ≠ []) (h : ∀ v ∈ ls, 0 < v) : 0 < ls.sum := by
  induction ls with
  | nil => exact absurd rfl hne
  | cons a ls ih =>
    rw [List.sum_cons]
    cases ls with
    | nil => simpa using h a (by simp)
    | cons b ls => exact add_pos (h a (by simp)) (ih (by simp) (fun v hv => h v (List.mem_cons_of_mem _ hv)))

theorem forall₂_mem_right {β γ : Type} {R : β → γ → Prop} {a : List β} {b : List γ} (h : List.Forall₂ R a b) : ∀ y ∈ b, ∃ x ∈ a, R x y := by
  induction h with
  | nil => intro x hx; simp at hx
  | cons h _ ih =>
    intro x hx
    rcases List.mem_cons.1 hx with rfl | hx
    · exact ⟨_, by simp, h⟩
    · obtain ⟨y, hy, hr⟩ := ih x hx; exact ⟨y, List.mem_cons_of_mem _ hy, hr⟩

/-- In an accepted window every segment pushes filament and the average flow is positive. -/
theorem onArc_positive {t : Trig α} {start : PyLine α} {w : List (PyLine α)} {pts : List (α × α)} {c : α × α} {r : α} {paths fils : List α}
    (h : OnArc t start w pts c r paths fils) (hE : ∀ l ∈ w, l.e ≠ none) (hw : w ≠ []) :
    (∀ v ∈ fils, 0 < v) ∧ 0 < fils.sum ∧ 0 < fils.sum / paths.sum ∧ fils.length = (angles t c pts).length ∧ angles t c pts ≠ [] := by
  obtain ⟨h1, h2⟩ := h.flow hE
  have havg : 0 < fils.sum / paths.sum := lt_of_lt_of_le (by norm_num) h1
  have hf : ∀ v ∈ fils, 0 < v := by
    intro v hv
    obtain ⟨path, _, hp, hr⟩ := forall₂_mem_right h2 v hv
    have hp0 : 0 < path := lt_of_lt_of_le (by norm_num) hp
    have h3 := (abs_lt.1 hr).1
    have h4 : 0 < v / path / (fils.sum / paths.sum) := by linarith [show (15 / 100 : α) < 1 by norm_num]
    have h5 : 0 < v / path := by
      have := mul_pos h4 havg
      rwa [div_mul_cancel₀ _ havg.ne'] at this
    have := mul_pos h5 hp0
    rwa [div_mul_cancel₀ _ hp0.ne'] at this
  have hl1 := h.fils_eq.length_eq
  have hl2 := h.at_points.length_eq
  have hl3 : (angles t c pts).length = fils.length := by
    rw [← hl1]
    unfold angles steps
    simp only [List.length_map, List.length_zip, List.length_tail, hl2]
  have hwl := List.length_pos_iff.2 hw
  have hfl : fils.length = w.length := by
    rw [← hl1]
    unfold steps
    simp
  refine ⟨hf, sum_pos_of ?_ hf, havg, hl3.symm, ?_⟩
  · intro hc; rw [hc] at hfl; simp at hfl; omega
  · intro hc; rw [hc] at hl3; simp at hl3; omega

end general

end GCodeUtils
