import Verif.Spec.ArcPath
import Verif.Lemmas.ArcReal
import Mathlib.Topology.Order.IntermediateValue
import Mathlib.Analysis.SpecialFunctions.Trigonometric.Angle

/-
  The path of an arc beside the path of the moves it replaces.
-/

set_option linter.unusedSectionVars false

namespace GCodeUtils

open Spec

variable {mode : RoundMode}

/-! ### one chord -/

section chord

variable {ρa ρb a b : ℝ}

theorem chord_den (ha : 0 < ρa) (hb : 0 < ρb) (hab : a < b) (hpi : b - a < Real.pi) {θ : ℝ} (h1 : a ≤ θ) (h2 : θ ≤ b) :
    0 ≤ Real.sin (θ - a) ∧ 0 ≤ Real.sin (b - θ) ∧ 0 < ρa * Real.sin (θ - a) + ρb * Real.sin (b - θ) := by
  have p1 : 0 ≤ Real.sin (θ - a) := Real.sin_nonneg_of_nonneg_of_le_pi (by linarith) (by linarith)
  have p2 : 0 ≤ Real.sin (b - θ) := Real.sin_nonneg_of_nonneg_of_le_pi (by linarith) (by linarith)
  refine ⟨p1, p2, ?_⟩
  rcases lt_or_eq_of_le h1 with h | h
  · have : 0 < Real.sin (θ - a) := Real.sin_pos_of_pos_of_lt_pi (by linarith) (by linarith)
    have := mul_pos ha this
    have := mul_nonneg hb.le p2
    linarith
  · have : 0 < Real.sin (b - θ) := Real.sin_pos_of_pos_of_lt_pi (by linarith) (by linarith)
    have := mul_pos hb this
    have := mul_nonneg ha.le p1
    linarith

/-- The share of the chord at which it crosses direction `θ`. -/
noncomputable def chordShare (ρa ρb a b θ : ℝ) : ℝ := ρa * Real.sin (θ - a) / (ρa * Real.sin (θ - a) + ρb * Real.sin (b - θ))

theorem chordShare_point (ha : 0 < ρa) (hb : 0 < ρb) (hab : a < b) (hpi : b - a < Real.pi) {θ : ℝ} (h1 : a ≤ θ) (h2 : θ ≤ b) :
    0 ≤ chordShare ρa ρb a b θ ∧ chordShare ρa ρb a b θ ≤ 1 ∧ ∃ ρ, 0 ≤ ρ ∧
      (1 - chordShare ρa ρb a b θ) * (ρa * Real.cos a) + chordShare ρa ρb a b θ * (ρb * Real.cos b) = ρ * Real.cos θ ∧
      (1 - chordShare ρa ρb a b θ) * (ρa * Real.sin a) + chordShare ρa ρb a b θ * (ρb * Real.sin b) = ρ * Real.sin θ := by
  obtain ⟨p1, p2, hD⟩ := chord_den ha hb hab hpi h1 h2
  have hs : 0 ≤ Real.sin (b - a) := Real.sin_nonneg_of_nonneg_of_le_pi (by linarith) (by linarith)
  unfold chordShare
  refine ⟨div_nonneg (mul_nonneg ha.le p1) hD.le, (div_le_one hD).2 (by have := mul_nonneg hb.le p2; linarith),
    ρa * ρb * Real.sin (b - a) / (ρa * Real.sin (θ - a) + ρb * Real.sin (b - θ)), div_nonneg (mul_nonneg (mul_nonneg ha.le hb.le) hs) hD.le, ?_, ?_⟩
  · have k : Real.sin (b - θ) * Real.cos a + Real.sin (θ - a) * Real.cos b = Real.sin (b - a) * Real.cos θ := by
      rw [Real.sin_sub, Real.sin_sub, Real.sin_sub]; ring
    generalize Real.sin (b - θ) = v at *
    generalize Real.sin (θ - a) = u at *
    generalize Real.sin (b - a) = w at *
    have h0 := hD.ne'
    field_simp
    linear_combination ρb * k
  · have k : Real.sin (b - θ) * Real.sin a + Real.sin (θ - a) * Real.sin b = Real.sin (b - a) * Real.sin θ := by
      rw [Real.sin_sub, Real.sin_sub, Real.sin_sub]; ring
    generalize Real.sin (b - θ) = v at *
    generalize Real.sin (θ - a) = u at *
    generalize Real.sin (b - a) = w at *
    have h0 := hD.ne'
    field_simp
    linear_combination ρb * k

theorem chordShare_onto (ha : 0 < ρa) (hb : 0 < ρb) (hab : a < b) (hpi : b - a < Real.pi) {τ : ℝ} (h1 : 0 ≤ τ) (h2 : τ ≤ 1) :
    ∃ θ, a ≤ θ ∧ θ ≤ b ∧ chordShare ρa ρb a b θ = τ := by
  have hc : ContinuousOn (chordShare ρa ρb a b) (Set.Icc a b) := by
    unfold chordShare
    apply ContinuousOn.div
    · fun_prop
    · fun_prop
    · intro θ hθ
      exact (chord_den ha hb hab hpi hθ.1 hθ.2).2.2.ne'
  have := intermediate_value_Icc hab.le hc
  have h0 : chordShare ρa ρb a b a = 0 := by unfold chordShare; simp
  have h3 : chordShare ρa ρb a b b = 1 := by
    unfold chordShare
    have h := (chord_den ha hb hab hpi hab.le le_rfl).2.2
    rw [sub_self, Real.sin_zero, mul_zero, add_zero] at h ⊢
    exact div_self h.ne'
  rw [h0, h3] at this
  obtain ⟨θ, hθ, rfl⟩ := this ⟨h1, h2⟩
  exact ⟨θ, hθ.1, hθ.2, rfl⟩

/-- How far from the centre a point of a chord is. -/
theorem chord_radius {r ε τ ρ θ : ℝ} (hra : |ρa - r| ≤ ε) (hrb : |ρb - r| ≤ ε) (hr : 0 ≤ r) (hab : |b - a| ≤ Real.pi)
    (h1 : 0 ≤ τ) (h2 : τ ≤ 1) (ha : 0 ≤ ρa) (hb : 0 ≤ ρb) (hρ : 0 ≤ ρ)
    (hx : (1 - τ) * (ρa * Real.cos a) + τ * (ρb * Real.cos b) = ρ * Real.cos θ)
    (hy : (1 - τ) * (ρa * Real.sin a) + τ * (ρb * Real.sin b) = ρ * Real.sin θ) :
    |ρ - r| ≤ ε + r * (1 - Real.cos (|b - a| / 2)) := by
  obtain ⟨a1, a2⟩ := abs_le.1 hra
  obtain ⟨b1, b2⟩ := abs_le.1 hrb
  have hε : 0 ≤ ε := le_trans (abs_nonneg _) hra
  have hcos : Real.cos (|b - a| / 2) = Real.cos ((b - a) / 2) := by
    rcases abs_choice (b - a) with h | h <;> rw [h]
    rw [neg_div, Real.cos_neg]
  have hc0 : 0 ≤ Real.cos ((b - a) / 2) := by
    rw [← hcos]
    exact Real.cos_nonneg_of_neg_pi_div_two_le_of_le (by have := abs_nonneg (b - a); have := Real.pi_pos; linarith) (by linarith)
  have hc1 := Real.cos_le_one ((b - a) / 2)
  rw [hcos]
  -- the distance as a component in direction θ
  have e1 : ρ = (1 - τ) * ρa * Real.cos (a - θ) + τ * ρb * Real.cos (b - θ) := by
    have h3 := Real.sin_sq_add_cos_sq θ
    have : ρ = (ρ * Real.cos θ) * Real.cos θ + (ρ * Real.sin θ) * Real.sin θ := by
      linear_combination (-ρ) * h3
    rw [this, ← hx, ← hy, Real.cos_sub, Real.cos_sub]
    ring
  have e2 : ρ * Real.cos (θ - (a + b) / 2) = ((1 - τ) * ρa + τ * ρb) * Real.cos ((b - a) / 2) := by
    rw [Real.cos_sub, mul_add, ← mul_assoc, ← mul_assoc, ← hx, ← hy]
    have t1 : Real.cos ((b - a) / 2) = Real.cos a * Real.cos ((a + b) / 2) + Real.sin a * Real.sin ((a + b) / 2) := by
      rw [← Real.cos_sub, ← Real.cos_neg]; congr 1; ring
    have t2 : Real.cos ((b - a) / 2) = Real.cos b * Real.cos ((a + b) / 2) + Real.sin b * Real.sin ((a + b) / 2) := by
      rw [← Real.cos_sub]; congr 1; ring
    linear_combination (-(1 - τ) * ρa) * t1 - (τ * ρb) * t2
  have u1 : 0 ≤ (1 - τ) * ρa := mul_nonneg (by linarith) ha
  have u2 : 0 ≤ τ * ρb := mul_nonneg h1 hb
  have hup : ρ ≤ r + ε := by
    have c1 := mul_le_mul_of_nonneg_left (Real.cos_le_one (a - θ)) u1
    have c2 := mul_le_mul_of_nonneg_left (Real.cos_le_one (b - θ)) u2
    have d1 := mul_le_mul_of_nonneg_left (show ρa ≤ r + ε by linarith) (show 0 ≤ 1 - τ by linarith)
    have d2 := mul_le_mul_of_nonneg_left (show ρb ≤ r + ε by linarith) h1
    nlinarith
  have hlo : r * Real.cos ((b - a) / 2) - ε ≤ ρ := by
    have c1 := mul_le_mul_of_nonneg_left (Real.cos_le_one (θ - (a + b) / 2)) hρ
    have d1 := mul_le_mul_of_nonneg_left (show r - ε ≤ ρa by linarith) (show 0 ≤ 1 - τ by linarith)
    have d2 := mul_le_mul_of_nonneg_left (show r - ε ≤ ρb by linarith) h1
    have d3 : r - ε ≤ (1 - τ) * ρa + τ * ρb := by linarith
    have d4 := mul_le_mul_of_nonneg_right d3 hc0
    have d5 := mul_le_mul_of_nonneg_left hc1 hε
    nlinarith
  have : 0 ≤ r * (1 - Real.cos ((b - a) / 2)) := mul_nonneg hr (by linarith)
  rw [abs_le]
  constructor <;> nlinarith

end chord

theorem polar_near (c : ℝ × ℝ) (ρ ρ' θ : ℝ) {δ : ℝ} (h : |ρ - ρ'| ≤ δ) :
    ((polar c ρ θ).1 - (polar c ρ' θ).1) ^ 2 + ((polar c ρ θ).2 - (polar c ρ' θ).2) ^ 2 ≤ δ ^ 2 := by
  have e : ((polar c ρ θ).1 - (polar c ρ' θ).1) ^ 2 + ((polar c ρ θ).2 - (polar c ρ' θ).2) ^ 2 = (ρ - ρ') ^ 2 := by
    unfold polar
    simp only
    have := Real.sin_sq_add_cos_sq θ
    linear_combination (ρ - ρ') ^ 2 * this
  rw [e]
  exact sq_le_sq' (by linarith [(abs_le.1 h).1]) (abs_le.1 h).2

/-- A chord and the arc between its directions. -/
theorem chord_within {c : ℝ × ℝ} {r ε A ρa ρb a b : ℝ} (ha : 0 < ρa) (hb : 0 < ρb) (hra : |ρa - r| ≤ ε) (hrb : |ρb - r| ≤ ε) (hr : 0 ≤ r)
    (hne : a ≠ b) (hA : |b - a| ≤ A) (hpi : A < Real.pi) :
    (∀ τ, 0 ≤ τ → τ ≤ 1 → ∃ θ ∈ Set.uIcc a b,
      ((1 - τ) * (polar c ρa a).1 + τ * (polar c ρb b).1 - (polar c r θ).1) ^ 2 + ((1 - τ) * (polar c ρa a).2 + τ * (polar c ρb b).2 - (polar c r θ).2) ^ 2 ≤ (ε + r * (1 - Real.cos (A / 2))) ^ 2) ∧
    (∀ θ ∈ Set.uIcc a b, ∃ τ, 0 ≤ τ ∧ τ ≤ 1 ∧
      ((1 - τ) * (polar c ρa a).1 + τ * (polar c ρb b).1 - (polar c r θ).1) ^ 2 + ((1 - τ) * (polar c ρa a).2 + τ * (polar c ρb b).2 - (polar c r θ).2) ^ 2 ≤ (ε + r * (1 - Real.cos (A / 2))) ^ 2) := by
  have hmono : ε + r * (1 - Real.cos (|b - a| / 2)) ≤ ε + r * (1 - Real.cos (A / 2)) := by
    have : Real.cos (A / 2) ≤ Real.cos (|b - a| / 2) :=
      Real.cos_le_cos_of_nonneg_of_le_pi (by positivity) (by linarith [Real.pi_pos]) (by linarith)
    nlinarith
  -- a point of the chord in direction θ is close to the arc
  have hnear : ∀ τ ρ θ, 0 ≤ τ → τ ≤ 1 → 0 ≤ ρ → (1 - τ) * (ρa * Real.cos a) + τ * (ρb * Real.cos b) = ρ * Real.cos θ →
      (1 - τ) * (ρa * Real.sin a) + τ * (ρb * Real.sin b) = ρ * Real.sin θ →
      ((1 - τ) * (polar c ρa a).1 + τ * (polar c ρb b).1 - (polar c r θ).1) ^ 2 + ((1 - τ) * (polar c ρa a).2 + τ * (polar c ρb b).2 - (polar c r θ).2) ^ 2 ≤ (ε + r * (1 - Real.cos (A / 2))) ^ 2 := by
    intro τ ρ θ h1 h2 h3 hx hy
    have hd := le_trans (chord_radius hra hrb hr (le_trans hA hpi.le) h1 h2 ha.le hb.le h3 hx hy) hmono
    have hp := polar_near c ρ r θ hd
    have e1 : (1 - τ) * (polar c ρa a).1 + τ * (polar c ρb b).1 = (polar c ρ θ).1 := by
      unfold polar; simp only; linear_combination hx
    have e2 : (1 - τ) * (polar c ρa a).2 + τ * (polar c ρb b).2 = (polar c ρ θ).2 := by
      unfold polar; simp only; linear_combination hy
    rw [e1, e2]; exact hp
  rcases lt_or_gt_of_ne hne with hab | hab
  · have hw : b - a < Real.pi := lt_of_le_of_lt (le_trans (le_abs_self _) hA) hpi
    rw [Set.uIcc_of_le hab.le]
    constructor
    · intro τ h1 h2
      obtain ⟨θ, k1, k2, rfl⟩ := chordShare_onto ha hb hab hw h1 h2
      obtain ⟨_, _, ρ, m3, m4, m5⟩ := chordShare_point ha hb hab hw k1 k2
      exact ⟨θ, ⟨k1, k2⟩, hnear _ ρ θ h1 h2 m3 m4 m5⟩
    · intro θ hθ
      obtain ⟨m1, m2, ρ, m3, m4, m5⟩ := chordShare_point ha hb hab hw hθ.1 hθ.2
      exact ⟨_, m1, m2, hnear _ ρ θ m1 m2 m3 m4 m5⟩
  · have hw : a - b < Real.pi := lt_of_le_of_lt (le_trans (by rw [abs_sub_comm]; exact le_abs_self _) hA) hpi
    rw [Set.uIcc_of_ge hab.le]
    constructor
    · intro τ h1 h2
      obtain ⟨θ, k1, k2, k3⟩ := chordShare_onto hb ha hab hw (τ := 1 - τ) (by linarith) (by linarith)
      obtain ⟨_, _, ρ, m3, m4, m5⟩ := chordShare_point hb ha hab hw k1 k2
      rw [k3] at m4 m5
      exact ⟨θ, ⟨k1, k2⟩, hnear _ ρ θ h1 h2 m3 (by linear_combination m4) (by linear_combination m5)⟩
    · intro θ hθ
      obtain ⟨m1, m2, ρ, m3, m4, m5⟩ := chordShare_point hb ha hab hw hθ.1 hθ.2
      refine ⟨1 - chordShare ρb ρa b a θ, by linarith, by linarith, hnear _ ρ θ (by linarith) (by linarith) m3 (by linear_combination m4) (by linear_combination m5)⟩

/-! ### directions -/

theorem cos_turn (c p q : ℝ × ℝ) : Real.cos (turn (realTrig mode) c p q) =
    Real.cos (Complex.arg ⟨q.1 - c.1, q.2 - c.2⟩ - Complex.arg ⟨p.1 - c.1, p.2 - c.2⟩) := by
  have h := turn_cases (realTrig mode) c p q
  simp only at h
  generalize turn (realTrig mode) c p q = T at *
  simp only [realTrig] at h
  rcases h with ⟨_, rfl⟩ | ⟨_, rfl⟩ | ⟨_, _, rfl⟩
  · rw [Real.cos_add_two_pi]
  · rw [Real.cos_sub_two_pi]
  · rfl

theorem distance_norm (c p : ℝ × ℝ) : distance (realTrig mode) c p = ‖(⟨p.1 - c.1, p.2 - c.2⟩ : ℂ)‖ := by
  unfold distance realTrig
  simp only
  rw [Complex.norm_def, Complex.normSq_mk]
  congr 1
  ring

/-- A point in polar form. -/
theorem polar_of (c p : ℝ × ℝ) (hne : p ≠ c) : 0 < distance (realTrig mode) c p ∧
    p = polar c (distance (realTrig mode) c p) (Complex.arg ⟨p.1 - c.1, p.2 - c.2⟩) := by
  have hz : (⟨p.1 - c.1, p.2 - c.2⟩ : ℂ) ≠ 0 := by
    intro h
    have h1 := congrArg Complex.re h
    have h2 := congrArg Complex.im h
    simp only [Complex.zero_re, Complex.zero_im] at h1 h2
    exact hne (Prod.ext (by linarith) (by linarith))
  rw [distance_norm]
  refine ⟨norm_pos_iff.2 hz, ?_⟩
  unfold polar
  rw [Complex.norm_mul_cos_arg, Complex.norm_mul_sin_arg]
  exact Prod.ext (by simp) (by simp)

theorem polar_dir {c : ℝ × ℝ} {ρ ρ' θ θ' : ℝ} (h : 0 < ρ) (h' : 0 < ρ') (he : polar c ρ θ = polar c ρ' θ') :
    ρ = ρ' ∧ Real.cos θ = Real.cos θ' ∧ Real.sin θ = Real.sin θ' := by
  unfold polar at he
  have e1 := congrArg Prod.fst he
  have e2 := congrArg Prod.snd he
  simp only [add_right_inj] at e1 e2
  have s1 := Real.sin_sq_add_cos_sq θ
  have s2 := Real.sin_sq_add_cos_sq θ'
  have : ρ ^ 2 = ρ' ^ 2 := by
    have f1 : ρ ^ 2 = (ρ * Real.cos θ) ^ 2 + (ρ * Real.sin θ) ^ 2 := by linear_combination (-ρ ^ 2) * s1
    have f2 : ρ' ^ 2 = (ρ' * Real.cos θ') ^ 2 + (ρ' * Real.sin θ') ^ 2 := by linear_combination (-ρ' ^ 2) * s2
    rw [f1, f2, e1, e2]
  have hρ : ρ = ρ' := by
    rcases sq_eq_sq_iff_eq_or_eq_neg.1 this with h3 | h3
    · exact h3
    · linarith
  subst hρ
  exact ⟨rfl, mul_left_cancel₀ h.ne' e1, mul_left_cancel₀ h.ne' e2⟩

/-- Going on by the turn leads to the direction of the next point. -/
theorem polar_turn {c p q : ℝ × ℝ} {ρ φ : ℝ} (hρ : 0 < ρ) (hp : p = polar c ρ φ) (hq : q ≠ c) :
    q = polar c (distance (realTrig mode) c q) (φ + turn (realTrig mode) c p q) := by
  have hpc : p ≠ c := by
    intro h
    rw [hp] at h
    unfold polar at h
    have e1 := congrArg Prod.fst h
    have e2 := congrArg Prod.snd h
    simp only [add_eq_left, mul_eq_zero, hρ.ne', false_or] at e1 e2
    have := Real.sin_sq_add_cos_sq φ
    rw [e1, e2] at this
    norm_num at this
  obtain ⟨d1, d2⟩ := polar_of (mode := mode) c p hpc
  obtain ⟨_, d4⟩ := polar_of (mode := mode) c q hq
  obtain ⟨_, f2, f3⟩ := polar_dir hρ d1 (hp.symm.trans d2)
  conv_lhs => rw [d4]
  unfold polar
  rw [Real.cos_add, Real.sin_add, cos_turn, sin_turn, f2, f3, ← Real.cos_add, ← Real.sin_add]
  simp

/-! ### the whole path -/

/-- The directions of the points, and both paths. -/
theorem path_chain {c : ℝ × ℝ} {r ε A : ℝ} (hr : 0 ≤ r) (hpi : A < Real.pi) (s : ℝ) (hs : s = 1 ∨ s = -1) (rest : List (ℝ × ℝ)) : ∀ (p : ℝ × ℝ) (ρ φ : ℝ), 0 < ρ → p = polar c ρ φ → |ρ - r| ≤ ε →
    rest ≠ [] → (∀ q ∈ rest, q ≠ c ∧ |distance (realTrig mode) c q - r| ≤ ε) → (∀ a ∈ angles (realTrig mode) c (p :: rest), 0 < s * a ∧ s * a ≤ A) →
    0 < s * (angles (realTrig mode) c (p :: rest)).sum ∧
    (∃ q ρ', (p :: rest).getLast? = some q ∧ 0 < ρ' ∧ q = polar c ρ' (φ + (angles (realTrig mode) c (p :: rest)).sum)) ∧
    (∀ x, OnPath (p :: rest) x → ∃ θ, 0 ≤ θ ∧ θ ≤ s * (angles (realTrig mode) c (p :: rest)).sum ∧ (x.1 - (polar c r (φ + s * θ)).1) ^ 2 + (x.2 - (polar c r (φ + s * θ)).2) ^ 2 ≤ (ε + r * (1 - Real.cos (A / 2))) ^ 2) ∧
    (∀ θ, 0 ≤ θ → θ ≤ s * (angles (realTrig mode) c (p :: rest)).sum → ∃ x, OnPath (p :: rest) x ∧ (x.1 - (polar c r (φ + s * θ)).1) ^ 2 + (x.2 - (polar c r (φ + s * θ)).2) ^ 2 ≤ (ε + r * (1 - Real.cos (A / 2))) ^ 2) := by
  have hss : s * s = 1 := by rcases hs with rfl | rfl <;> norm_num
  have hsne : s ≠ 0 := by rcases hs with rfl | rfl <;> norm_num
  induction rest with
  | nil => intro p ρ φ _ _ _ h; exact absurd rfl h
  | cons q rest ih =>
    intro p ρ φ hρ hp hpr _ hq hang
    obtain ⟨q1, q2⟩ := hq q (by simp)
    have hρ' := (polar_of (mode := mode) c q q1).1
    have hqp := polar_turn (mode := mode) hρ hp q1
    have eang : angles (realTrig mode) c (p :: q :: rest) = turn (realTrig mode) c p q :: angles (realTrig mode) c (q :: rest) := rfl
    rw [eang] at hang ⊢
    generalize turn (realTrig mode) c p q = a at *
    generalize distance (realTrig mode) c q = ρ' at *
    obtain ⟨a1, a2⟩ := hang a (by simp)
    rw [List.sum_cons]
    -- the first chord
    have hbet : ∀ θ, 0 ≤ θ → θ ≤ s * a → φ + s * θ ∈ Set.uIcc φ (φ + a) := by
      intro θ t1 t2
      rcases hs with rfl | rfl
      · rw [Set.uIcc_of_le (by linarith)]; constructor <;> linarith
      · rw [Set.uIcc_of_ge (by linarith)]; constructor <;> linarith
    have hbet' : ∀ ψ ∈ Set.uIcc φ (φ + a), ∃ θ, 0 ≤ θ ∧ θ ≤ s * a ∧ ψ = φ + s * θ := by
      intro ψ hψ
      refine ⟨s * (ψ - φ), ?_, ?_, by linear_combination (-(ψ - φ)) * hss⟩
      · rcases hs with rfl | rfl
        · rw [Set.uIcc_of_le (by linarith)] at hψ; linarith [hψ.1]
        · rw [Set.uIcc_of_ge (by linarith)] at hψ; linarith [hψ.2]
      · rcases hs with rfl | rfl
        · rw [Set.uIcc_of_le (by linarith)] at hψ; linarith [hψ.2]
        · rw [Set.uIcc_of_ge (by linarith)] at hψ; linarith [hψ.1]
    have habs : |φ + a - φ| ≤ A := by
      rw [add_sub_cancel_left]
      rcases hs with rfl | rfl
      · rw [abs_of_pos (by linarith)]; linarith
      · rw [abs_of_neg (by linarith)]; linarith
    have hane : φ ≠ φ + a := by
      intro h
      have : a = 0 := by linarith
      rw [this, mul_zero] at a1
      exact lt_irrefl _ a1
    obtain ⟨w1, w2⟩ := chord_within (c := c) (r := r) (ε := ε) (A := A) hρ hρ' hpr q2 hr hane habs hpi
    rw [← hp, ← hqp] at w1 w2
    have hfirst : ∀ x, (∃ τ : ℝ, 0 ≤ τ ∧ τ ≤ 1 ∧ x = ((1 - τ) * p.1 + τ * q.1, (1 - τ) * p.2 + τ * q.2)) →
        ∃ θ, 0 ≤ θ ∧ θ ≤ s * a ∧ (x.1 - (polar c r (φ + s * θ)).1) ^ 2 + (x.2 - (polar c r (φ + s * θ)).2) ^ 2 ≤ (ε + r * (1 - Real.cos (A / 2))) ^ 2 := by
      rintro x ⟨τ, t1, t2, rfl⟩
      obtain ⟨ψ, hψ, hd⟩ := w1 τ t1 t2
      obtain ⟨θ, k1, k2, rfl⟩ := hbet' ψ hψ
      exact ⟨θ, k1, k2, hd⟩
    have hfirst' : ∀ θ, 0 ≤ θ → θ ≤ s * a → ∃ x, OnPath (p :: q :: rest) x ∧ (x.1 - (polar c r (φ + s * θ)).1) ^ 2 + (x.2 - (polar c r (φ + s * θ)).2) ^ 2 ≤ (ε + r * (1 - Real.cos (A / 2))) ^ 2 := by
      intro θ t1 t2
      obtain ⟨τ, k1, k2, hd⟩ := w2 _ (hbet θ t1 t2)
      exact ⟨_, ⟨(p, q), by rw [steps_cons]; simp, τ, k1, k2, rfl⟩, hd⟩
    cases rest with
    | nil =>
      have e0 : angles (realTrig mode) c [q] = [] := rfl
      rw [e0, List.sum_nil, add_zero]
      refine ⟨a1, ⟨q, ρ', by simp, hρ', hqp⟩, ?_, hfirst'⟩
      rintro x ⟨st, hst, h3⟩
      have : st = (p, q) := by simpa [steps] using hst
      subst this
      exact hfirst x h3
    | cons q' rest' =>
      obtain ⟨i1, ⟨l, ρl, i2, i3, i4⟩, i5, i6⟩ := ih q ρ' (φ + a) hρ' hqp q2 (by simp) (fun x hx => hq x (List.mem_cons_of_mem _ hx)) (fun x hx => hang x (List.mem_cons_of_mem _ hx))
      generalize (angles (realTrig mode) c (q :: q' :: rest')).sum = S at *
      have hmul : s * (a + S) = s * a + s * S := by ring
      have hshift : ∀ θ, φ + a + s * θ = φ + s * (s * a + θ) := by
        intro θ; linear_combination (-a) * hss
      refine ⟨by rw [hmul]; linarith, ⟨l, ρl, by rw [← i2]; simp [List.getLast?_cons_cons], i3, by rw [i4, add_assoc]⟩, ?_, ?_⟩
      · rintro x ⟨st, hst, h3⟩
        rw [steps_cons] at hst
        rcases List.mem_cons.1 hst with rfl | hst
        · obtain ⟨θ, k1, k2, k3⟩ := hfirst x h3
          exact ⟨θ, k1, by rw [hmul]; linarith, k3⟩
        · obtain ⟨θ, k1, k2, k3⟩ := i5 x ⟨st, hst, h3⟩
          refine ⟨s * a + θ, by linarith, by rw [hmul]; linarith, ?_⟩
          rw [← hshift]; exact k3
      · intro θ t1 t2
        by_cases hθ : θ ≤ s * a
        · exact hfirst' θ t1 hθ
        · obtain ⟨x, ⟨st, k1, k2⟩, k3⟩ := i6 (θ - s * a) (by linarith) (by rw [hmul] at t2; linarith)
          refine ⟨x, ⟨st, by rw [steps_cons]; exact List.mem_cons_of_mem _ k1, k2⟩, ?_⟩
          rw [hshift] at k3
          rwa [show s * a + (θ - s * a) = θ by ring] at k3

/-! ### the arc the printer is told to follow -/

theorem turn_unique {x y : ℝ} (hx : 0 < x) (hx' : x ≤ 2 * Real.pi) (hy : 0 < y) (hy' : y ≤ 2 * Real.pi) (hc : Real.cos x = Real.cos y) (hs : Real.sin x = Real.sin y) : x = y := by
  have : Real.cos (x - y) = 1 := by
    rw [Real.cos_sub, hc, hs]
    have := Real.sin_sq_add_cos_sq y
    linarith [this]
  have := (Real.cos_eq_one_iff_of_lt_of_lt (by linarith) (by linarith)).1 this
  linarith

theorem onTurn_iff {s : ℝ} (hs : s = 1 ∨ s = -1) {c p q x : ℝ × ℝ} {r ρ ρ' φ S : ℝ} (hρ : 0 < ρ) (hρ' : 0 < ρ') (hp : p = polar c ρ φ)
    (hS : 0 < S) (hS' : S ≤ 2 * Real.pi) (hq : q = polar c ρ' (φ + s * S)) :
    OnTurn s c r p q x ↔ ∃ θ, 0 ≤ θ ∧ θ ≤ S ∧ x = polar c r (φ + s * θ) := by
  constructor
  · rintro ⟨φ', S', θ, ρ1, ρ2, h1, h2, h3, h4, h5, h6, h7, h8, rfl⟩
    obtain ⟨_, c1, c2⟩ := polar_dir hρ h1 (hp.symm.trans h7)
    have hdir : ∀ y, Real.cos (φ' + y) = Real.cos (φ + y) ∧ Real.sin (φ' + y) = Real.sin (φ + y) := by
      intro y
      rw [Real.cos_add, Real.cos_add, Real.sin_add, Real.sin_add, c1, c2]
      exact ⟨rfl, rfl⟩
    obtain ⟨_, d1, d2⟩ := polar_dir hρ' h2 (hq.symm.trans h8)
    rw [(hdir _).1] at d1
    rw [(hdir _).2] at d2
    have e1 : Real.cos (s * S) = Real.cos (s * S') := by
      have f1 := Real.cos_sub (φ + s * S) φ
      have f2 := Real.cos_sub (φ + s * S') φ
      rw [add_sub_cancel_left] at f1 f2
      rw [f1, f2, d1, d2]
    have e2 : Real.sin (s * S) = Real.sin (s * S') := by
      have f1 := Real.sin_sub (φ + s * S) φ
      have f2 := Real.sin_sub (φ + s * S') φ
      rw [add_sub_cancel_left] at f1 f2
      rw [f1, f2, d1, d2]
    have e3 : S = S' := by
      rcases hs with rfl | rfl
      · rw [one_mul, one_mul] at e1 e2
        exact turn_unique hS hS' h3 h4 e1 e2
      · rw [neg_one_mul, neg_one_mul, Real.cos_neg, Real.cos_neg] at e1
        rw [neg_one_mul, neg_one_mul, Real.sin_neg, Real.sin_neg, neg_inj] at e2
        exact turn_unique hS hS' h3 h4 e1 e2
    refine ⟨θ, h5, by rw [e3]; exact h6, ?_⟩
    unfold polar
    rw [(hdir _).1, (hdir _).2]
  · rintro ⟨θ, h1, h2, rfl⟩
    exact ⟨φ, S, θ, ρ, ρ', hρ, hρ', hS, hS', h1, h2, hp, hq, rfl⟩

/-- Moves that all go the same way round, by at most `A` each and not more than one turn in all, stay beside the arc from the first to
the last point. -/
theorem path_within {c : ℝ × ℝ} {r ε A : ℝ} (hr : 0 ≤ r) (hpi : A < Real.pi) {s : ℝ} (hs : s = 1 ∨ s = -1) {p q : ℝ × ℝ} {rest : List (ℝ × ℝ)} (hne : rest ≠ [])
    (hq : ∀ x ∈ p :: rest, x ≠ c ∧ |distance (realTrig mode) c x - r| ≤ ε) (hang : ∀ a ∈ angles (realTrig mode) c (p :: rest), 0 < s * a ∧ s * a ≤ A)
    (hsum : s * (angles (realTrig mode) c (p :: rest)).sum ≤ 2 * Real.pi) (hlast : (p :: rest).getLast? = some q) :
    Alongside (ε + r * (1 - Real.cos (A / 2))) (OnPath (p :: rest)) (OnTurn s c r p q) := by
  have hss : s * s = 1 := by rcases hs with rfl | rfl <;> norm_num
  obtain ⟨h1, h2⟩ := hq p (by simp)
  obtain ⟨d1, d2⟩ := polar_of (mode := mode) c p h1
  obtain ⟨i1, ⟨l, ρl, i2, i3, i4⟩, i5, i6⟩ := path_chain (mode := mode) hr hpi s hs rest p _ _ d1 d2 h2 hne (fun x hx => hq x (List.mem_cons_of_mem _ hx)) hang
  rw [hlast] at i2
  obtain rfl := Option.some.inj i2
  generalize (angles (realTrig mode) c (p :: rest)).sum = S at *
  generalize Complex.arg ⟨p.1 - c.1, p.2 - c.2⟩ = φ at *
  have e : ∀ x, OnTurn s c r p q x ↔ ∃ θ, 0 ≤ θ ∧ θ ≤ s * S ∧ x = polar c r (φ + s * θ) := fun x =>
    onTurn_iff hs d1 i3 d2 i1 hsum (by rw [i4]; congr 1; linear_combination (-S) * hss)
  constructor
  · intro x hx
    obtain ⟨θ, k1, k2, k3⟩ := i5 x hx
    exact ⟨_, (e _).2 ⟨θ, k1, k2, rfl⟩, k3⟩
  · intro x hx
    obtain ⟨θ, k1, k2, rfl⟩ := (e _).1 hx
    exact i6 θ k1 k2

/-- Two steps the same way, below a quarter turn each, are seen as that way. -/
theorem two_steps {c p0 p1 p2 : ℝ × ℝ} {s : ℝ} (hs : s = 1 ∨ s = -1) (h0 : p0 ≠ c) (h1 : p1 ≠ c) (h2 : p2 ≠ c)
    (ha : 0 < s * turn (realTrig mode) c p0 p1) (hb : 0 < s * turn (realTrig mode) c p1 p2)
    (ha' : s * turn (realTrig mode) c p0 p1 < Real.pi / 2) (hb' : s * turn (realTrig mode) c p1 p2 < Real.pi / 2) : 0 < s * turn (realTrig mode) c p0 p2 := by
  obtain ⟨d1, d2⟩ := polar_of (mode := mode) c p0 h0
  have e1 := polar_turn (mode := mode) d1 d2 h1
  have d3 := (polar_of (mode := mode) c p1 h1).1
  have e2 := polar_turn (mode := mode) d3 e1 h2
  have d4 := (polar_of (mode := mode) c p2 h2).1
  obtain ⟨t1, t2⟩ := turn_cross (mode := mode) c p0 p2
  generalize turn (realTrig mode) c p0 p1 = a at *
  generalize turn (realTrig mode) c p1 p2 = b at *
  generalize turn (realTrig mode) c p0 p2 = T at *
  generalize distance (realTrig mode) c p0 = ρ0 at *
  generalize distance (realTrig mode) c p2 = ρ2 at *
  generalize Complex.arg ⟨p0.1 - c.1, p0.2 - c.2⟩ = φ at *
  have hx : (p0.1 - c.1) * (p2.2 - c.2) - (p0.2 - c.2) * (p2.1 - c.1) = ρ0 * ρ2 * Real.sin (a + b) := by
    rw [d2, e2]
    unfold polar
    simp only [add_sub_cancel_left]
    have : Real.sin (a + b) = Real.sin (φ + a + b - φ) := by congr 1; ring
    rw [this, Real.sin_sub]
    ring
  rw [hx] at t1 t2
  have hm := mul_pos d1 d4
  rcases hs with rfl | rfl
  · rw [one_mul] at *
    exact t1 (mul_pos hm (Real.sin_pos_of_pos_of_lt_pi (by linarith) (by linarith)))
  · have : Real.sin (a + b) < 0 := Real.sin_neg_of_neg_of_neg_pi_lt (by linarith) (by linarith)
    have := t2 (mul_neg_of_pos_of_neg hm this)
    linarith

end GCodeUtils
