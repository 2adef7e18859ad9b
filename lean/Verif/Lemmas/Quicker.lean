import Verif.Lemmas.MovedTime
import Verif.Spec.Quicker
import Mathlib.Tactic.LinearCombination

/-
  The time of a move falls with its speed and with the speed it is entered at.
-/

set_option linter.unusedSectionVars false

namespace GCodeUtils

open Spec

variable {α : Type} [Field α] [LinearOrder α] [IsStrictOrderedRing α] [FloorRing α]

/-- Speeding up: with the length `s` long enough for it, or too short. -/
theorem ramp_up {c v s : α} (hc : 0 ≤ c) (hv : 0 < v) (h : c ≤ v) :
    (v ^ 2 - c ^ 2 ≤ 2000 * s → rampTime c v s = (2000 * s + (v - c) ^ 2) / (2000 * v)) ∧
    (2000 * s < v ^ 2 - c ^ 2 → rampTime c v s = 2 * s / (c + v)) := by
  have hd : |v ^ 2 - c ^ 2| = v ^ 2 - c ^ 2 := abs_of_nonneg (by nlinarith)
  have hs : c + v ≠ 0 := by positivity
  unfold rampTime
  simp only [hd]
  constructor
  · intro k
    split_ifs with h1 h2
    · subst h1
      field_simp
      ring
    · field_simp
      ring
    · exact absurd ⟨by rw [div_le_iff₀ (by norm_num)]; linarith, hv.ne'⟩ h2
  · intro k
    split_ifs with h1 h2
    · subst h1
      field_simp
      ring
    · have := h2.1
      rw [div_le_iff₀ (by norm_num)] at this
      linarith
    · field_simp

/-- Slowing down. -/
theorem ramp_down {c v s : α} (hv : 0 < v) (h : v ≤ c) :
    (c ^ 2 - v ^ 2 ≤ 2000 * s → rampTime c v s = (2000 * s - (c - v) ^ 2) / (2000 * v)) ∧
    (2000 * s < c ^ 2 - v ^ 2 → rampTime c v s = 2 * s / (c + v)) := by
  have hd : |v ^ 2 - c ^ 2| = c ^ 2 - v ^ 2 := by rw [abs_sub_comm]; exact abs_of_nonneg (by nlinarith)
  have hs : c + v ≠ 0 := by have : 0 < c := lt_of_lt_of_le hv h; positivity
  unfold rampTime
  simp only [hd]
  constructor
  · intro k
    split_ifs with h1 h2
    · subst h1
      field_simp
      ring
    · field_simp
      ring
    · exact absurd ⟨by rw [div_le_iff₀ (by norm_num)]; linarith, hv.ne'⟩ h2
  · intro k
    split_ifs with h1 h2
    · subst h1
      field_simp
      ring
    · have := h2.1
      rw [div_le_iff₀ (by norm_num)] at this
      linarith
    · field_simp

theorem ramp_speed_up {c a b s : α} (hc : 0 ≤ c) (ha : 0 < a) (hca : c ≤ a) (hab : a ≤ b) (hs : 0 ≤ s) : rampTime c b s ≤ rampTime c a s := by
  have hb : 0 < b := lt_of_lt_of_le ha hab
  have h1 := ramp_up (s := s) hc ha hca
  have h2 := ramp_up (s := s) hc hb (hca.trans hab)
  rcases le_or_gt (b ^ 2 - c ^ 2) (2000 * s) with k | k
  · have k' : a ^ 2 - c ^ 2 ≤ 2000 * s := by nlinarith
    rw [h1.1 k', h2.1 k, div_le_div_iff₀ (by positivity) (by positivity)]
    have : 0 ≤ (b - a) * (2000 * s + c ^ 2 - a * b) := mul_nonneg (by linarith) (by nlinarith)
    nlinarith
  · rw [h2.2 k]
    rcases le_or_gt (a ^ 2 - c ^ 2) (2000 * s) with k' | k'
    · rw [h1.1 k', div_le_div_iff₀ (by positivity) (by positivity)]
      have : 0 ≤ 2000 * s * (b + c - 2 * a) + (a - c) ^ 2 * (b + c) := by
        rcases le_or_gt (2 * a) (b + c) with q | q
        · have := mul_nonneg hs (sub_nonneg.2 q)
          have := mul_nonneg (sq_nonneg (a - c)) (by linarith : 0 ≤ b + c)
          nlinarith
        · have h3 : (b ^ 2 - c ^ 2) * (b + c - 2 * a) ≤ 2000 * s * (b + c - 2 * a) :=
            mul_le_mul_of_nonpos_right k.le (by linarith)
          have h4 : 0 ≤ (b + c) * (a - b) ^ 2 := mul_nonneg (by linarith) (sq_nonneg _)
          nlinarith
      nlinarith
    · rw [h1.2 k']
      exact div_le_div_of_nonneg_left (by linarith) (by linarith) (by linarith)

theorem ramp_speed_down {c a b s : α} (ha : 0 < a) (hab : a ≤ b) (hbc : b ≤ c) (hs : 0 ≤ s) : rampTime c b s ≤ rampTime c a s := by
  have hb : 0 < b := lt_of_lt_of_le ha hab
  have h1 := ramp_down (s := s) ha (hab.trans hbc)
  have h2 := ramp_down (s := s) hb hbc
  rcases le_or_gt (c ^ 2 - a ^ 2) (2000 * s) with k | k
  · have k' : c ^ 2 - b ^ 2 ≤ 2000 * s := by nlinarith
    rw [h1.1 k, h2.1 k', div_le_div_iff₀ (by positivity) (by positivity)]
    have : 0 ≤ (b - a) * (2000 * s - c ^ 2 + a * b) := mul_nonneg (by linarith) (by nlinarith)
    nlinarith
  · rw [h1.2 k]
    rcases le_or_gt (c ^ 2 - b ^ 2) (2000 * s) with k' | k'
    · rw [h2.1 k', div_le_div_iff₀ (by positivity) (by linarith)]
      have : 2000 * s * (a + c - 2 * b) ≤ (c - b) ^ 2 * (a + c) := by
        rcases le_or_gt (a + c) (2 * b) with q | q
        · have := mul_nonneg hs (sub_nonneg.2 q)
          have := mul_nonneg (sq_nonneg (c - b)) (by linarith : 0 ≤ a + c)
          nlinarith
        · have h3 : 2000 * s * (a + c - 2 * b) ≤ (c ^ 2 - a ^ 2) * (a + c - 2 * b) := mul_le_mul_of_nonneg_right k.le (by linarith)
          have h4 : 0 ≤ (a + c) * (a - b) ^ 2 := mul_nonneg (by linarith) (sq_nonneg _)
          nlinarith
      nlinarith
    · rw [h2.2 k']
      exact div_le_div_of_nonneg_left (by linarith) (by linarith) (by linarith)

/-- A faster move, entered at the same speed. -/
theorem ramp_speed {c a b s : α} (hc : 0 ≤ c) (ha : 0 < a) (hab : a ≤ b) (hs : 0 ≤ s) : rampTime c b s ≤ rampTime c a s := by
  rcases le_total c a with h | h
  · exact ramp_speed_up hc ha h hab hs
  · rcases le_total b c with h' | h'
    · exact ramp_speed_down ha hab h' hs
    · exact (ramp_speed_up hc (lt_of_lt_of_le ha h) le_rfl h' hs).trans (ramp_speed_down ha h le_rfl hs)

theorem ramp_entry_up {c d v s : α} (hc : 0 ≤ c) (hcd : c ≤ d) (hdv : d ≤ v) (hv : 0 < v) (hs : 0 ≤ s) : rampTime d v s ≤ rampTime c v s := by
  have h1 := ramp_up (s := s) hc hv (hcd.trans hdv)
  have h2 := ramp_up (s := s) (hc.trans hcd) hv hdv
  rcases le_or_gt (v ^ 2 - c ^ 2) (2000 * s) with k | k
  · have k' : v ^ 2 - d ^ 2 ≤ 2000 * s := by nlinarith
    rw [h1.1 k, h2.1 k']
    refine div_le_div_of_nonneg_right ?_ (by positivity)
    nlinarith
  · rw [h1.2 k]
    rcases le_or_gt (v ^ 2 - d ^ 2) (2000 * s) with k' | k'
    · rw [h2.1 k']
      refine le_trans (b := 2 * s / (d + v)) ?_ (div_le_div_of_nonneg_left (by linarith) (by linarith) (by linarith))
      rw [div_le_div_iff₀ (by positivity) (by linarith)]
      have h3 : 0 ≤ (v - d) * (2000 * s - (v ^ 2 - d ^ 2)) := mul_nonneg (by linarith) (by linarith)
      nlinarith
    · rw [h2.2 k']
      exact div_le_div_of_nonneg_left (by linarith) (by linarith) (by linarith)

theorem ramp_entry_down {c d v s : α} (hvc : v ≤ c) (hcd : c ≤ d) (hv : 0 < v) (hs : 0 ≤ s) : rampTime d v s ≤ rampTime c v s := by
  have h1 := ramp_down (s := s) hv hvc
  have h2 := ramp_down (s := s) hv (hvc.trans hcd)
  rcases le_or_gt (d ^ 2 - v ^ 2) (2000 * s) with k | k
  · have k' : c ^ 2 - v ^ 2 ≤ 2000 * s := by nlinarith
    rw [h1.1 k', h2.1 k]
    refine div_le_div_of_nonneg_right ?_ (by positivity)
    nlinarith
  · rw [h2.2 k]
    have hB : 2 * s / (d + v) ≤ 2 * s / (c + v) := div_le_div_of_nonneg_left (by linarith) (by linarith) (by linarith)
    rcases le_or_gt (c ^ 2 - v ^ 2) (2000 * s) with k' | k'
    · rw [h1.1 k']
      refine hB.trans ?_
      rw [div_le_div_iff₀ (by linarith) (by positivity)]
      have h3 : 0 ≤ (c - v) * (2000 * s - (c ^ 2 - v ^ 2)) := mul_nonneg (by linarith) (by linarith)
      nlinarith
    · rw [h1.2 k']
      exact hB

/-- A move entered faster. -/
theorem ramp_entry {c d v s : α} (hc : 0 ≤ c) (hcd : c ≤ d) (hv : 0 < v) (hs : 0 ≤ s) : rampTime d v s ≤ rampTime c v s := by
  rcases le_total d v with h | h
  · exact ramp_entry_up hc hcd h hv hs
  · rcases le_total v c with h' | h'
    · exact ramp_entry_down h' hcd hv hs
    · exact (ramp_entry_down le_rfl h hv hs).trans (ramp_entry_up hc h' le_rfl hv hs)

theorem ramp_mono {c d a b s : α} (hc : 0 ≤ c) (hcd : c ≤ d) (ha : 0 < a) (hab : a ≤ b) (hs : 0 ≤ s) : rampTime d b s ≤ rampTime c a s :=
  (ramp_entry hc hcd (lt_of_lt_of_le ha hab) hs).trans (ramp_speed hc ha hab hs)

/-- The same pace, but faster. -/
structure PaceQuick (p p' : Pace α) : Prop where
  place : (p'.x, p'.y, p'.z, p'.e) = (p.x, p.y, p.z, p.e)
  dir : p'.dx = p.dx ∧ p'.dy = p.dy
  low : 0 ≤ p.v
  speed : p.v ≤ p'.v

theorem paceLength_nonneg {hyp : α → α → α} (hh : ∀ a b, 0 ≤ hyp a b) (p : Pace α) (l : PyLine α) : 0 ≤ paceLength hyp p l := by
  unfold paceLength
  simp only
  by_cases h : hyp (l.x.getD p.x - p.x) (l.y.getD p.y - p.y) ≠ 0
  · rw [if_pos h]; exact hh _ _
  · rw [if_neg h]
    cases l.z with
    | some z => exact abs_nonneg _
    | none => cases l.e with
      | some e => exact abs_nonneg _
      | none => exact le_rfl

theorem quick_step {hyp : α → α → α} (hh : ∀ a b, 0 ≤ hyp a b) {p p' : Pace α} {l l' : PyLine α} (hq : Quicker l l')
    (hm : Linear l → l'.relative = l.relative ∧ l'.relativeE = l.relativeE) (hpos : ∀ f, Linear l → l.f = some f → 0 < f)
    (hf : Linear l → 0 < p.v ∨ l.f ≠ none) (hp : PaceQuick p p') :
    lineTime hyp p' l' ≤ lineTime hyp p l ∧ PaceQuick (p.next l) (p'.next l') ∧ (Linear l → 0 < (p.next l).v) ∧ (0 < p.v → 0 < (p.next l).v) := by
  by_cases hL : Linear l
  · have hL' : Linear l' := (linear_congr hq.command).2 hL
    obtain ⟨m1, m2⟩ := hm hL
    obtain ⟨w1, w2, w3, w4⟩ := hq.words
    obtain ⟨e1, e2, e3, e4⟩ : p'.x = p.x ∧ p'.y = p.y ∧ p'.z = p.z ∧ p'.e = p.e := by simpa using hp.place
    obtain ⟨d1, d2⟩ := hp.dir
    have hv : 0 < (l.f.map (· / 60)).getD p.v ∧ (l.f.map (· / 60)).getD p.v ≤ (l'.f.map (· / 60)).getD p'.v := by
      rcases hq.feed hL with ⟨f1, f2⟩ | ⟨a, b, f1, f2, hab⟩
      · rw [f1, f2]
        exact ⟨(hf hL).resolve_right (fun k => k f1), hp.speed⟩
      · rw [f1, f2]
        have := hpos a hL f1
        simp only [Option.map_some, Option.getD_some]
        exact ⟨by positivity, div_le_div_of_nonneg_right hab (by norm_num)⟩
    have hlen : paceLength hyp p' l' = paceLength hyp p l := by
      unfold paceLength
      rw [w1, w2, w3, w4, e1, e2, e3, e4, m1, m2]
    have hnext : PaceQuick (p.next l) (p'.next l') := by
      unfold Pace.next
      rw [if_pos hL, if_pos hL', w1, w2, w3, w4, e1, e2, e3, e4]
      exact ⟨rfl, ⟨rfl, rfl⟩, hv.1.le, hv.2⟩
    have hnv : 0 < (p.next l).v := by
      unfold Pace.next
      rw [if_pos hL]
      exact hv.1
    refine ⟨?_, hnext, fun _ => hnv, fun _ => hnv⟩
    unfold lineTime
    rw [if_pos hL, if_pos hL', hlen, hnext.dir.1, hnext.dir.2, d1, d2]
    refine ramp_mono ?_ ?_ hnv hnext.speed (paceLength_nonneg hh p l)
    · split_ifs
      · exact hp.low
      · exact le_rfl
    · split_ifs
      · exact hp.speed
      · exact le_rfl
  · have hL' : ¬ Linear l' := fun k => hL ((linear_congr hq.command).1 k)
    unfold lineTime Pace.next
    rw [if_neg hL, if_neg hL', if_neg hL, if_neg hL']
    exact ⟨(dwell_congr hq.command fun _ => hq.raw hL).le, hp, fun k => absurd k hL, fun k => k⟩

theorem quick_times {hyp : α → α → α} (hh : ∀ a b, 0 ≤ hyp a b) {ls ls' : List (PyLine α)} (h : List.Forall₂ Quicker ls ls') :
    ∀ {p p' : Pace α}, List.Forall₂ (fun l l' : PyLine α => Linear l → l'.relative = l.relative ∧ l'.relativeE = l.relativeE) ls ls' →
    (∀ l ∈ ls, Linear l → ∀ f, l.f = some f → 0 < f) →
    (0 < p.v ∨ ∀ pre l post, ls = pre ++ l :: post → Linear l → ∃ k ∈ pre ++ [l], Linear k ∧ k.f ≠ none) → PaceQuick p p' →
    List.Forall₂ (fun t t' => t' ≤ t) (lineTimes hyp p ls) (lineTimes hyp p' ls') := by
  induction h with
  | nil => intro p p' _ _ _ _; exact .nil
  | @cons l l' ls ls' h1 _ ih =>
    intro p p' hm hpos hs hp
    cases hm with
    | cons m1 m2 =>
      have hf : Linear l → 0 < p.v ∨ l.f ≠ none := by
        intro hL
        rcases hs with hs | hs
        · exact .inl hs
        · obtain ⟨k, hk, _, hk2⟩ := hs [] l ls rfl hL
          simp only [List.nil_append, List.mem_singleton] at hk
          subst hk
          exact .inr hk2
      obtain ⟨a, b, c, d⟩ := quick_step hh h1 m1 (fun f hL => hpos l (by simp) hL f) hf hp
      refine .cons a (ih m2 (fun k hk => hpos k (by simp [hk])) ?_ b)
      by_cases hL : Linear l
      · exact .inl (c hL)
      · rcases hs with hs | hs
        · exact .inl (d hs)
        · refine .inr fun pre k post e hk => ?_
          obtain ⟨q, hq, q1, q2⟩ := hs (l :: pre) k post (by rw [e]; rfl) hk
          rcases List.mem_cons.1 hq with rfl | hq
          · exact absurd q1 hL
          · exact ⟨q, hq, q1, q2⟩

theorem sum_le_of_pairs {a b : List α} (h : List.Forall₂ (fun t t' => t' ≤ t) a b) : b.sum ≤ a.sum := by
  induction h with
  | nil => exact le_rfl
  | cons h1 _ ih => rw [List.sum_cons, List.sum_cons]; exact add_le_add h1 ih

theorem pairs_take {β γ : Type} {R : β → γ → Prop} {a : List β} {b : List γ} (h : List.Forall₂ R a b) (n : ℕ) : List.Forall₂ R (a.take n) (b.take n) := by
  induction h generalizing n with
  | nil => simp
  | cons h1 _ ih =>
    cases n with
    | zero => exact .nil
    | succ n => exact .cons h1 (ih n)

theorem pairs_drop {β γ : Type} {R : β → γ → Prop} {a : List β} {b : List γ} (h : List.Forall₂ R a b) (n : ℕ) : List.Forall₂ R (a.drop n) (b.drop n) := by
  induction h generalizing n with
  | nil => simp
  | cons h1 h2 ih =>
    cases n with
    | zero => exact .cons h1 h2
    | succ n => exact ih n

theorem pyInt_mono {a b : α} (h : a ≤ b) : pyInt a ≤ pyInt b := by
  unfold pyInt
  split_ifs with h1 h2 h2
  · exact Int.floor_mono h
  · exact absurd (h1.trans h) h2
  · have e1 : 0 ≤ ⌊-a⌋ := Int.floor_nonneg.2 (by linarith)
    have e2 : 0 ≤ ⌊b⌋ := Int.floor_nonneg.2 h2
    omega
  · have := Int.floor_mono (neg_le_neg h)
    omega

end GCodeUtils
