import Verif.Spec.Neighbour
import Mathlib.Tactic.Linarith
import Mathlib.Tactic.LinearCombination
import Mathlib.Tactic.Ring
import Mathlib.Tactic.FieldSimp

/-
  Consequences of the way points are pushed.
-/

set_option linter.unusedSectionVars false

namespace GCodeUtils

open Spec

variable {α : Type} [Field α] [LinearOrder α] [IsStrictOrderedRing α] [FloorRing α]

theorem far_pos {ε : α} {sqrt : α → α} (hs : IsSqrt ε sqrt) (p q : Cx α) : 0 ≤ far sqrt p q :=
  (hs.2 _ (by nlinarith [mul_self_nonneg (p.re - q.re), mul_self_nonneg (p.im - q.im)])).1

theorem pathLen_nonneg {ε : α} {sqrt : α → α} (hs : IsSqrt ε sqrt) : ∀ (qs : List (Cx α)) (p : Cx α), 0 ≤ pathLen sqrt p qs := by
  intro qs
  induction qs with
  | nil => intro p; exact le_rfl
  | cons q qs ih => intro p; exact add_nonneg (far_pos hs p q) (ih q)

theorem pathEnd_none (p : Cx α) : pathEnd p [] = p := rfl

theorem pathEnd_first (p q : Cx α) (qs : List (Cx α)) : pathEnd p (q :: qs) = pathEnd q qs := by
  unfold pathEnd
  rw [List.getLast?_cons]
  rfl

theorem pathLen_join (sqrt : α → α) : ∀ (a b : List (Cx α)) (p : Cx α), pathLen sqrt p (a ++ b) = pathLen sqrt p a + pathLen sqrt (pathEnd p a) b := by
  intro a
  induction a with
  | nil => intro b p; simp [pathLen, pathEnd_none]
  | cons q a ih => intro b p; rw [List.cons_append, pathLen, pathLen, ih, pathEnd_first]; ring

theorem pathLen_last (sqrt : α → α) (a : List (Cx α)) (p q : Cx α) : pathLen sqrt p (a ++ [q]) = pathLen sqrt p a + far sqrt (pathEnd p a) q := by
  rw [pathLen_join]; simp [pathLen]

/-- Where a path reaches the length `d` is determined. -/
theorem reached_unique {ε : α} {sqrt : α → α} (hs : IsSqrt ε sqrt) {d : α} {p : Cx α} {a a' b b' : List (Cx α)} {q q' : Cx α}
    (h : a ++ q :: b = a' ++ q' :: b') (h1 : pathLen sqrt p a < d) (h2 : d ≤ pathLen sqrt p (a ++ [q])) (h1' : pathLen sqrt p a' < d)
    (h2' : d ≤ pathLen sqrt p (a' ++ [q'])) : a = a' ∧ q = q' := by
  rcases List.append_eq_append_iff.1 h with ⟨c, hc, hd⟩ | ⟨c, hc, hd⟩
  · cases c with
    | nil => simp only [List.nil_append, List.cons.injEq, List.append_nil] at hc hd; exact ⟨hc.symm, hd.1⟩
    | cons x c =>
      exfalso
      simp only [List.cons_append, List.cons.injEq] at hd
      rw [hc, ← hd.1, show a ++ q :: c = (a ++ [q]) ++ c by simp, pathLen_join] at h1'
      have := pathLen_nonneg hs c (pathEnd p (a ++ [q]))
      linarith
  · cases c with
    | nil => simp only [List.nil_append, List.cons.injEq, List.append_nil] at hc hd; exact ⟨hc, hd.1.symm⟩
    | cons x c =>
      exfalso
      simp only [List.cons_append, List.cons.injEq] at hd
      rw [hc, ← hd.1, show a' ++ q' :: c = (a' ++ [q']) ++ c by simp, pathLen_join] at h1
      have := pathLen_nonneg hs c (pathEnd p (a' ++ [q']))
      linarith

theorem reached_long {ε : α} {sqrt : α → α} (hs : IsSqrt ε sqrt) {d : α} {p : Cx α} {a b : List (Cx α)} {q : Cx α}
    (h2 : d ≤ pathLen sqrt p (a ++ [q])) : d ≤ pathLen sqrt p (a ++ q :: b) := by
  rw [show a ++ q :: b = (a ++ [q]) ++ b by simp, pathLen_join]
  have := pathLen_nonneg hs b (pathEnd p (a ++ [q]))
  linarith

theorem cx_ext {a b : Cx α} (h1 : a.re = b.re) (h2 : a.im = b.im) : a = b := by
  cases a; cases b; simp_all

theorem push_unique {ε : α} {sqrt : α → α} (hs : IsSqrt ε sqrt) {d : α} (hd : 0 < d) {p : Cx α} {qs : List (Cx α)} {v v' : Cx α}
    (h : Push sqrt d p qs v) (h' : Push sqrt d p qs v') : v = v' := by
  have hcan : ∀ {c : α} {x y z : α}, c ≠ 0 → c * x = z → c * y = z → x = y := by
    intro c x y z hc hx hy
    exact mul_left_cancel₀ hc (hx.trans hy.symm)
  generalize hq : qs = qs' at h'
  cases h with
  | reached a q b t z v h1 h2 h3 h4 h5 h6 h7 =>
    cases h' with
    | reached a' q' b' t' z' v' h1' h2' h3' h4' h5' h6' h7' =>
      obtain ⟨rfl, rfl⟩ := reached_unique hs hq h1 h2 h1' h2'
      have hf : far sqrt (pathEnd p a) q ≠ 0 := by
        rw [pathLen_last] at h2
        intro hc
        rw [hc] at h2
        linarith
      have ht : t = t' := by
        rw [mul_comm] at h3 h3'
        exact hcan hf h3 h3'
      subst ht
      have hz : z = z' := cx_ext (h4.trans h4'.symm) (h5.trans h5'.symm)
      subst hz
      exact cx_ext (hcan hd.ne' h6 h6') (hcan hd.ne' h7 h7')
    | short _ _ h1' => rw [← hq] at h1'; exact absurd h1' (not_lt.2 (reached_long hs h2))
    | closed _ h1' => rw [← hq] at h1'; exact absurd h1' (not_lt.2 (reached_long hs h2))
  | short _ _ h1 h2 h3 h4 =>
    subst hq
    cases h' with
    | reached a' q' b' t' z' v' h1' h2' => exact absurd h1 (not_lt.2 (reached_long hs h2'))
    | short _ _ h1' h2' h3' h4' => exact cx_ext (hcan h2.ne' h3 h3') (hcan h2.ne' h4 h4')
    | closed _ h1' h2' => exact absurd h2 h2'
  | closed _ h1 h2 =>
    subst hq
    cases h' with
    | reached a' q' b' t' z' v' h1' h2' => exact absurd h1 (not_lt.2 (reached_long hs h2'))
    | short _ _ h1' h2' h3' h4' => exact absurd h2' h2
    | closed _ h1' h2' => rfl

theorem held_unique {sqrt : α → α} {limit : α} (hl : 0 ≤ limit) {p q s v v' : Cx α} (h : Held sqrt limit p q s v) (h' : Held sqrt limit p q s v') : v = v' := by
  rcases h with ⟨h1, h2⟩ | ⟨h1, ux, uy, h2, h3, h4, h5⟩ <;> rcases h' with ⟨h1', h2'⟩ | ⟨h1', ux', uy', h2', h3', h4', h5'⟩
  · rw [h2, h2']
  · exact absurd h1' (not_lt.2 h1)
  · exact absurd h1 (not_lt.2 h1')
  · have hf : far sqrt p q ≠ 0 := by
      have : 0 ≤ limit / 3 := by linarith
      intro hc; rw [hc] at h1; linarith
    have e1 : ux = ux' := mul_left_cancel₀ hf (h2.trans h2'.symm)
    have e2 : uy = uy' := mul_left_cancel₀ hf (h3.trans h3'.symm)
    subst e1 e2
    exact cx_ext (h4.trans h4'.symm) (h5.trans h5'.symm)

/-- The displacement is determined by the paths. -/
theorem pushedBy_unique {ε : α} {sqrt : α → α} (hs : IsSqrt ε sqrt) {d limit most : α} (hd : 0 < d) (hl : 0 ≤ limit) {p : Cx α} {ahead behind : List (Cx α)} {δ δ' : Cx α}
    (h : PushedBy sqrt d limit most p ahead behind δ) (h' : PushedBy sqrt d limit most p ahead behind δ') : δ = δ' := by
  obtain ⟨a, b, s1, s2, s3, h1, h2, h3, h4, h5, h6, h7⟩ := h
  obtain ⟨a', b', s1', s2', s3', h1', h2', h3', h4', h5', h6', h7'⟩ := h'
  have ea := push_unique hs hd h1 h1'
  have eb := push_unique hs hd h2 h2'
  subst ea eb
  have e1 : s1 = s1' := by
    cases hh : ahead.head? with
    | none => rw [hh] at h3 h3'; exact h3.trans h3'.symm
    | some q => rw [hh] at h3 h3'; exact held_unique hl h3 h3'
  subst e1
  have e2 : s2 = s2' := by
    cases hh : behind.head? with
    | none => rw [hh] at h4 h4'; exact h4.trans h4'.symm
    | some q => rw [hh] at h4 h4'; exact held_unique hl h4 h4'
  subst e2
  have e3 : s3 = s3' := by
    by_cases hc : 1 < far sqrt s2 ⟨0, 0⟩
    · rw [if_pos hc] at h5 h5'
      have hf : far sqrt s2 ⟨0, 0⟩ ≠ 0 := by intro h0; rw [h0] at hc; linarith
      exact cx_ext (mul_left_cancel₀ hf (h5.1.trans h5'.1.symm)) (mul_left_cancel₀ hf (h5.2.trans h5'.2.symm))
    · rw [if_neg hc] at h5 h5'
      exact h5.trans h5'.symm
  subst e3
  exact cx_ext (h6.trans h6'.symm) (h7.trans h7'.symm)

/-! ### straight edges -/

theorem far_ray {sqrt : α → α} (hx : ExactSquares sqrt) {p u : Cx α} (hu : u.re * u.re + u.im * u.im = 1) (s t : α) : far sqrt (rayPt p u s) (rayPt p u t) = |s - t| := by
  unfold far rayPt
  rw [← hx]
  congr 1
  have : (s - t) * (s - t) = (s - t) * (s - t) * (u.re * u.re + u.im * u.im) := by rw [hu, mul_one]
  rw [this]
  ring

theorem ray_zero (p u : Cx α) : rayPt p u 0 = p := by unfold rayPt; simp

theorem pathEnd_ray (p u : Cx α) (t0 : α) (ts : List α) : pathEnd (rayPt p u t0) (ts.map (rayPt p u)) = rayPt p u (ts.getLast?.getD t0) := by
  unfold pathEnd
  rw [List.getLast?_map]
  cases ts.getLast? <;> rfl

theorem pathLen_ray {sqrt : α → α} (hx : ExactSquares sqrt) {p u : Cx α} (hu : u.re * u.re + u.im * u.im = 1) : ∀ (ts : List α) (t0 : α),
    (t0 :: ts).Pairwise (· ≤ ·) → pathLen sqrt (rayPt p u t0) (ts.map (rayPt p u)) = ts.getLast?.getD t0 - t0 := by
  intro ts
  induction ts with
  | nil => intro t0 _; simp [pathLen]
  | cons t ts ih =>
    intro t0 h
    rw [List.map_cons, pathLen, ih t (List.pairwise_cons.1 h).2, far_ray hx hu, List.getLast?_cons]
    have h1 : t0 ≤ t := (List.pairwise_cons.1 h).1 t (by simp)
    rw [abs_of_nonpos (by linarith)]
    simp only [Option.getD_some]
    ring

/-- A path that goes straight on for at least `d` pushes straight back. -/
theorem push_straight {ε : α} {sqrt : α → α} (hs : IsSqrt ε sqrt) (hx : ExactSquares sqrt) {d : α} (hd : 0 < d) {p u v : Cx α} (hu : u.re * u.re + u.im * u.im = 1) {ts : List α} {rest : List (Cx α)}
    (hm : (0 :: ts).Pairwise (· ≤ ·)) (hlast : d ≤ ts.getLast?.getD 0) (h : Push sqrt d p (ts.map (rayPt p u) ++ rest) v) : v = ⟨-u.re, -u.im⟩ := by
  have hlen : pathLen sqrt p (ts.map (rayPt p u)) = ts.getLast?.getD 0 := by
    have := pathLen_ray (p := p) hx hu ts 0 hm
    rw [ray_zero] at this
    rw [this, sub_zero]
  have hlong : d ≤ pathLen sqrt p (ts.map (rayPt p u) ++ rest) := by
    rw [pathLen_join, hlen]
    have := pathLen_nonneg hs rest (pathEnd p (ts.map (rayPt p u)))
    linarith
  generalize hq : ts.map (rayPt p u) ++ rest = qs at h hlong
  cases h with
  | short _ _ h1 => exact absurd h1 (not_lt.2 hlong)
  | closed _ h1 => exact absurd h1 (not_lt.2 hlong)
  | reached a q b t z v h1 h2 h3 h4 h5 h6 h7 =>
    obtain ⟨c, hc⟩ : ∃ c, ts.map (rayPt p u) = a ++ q :: c := by
      rcases List.append_eq_append_iff.1 hq with ⟨c, hc, hd'⟩ | ⟨c, hc, hd'⟩
      · exfalso
        rw [hc, pathLen_join, hlen] at h1
        have := pathLen_nonneg hs c (pathEnd p (ts.map (rayPt p u)))
        linarith
      · cases c with
        | nil =>
          exfalso
          rw [List.append_nil] at hc
          rw [← hc, hlen] at h1
          linarith
        | cons x c =>
          simp only [List.cons_append, List.cons.injEq] at hd'
          exact ⟨c, by rw [hc, hd'.1]⟩
    obtain ⟨ta, tr, rfl, ha, hr⟩ := List.map_eq_append_iff.1 hc
    obtain ⟨tq, tc, rfl, hq', hc'⟩ := List.map_eq_cons_iff.1 hr
    have hma : (0 :: ta).Pairwise (· ≤ ·) := by
      rw [← List.cons_append] at hm
      exact (List.pairwise_append.1 hm).1
    have hend : pathEnd p a = rayPt p u (ta.getLast?.getD 0) := by
      have := pathEnd_ray p u 0 ta
      rwa [ray_zero, ha] at this
    have hla : pathLen sqrt p a = ta.getLast?.getD 0 := by
      have := pathLen_ray (p := p) hx hu ta 0 hma
      rwa [ray_zero, ha, sub_zero] at this
    have hle : ta.getLast?.getD 0 ≤ tq := by
      rw [← List.cons_append] at hm
      refine (List.pairwise_append.1 hm).2.2 _ ?_ tq (by simp)
      cases hg : ta.getLast? with
      | none => simp
      | some x => simp only [Option.getD_some]; exact List.mem_cons_of_mem _ (List.mem_of_getLast? hg)
    rw [hend, ← hq', far_ray hx hu, abs_of_nonpos (by linarith), hla] at h3
    rw [hend, ← hq'] at h4 h5
    unfold rayPt at h4 h5
    simp only at h4 h5
    generalize ta.getLast?.getD 0 = x at *
    have e1 : z.re = p.re + d * u.re := by
      have : t * (p.re + tq * u.re - (p.re + x * u.re)) = (t * -(x - tq)) * u.re := by ring
      rw [h4, this, h3]; ring
    have e2 : z.im = p.im + d * u.im := by
      have : t * (p.im + tq * u.im - (p.im + x * u.im)) = (t * -(x - tq)) * u.im := by ring
      rw [h5, this, h3]; ring
    refine cx_ext (mul_left_cancel₀ hd.ne' ?_) (mul_left_cancel₀ hd.ne' ?_)
    · rw [h6, e1]; ring
    · rw [h7, e2]; ring

theorem held_zero {sqrt : α → α} {limit : α} {p q v : Cx α} (h : Held sqrt limit p q ⟨0, 0⟩ v) : v = ⟨0, 0⟩ := by
  rcases h with ⟨_, h⟩ | ⟨_, ux, uy, _, _, h1, h2⟩
  · exact h
  · exact cx_ext (by rw [h1]; simp) (by rw [h2]; simp)

theorem far_zero {sqrt : α → α} (hx : ExactSquares sqrt) : far sqrt (⟨0, 0⟩ : Cx α) ⟨0, 0⟩ = 0 := by
  unfold far
  have := hx (0 : α)
  simpa using this

/-- A point in the middle of a straight piece is not displaced. -/
theorem pushed_straight {ε : α} {sqrt : α → α} (hs : IsSqrt ε sqrt) (hx : ExactSquares sqrt) {d limit most : α} (hd : 0 < d) {p u δ : Cx α} (hu : u.re * u.re + u.im * u.im = 1) {ts ts' : List α} {rest rest' : List (Cx α)}
    (hm : (0 :: ts).Pairwise (· ≤ ·)) (hlast : d ≤ ts.getLast?.getD 0) (hm' : (0 :: ts').Pairwise (· ≤ ·)) (hlast' : d ≤ ts'.getLast?.getD 0)
    (h : PushedBy sqrt d limit most p (ts.map (rayPt p u) ++ rest) (ts'.map (rayPt p ⟨-u.re, -u.im⟩) ++ rest') δ) : δ = ⟨0, 0⟩ := by
  obtain ⟨a, b, s1, s2, s3, h1, h2, h3, h4, h5, h6, h7⟩ := h
  have ea := push_straight hs hx hd hu hm hlast h1
  have eb := push_straight hs hx hd (u := ⟨-u.re, -u.im⟩) (by simpa using hu) hm' hlast' h2
  have e0 : (⟨8 / 10 * (a.re + b.re), 8 / 10 * (a.im + b.im)⟩ : Cx α) = ⟨0, 0⟩ := by rw [ea, eb]; simp
  rw [e0] at h3
  have e1 : s1 = ⟨0, 0⟩ := by
    split at h3
    · exact held_zero h3
    · exact h3
  subst e1
  have e2 : s2 = ⟨0, 0⟩ := by
    split at h4
    · exact held_zero h4
    · exact h4
  subst e2
  rw [far_zero hx, if_neg (by norm_num)] at h5
  subst h5
  exact cx_ext (by rw [h6]; simp) (by rw [h7]; simp)

/-! ### outward -/

/-- Nothing on one side pushes to that side. -/
theorem push_away {sqrt : α → α} {d : α} (hd : 0 < d) {p v : Cx α} {qs : List (Cx α)} (h : Push sqrt d p qs v) (nx ny : α)
    (hside : ∀ q ∈ qs, nx * (q.re - p.re) + ny * (q.im - p.im) ≤ 0) : 0 ≤ nx * v.re + ny * v.im := by
  have hend : ∀ a : List (Cx α), (∀ q ∈ a, nx * (q.re - p.re) + ny * (q.im - p.im) ≤ 0) → nx * ((pathEnd p a).re - p.re) + ny * ((pathEnd p a).im - p.im) ≤ 0 := by
    intro a ha
    unfold pathEnd
    cases hg : a.getLast? with
    | none => simp
    | some x => exact ha x (List.mem_of_getLast? hg)
  cases h with
  | reached a q b t z v h1 h2 h3 h4 h5 h6 h7 =>
    have e1 := hend a (fun x hx => hside x (by simp [hx]))
    have e2 := hside q (by simp)
    rw [pathLen_last] at h2
    generalize pathEnd p a = r at *
    have hf : 0 < far sqrt r q := by linarith
    have ht0 : 0 ≤ t := by
      by_contra hc
      have := mul_neg_of_neg_of_pos (not_le.1 hc) hf
      linarith
    have ht1 : t ≤ 1 := by
      by_contra hc
      have := mul_lt_mul_of_pos_right (not_le.1 hc) hf
      linarith
    have e : d * (nx * v.re + ny * v.im) = nx * (d * v.re) + ny * (d * v.im) := by ring
    have : 0 ≤ d * (nx * v.re + ny * v.im) := by
      rw [e, h6, h7, h4, h5]
      have k1 := mul_nonneg (neg_nonneg.2 e1) (by linarith : (0 : α) ≤ 1 - t)
      have k2 := mul_nonneg (neg_nonneg.2 e2) ht0
      nlinarith
    exact nonneg_of_mul_nonneg_right this hd
  | short _ _ h1 h2 h3 h4 =>
    have e1 := hend qs hside
    generalize pathEnd p qs = r at *
    have : 0 ≤ far sqrt p r * (nx * v.re + ny * v.im) := by
      have e : far sqrt p r * (nx * v.re + ny * v.im) = nx * (far sqrt p r * v.re) + ny * (far sqrt p r * v.im) := by ring
      rw [e, h3, h4]
      nlinarith
    exact nonneg_of_mul_nonneg_right this h2
  | closed _ h1 h2 => simp

theorem cut_share {sqrt : α → α} {s s' : Cx α}
    (h : if 1 < far sqrt s ⟨0, 0⟩ then far sqrt s ⟨0, 0⟩ * s'.re = s.re ∧ far sqrt s ⟨0, 0⟩ * s'.im = s.im else s' = s) : ∃ c, 0 < c ∧ s'.re = c * s.re ∧ s'.im = c * s.im := by
  by_cases hc : 1 < far sqrt s ⟨0, 0⟩
  · rw [if_pos hc] at h
    have h0 : 0 < far sqrt s ⟨0, 0⟩ := by linarith
    refine ⟨(far sqrt s ⟨0, 0⟩)⁻¹, inv_pos.2 h0, ?_, ?_⟩
    · rw [← h.1, ← mul_assoc, inv_mul_cancel₀ h0.ne', one_mul]
    · rw [← h.2, ← mul_assoc, inv_mul_cancel₀ h0.ne', one_mul]
  · rw [if_neg hc] at h
    exact ⟨1, one_pos, by rw [h, one_mul], by rw [h, one_mul]⟩

/-- With short edges to the neighbours, a point at the rim is not pushed inward. -/
theorem pushed_outward {sqrt : α → α} {d limit most : α} (hd : 0 < d) (hm : 0 ≤ most) {p δ : Cx α} {ahead behind : List (Cx α)}
    (h : PushedBy sqrt d limit most p ahead behind δ) (h1 : ∀ q ∈ ahead.head?, far sqrt p q ≤ limit / 3) (h2 : ∀ q ∈ behind.head?, far sqrt p q ≤ limit / 3) (nx ny : α)
    (hside : ∀ q ∈ ahead ++ behind, nx * (q.re - p.re) + ny * (q.im - p.im) ≤ 0) : 0 ≤ nx * δ.re + ny * δ.im := by
  obtain ⟨a, b, s1, s2, s3, k1, k2, k3, k4, k5, k6, k7⟩ := h
  have ea := push_away hd k1 nx ny (fun q hq => hside q (by simp [hq]))
  have eb := push_away hd k2 nx ny (fun q hq => hside q (by simp [hq]))
  have hheld : ∀ {q s s' : Cx α}, far sqrt p q ≤ limit / 3 → Held sqrt limit p q s s' → s' = s := by
    intro q s s' hq hh
    rcases hh with ⟨_, hh⟩ | ⟨hh, _⟩
    · exact hh
    · exact absurd hh (not_lt.2 hq)
  have e1 : s1 = ⟨8 / 10 * (a.re + b.re), 8 / 10 * (a.im + b.im)⟩ := by
    cases hh : ahead.head? with
    | none => rw [hh] at k3; exact k3
    | some q => rw [hh] at k3; exact hheld (h1 q hh) k3
  have e2 : s2 = s1 := by
    cases hh : behind.head? with
    | none => rw [hh] at k4; exact k4
    | some q => rw [hh] at k4; exact hheld (h2 q hh) k4
  obtain ⟨c, hc, c1, c2⟩ := cut_share k5
  have : nx * δ.re + ny * δ.im = (most * c * (8 / 10)) * ((nx * a.re + ny * a.im) + (nx * b.re + ny * b.im)) := by
    rw [k6, k7, c1, c2, e2, e1]; ring
  rw [this]
  exact mul_nonneg (mul_nonneg (mul_nonneg hm hc.le) (by norm_num)) (add_nonneg ea eb)

/-- A long edge pushes along itself. -/
theorem push_edge {ε : α} {sqrt : α → α} (hs : IsSqrt ε sqrt) (hx : ExactSquares sqrt) {d : α} (hd : 0 < d) {p q v : Cx α} {qs : List (Cx α)} (hq : d ≤ far sqrt p q) (hex : ExactEdge sqrt p q) (h : Push sqrt d p (q :: qs) v) :
    far sqrt p q * v.re = p.re - q.re ∧ far sqrt p q * v.im = p.im - q.im ∧ v.re * v.re + v.im * v.im = 1 := by
  have hf : 0 < far sqrt p q := lt_of_lt_of_le hd hq
  obtain ⟨u, hu⟩ : ∃ u : Cx α, u = ⟨(q.re - p.re) / far sqrt p q, (q.im - p.im) / far sqrt p q⟩ := ⟨_, rfl⟩
  have hu1 : far sqrt p q * u.re = q.re - p.re := by rw [hu]; field_simp
  have hu2 : far sqrt p q * u.im = q.im - p.im := by rw [hu]; field_simp
  have huu : u.re * u.re + u.im * u.im = 1 := by
    have := hex
    unfold ExactEdge at this
    have e : (far sqrt p q * far sqrt p q) * (u.re * u.re + u.im * u.im) = (far sqrt p q * far sqrt p q) * 1 := by
      calc (far sqrt p q * far sqrt p q) * (u.re * u.re + u.im * u.im) = (far sqrt p q * u.re) * (far sqrt p q * u.re) + (far sqrt p q * u.im) * (far sqrt p q * u.im) := by ring
        _ = _ := by rw [hu1, hu2, mul_one, this]; ring
    exact mul_left_cancel₀ (mul_pos hf hf).ne' e
  have hqr : [far sqrt p q].map (rayPt p u) = [q] := by
    simp only [List.map_cons, List.map_nil, rayPt, List.cons.injEq, and_true]
    exact cx_ext (by simp only; rw [hu1]; ring) (by simp only; rw [hu2]; ring)
  have := push_straight hs hx hd huu (ts := [far sqrt p q]) (rest := qs) (v := v) (p := p) (by simpa using hf.le) (by simpa using hq) (by rw [hqr]; exact h)
  refine ⟨?_, ?_, ?_⟩
  · rw [this]; simp only; rw [mul_neg, hu1]; ring
  · rw [this]; simp only; rw [mul_neg, hu2]; ring
  · rw [this]; simpa using huu

theorem share_range {limit len : α} (hl : 0 < limit) (h : limit / 3 < len) : 0 ≤ acrossShare limit len ∧ acrossShare limit len ≤ 1 := by
  unfold acrossShare
  have hr : 0 < limit - limit / 3 := by linarith
  split_ifs with hc
  · exact ⟨le_rfl, zero_le_one⟩
  · exact ⟨div_nonneg (by linarith) hr.le, by rw [div_le_one hr]; linarith⟩

/-- Limiting by an edge a push that is a combination of the direction `u` of the edge and another one. -/
theorem held_cone {sqrt : α → α} {limit : α} (hl : 0 < limit) {p q s s' u v : Cx α} {x y : α} (hf : far sqrt p q * u.re = p.re - q.re ∧ far sqrt p q * u.im = p.im - q.im)
    (hu : u.re * u.re + u.im * u.im = 1) (hv : 0 ≤ u.re * v.re + u.im * v.im) (hx : 0 ≤ x) (hy : 0 ≤ y)
    (hs : s.re = x * u.re + y * v.re ∧ s.im = x * u.im + y * v.im) (h : Held sqrt limit p q s s') :
    ∃ x' y', 0 ≤ x' ∧ 0 ≤ y' ∧ s'.re = x' * u.re + y' * v.re ∧ s'.im = x' * u.im + y' * v.im := by
  rcases h with ⟨_, h⟩ | ⟨h0, ux, uy, h1, h2, h3, h4⟩
  · exact ⟨x, y, hx, hy, by rw [h]; exact hs.1, by rw [h]; exact hs.2⟩
  · have hne : far sqrt p q ≠ 0 := by intro hc; rw [hc] at h0; linarith
    have e1 : ux = u.re := mul_left_cancel₀ hne (h1.trans hf.1.symm)
    have e2 : uy = u.im := mul_left_cancel₀ hne (h2.trans hf.2.symm)
    subst e1 e2
    obtain ⟨g0, g1⟩ := share_range hl h0
    generalize acrossShare limit (far sqrt p q) = g at *
    refine ⟨x + y * (u.re * v.re + u.im * v.im) * (1 - g), y * g, ?_, mul_nonneg hy g0, ?_, ?_⟩
    · exact add_nonneg hx (mul_nonneg (mul_nonneg hy hv) (by linarith))
    · rw [h3, hs.1, hs.2]
      linear_combination (x * u.re + y * g * v.re) * hu
    · rw [h4, hs.1, hs.2]
      linear_combination (x * u.im + y * g * v.im) * hu

/-- A corner of at most ninety degrees between long edges is pushed away from both neighbours. -/
theorem pushed_corner {ε : α} {sqrt : α → α} (hs : IsSqrt ε sqrt) (hx : ExactSquares sqrt) {d limit most : α} (hd : 0 < d) (hl : 0 < limit) (hm : 0 ≤ most) {p q r δ : Cx α} {qs rs : List (Cx α)}
    (hq : d ≤ far sqrt p q) (hr : d ≤ far sqrt p r) (hexq : ExactEdge sqrt p q) (hexr : ExactEdge sqrt p r) (hang : 0 ≤ (p.re - q.re) * (p.re - r.re) + (p.im - q.im) * (p.im - r.im))
    (h : PushedBy sqrt d limit most p (q :: qs) (r :: rs) δ) :
    ∃ x y, 0 ≤ x ∧ 0 ≤ y ∧ δ.re = x * (p.re - q.re) + y * (p.re - r.re) ∧ δ.im = x * (p.im - q.im) + y * (p.im - r.im) := by
  obtain ⟨a, b, s1, s2, s3, k1, k2, k3, k4, k5, k6, k7⟩ := h
  obtain ⟨a1, a2, a3⟩ := push_edge hs hx hd hq hexq k1
  obtain ⟨b1, b2, b3⟩ := push_edge hs hx hd hr hexr k2
  have fq : 0 < far sqrt p q := lt_of_lt_of_le hd hq
  have fr : 0 < far sqrt p r := lt_of_lt_of_le hd hr
  have hab : 0 ≤ a.re * b.re + a.im * b.im := by
    have e : (far sqrt p q * far sqrt p r) * (a.re * b.re + a.im * b.im) = (far sqrt p q * a.re) * (far sqrt p r * b.re) + (far sqrt p q * a.im) * (far sqrt p r * b.im) := by ring
    rw [a1, a2, b1, b2] at e
    rw [← e] at hang
    exact nonneg_of_mul_nonneg_right hang (mul_pos fq fr)
  simp only [List.head?_cons] at k3 k4
  obtain ⟨x, y, hx, hy, e1, e2⟩ := held_cone hl ⟨a1, a2⟩ a3 hab (x := 8 / 10) (y := 8 / 10) (by norm_num) (by norm_num) ⟨by simp only; ring, by simp only; ring⟩ k3
  obtain ⟨y', x', hy', hx', e3, e4⟩ := held_cone hl (v := a) (x := y) (y := x) ⟨b1, b2⟩ b3 (by rw [mul_comm b.re, mul_comm b.im]; exact hab) hy hx ⟨by rw [e1]; ring, by rw [e2]; ring⟩ k4
  obtain ⟨c, hc, c1, c2⟩ := cut_share k5
  refine ⟨most * c * x' * (far sqrt p q)⁻¹, most * c * y' * (far sqrt p r)⁻¹, ?_, ?_, ?_, ?_⟩
  · exact mul_nonneg (mul_nonneg (mul_nonneg hm hc.le) hx') (inv_nonneg.2 fq.le)
  · exact mul_nonneg (mul_nonneg (mul_nonneg hm hc.le) hy') (inv_nonneg.2 fr.le)
  · rw [k6, c1, e3, ← a1, ← b1]
    field_simp
    ring
  · rw [k7, c2, e4, ← a2, ← b2]
    field_simp
    ring

end GCodeUtils
