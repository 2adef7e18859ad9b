import Verif.Props.ArcSafe
import Verif.Props.ArcPath
import Verif.Lemmas.ArcFound

/-
  C97: runs of moves that are replaced by an arc.
-/

set_option linter.unusedSectionVars false

namespace GCodeUtils

open Spec

/-! ### spread of a prefix -/

theorem spread_le (vs : List ℝ) (a : ℝ) : spread vs ≤ (vs.map (fun v => (v - a) ^ 2)).sum := by
  by_cases hn : vs = []
  · subst hn; simp [spread]
  have hl : (vs.length : ℝ) ≠ 0 := by
    have : vs.length ≠ 0 := fun h => hn (List.length_eq_zero_iff.1 h)
    exact_mod_cast this
  have key : ∀ (ws : List ℝ) (b : ℝ), (ws.map (fun v => (v - b) ^ 2)).sum = (ws.map (fun v => v ^ 2)).sum - 2 * b * ws.sum + (ws.length : ℝ) * b ^ 2 := by
    intro ws b
    induction ws with
    | nil => simp
    | cons x ws ih => simp only [List.map_cons, List.sum_cons, ih, List.length_cons]; push_cast; ring
  unfold spread
  rw [key, key]
  have hm : vs.sum = (vs.length : ℝ) * mean vs := by unfold mean; field_simp
  rw [hm]
  have hpos : (0 : ℝ) ≤ (vs.length : ℝ) := by positivity
  nlinarith [mul_nonneg hpos (sq_nonneg (a - mean vs))]

theorem spread_prefix (vs ws : List ℝ) : spread vs ≤ spread (vs ++ ws) := by
  refine le_trans (spread_le vs (mean (vs ++ ws))) ?_
  conv_rhs => unfold spread
  rw [List.map_append, List.sum_append]
  have : 0 ≤ (ws.map (fun v => (v - mean (vs ++ ws)) ^ 2)).sum := List.sum_nonneg (by
    intro x hx
    obtain ⟨v, _, rfl⟩ := List.mem_map.1 hx
    positivity)
  linarith

/-! ### equal steps on a circle are equal turns -/

theorem cos_turn_dot {mode : RoundMode} {c p q : ℝ × ℝ} {r : ℝ} (hr : 0 < r) (hp : distSq p c = r ^ 2) (hq : distSq q c = r ^ 2) :
    Real.cos (turn (realTrig mode) c p q) = ((p.1 - c.1) * (q.1 - c.1) + (p.2 - c.2) * (q.2 - c.2)) / r ^ 2 := by
  have hn : ∀ x : ℝ × ℝ, distSq x c = r ^ 2 → ‖(⟨x.1 - c.1, x.2 - c.2⟩ : ℂ)‖ = r := by
    intro x hx
    rw [Complex.norm_def, Complex.normSq_mk, ← pow_two, ← pow_two, show (x.1 - c.1) ^ 2 + (x.2 - c.2) ^ 2 = r ^ 2 from hx]
    exact Real.sqrt_sq hr.le
  have hz : ∀ x : ℝ × ℝ, distSq x c = r ^ 2 → (⟨x.1 - c.1, x.2 - c.2⟩ : ℂ) ≠ 0 := by
    intro x hx h
    have := hn x hx
    rw [h, norm_zero] at this
    exact hr.ne this
  rw [cos_turn, Real.cos_sub, Complex.cos_arg (hz p hp), Complex.cos_arg (hz q hq), Complex.sin_arg, Complex.sin_arg, hn p hp, hn q hq]
  field_simp

theorem turn_equal {mode : RoundMode} {c p q p' q' : ℝ × ℝ} {r d : ℝ} (hr : 0 < r) (hp : distSq p c = r ^ 2) (hq : distSq q c = r ^ 2)
    (hp' : distSq p' c = r ^ 2) (hq' : distSq q' c = r ^ 2) (hd : distSq p q = d ^ 2) (hd' : distSq p' q' = d ^ 2)
    (hs : (0 < cross c p q ∧ 0 < cross c p' q') ∨ (cross c p q < 0 ∧ cross c p' q' < 0)) :
    turn (realTrig mode) c p q = turn (realTrig mode) c p' q' := by
  have hcos : Real.cos (turn (realTrig mode) c p q) = Real.cos (turn (realTrig mode) c p' q') := by
    rw [cos_turn_dot hr hp hq, cos_turn_dot hr hp' hq']
    congr 1
    unfold distSq at *
    linarith
  have b1 := turn_bounds (mode := mode) c p q
  have b2 := turn_bounds (mode := mode) c p' q'
  rcases hs with ⟨h1, h2⟩ | ⟨h1, h2⟩
  · have t1 := (turn_cross (mode := mode) c p q).1 h1
    have t2 := (turn_cross (mode := mode) c p' q').1 h2
    exact Real.injOn_cos ⟨t1.le, b1.2⟩ ⟨t2.le, b2.2⟩ hcos
  · have t1 := (turn_cross (mode := mode) c p q).2 h1
    have t2 := (turn_cross (mode := mode) c p' q').2 h2
    have := Real.injOn_cos (show -turn (realTrig mode) c p q ∈ Set.Icc 0 Real.pi from ⟨by linarith, by linarith [b1.1]⟩)
      (show -turn (realTrig mode) c p' q' ∈ Set.Icc 0 Real.pi from ⟨by linarith, by linarith [b2.1]⟩) (by rw [Real.cos_neg, Real.cos_neg]; exact hcos)
    linarith

theorem mean_const (vs : List ℝ) (a : ℝ) (hne : vs ≠ []) (h : ∀ v ∈ vs, v = a) : mean vs = a := by
  have hv : vs = List.replicate vs.length a := List.eq_replicate_of_mem h
  have hl : (vs.length : ℝ) ≠ 0 := by
    have : vs.length ≠ 0 := fun h => hne (List.length_eq_zero_iff.1 h)
    exact_mod_cast this
  unfold mean
  rw [show vs.sum = (vs.length : ℝ) * a by conv_lhs => rw [hv]; simp]
  field_simp

/-! ### parts of a regular run -/

theorem steps_take {β : Type} (n : ℕ) (ls : List β) : ∀ s ∈ steps (ls.take n), s ∈ steps ls := by
  intro s hs
  obtain ⟨a, b⟩ := s
  obtain ⟨u, v, huv⟩ := steps_mem _ _ _ hs
  have : ls = u ++ a :: b :: (v ++ ls.drop n) := by
    conv_lhs => rw [← List.take_append_drop n ls, huv]
    simp
  rw [this]; exact steps_mem' _ _ _ _

theorem forall₂_take {β γ : Type} {R : β → γ → Prop} {a : List β} {b : List γ} (h : List.Forall₂ R a b) : ∀ n, List.Forall₂ R (a.take n) (b.take n) := by
  induction h with
  | nil => intro n; simp
  | cons h1 _ ih =>
    intro n
    cases n with
    | zero => simp
    | succ n => exact List.Forall₂.cons h1 (ih n)

theorem Spec.RegularRun.part {start : PyLine ℝ} {w : List (PyLine ℝ)} {pts : List (ℝ × ℝ)} {c : ℝ × ℝ} {r d v : ℝ} (h : RegularRun start w pts c r d v)
    {n : ℕ} (h8 : 8 ≤ n) (hn : n ≤ w.length) : RegularRun start (w.take n) (pts.take (n + 1)) c r d v where
  moves := fun l hl => h.moves l (List.mem_of_mem_take hl)
  long := by rw [List.length_take]; omega
  feed := by obtain ⟨f, hf⟩ := h.feed; exact ⟨f, fun l hl => hf l (List.mem_of_mem_take hl)⟩
  height := by obtain ⟨f, hf⟩ := h.height; exact ⟨f, fun l hl => hf l (List.mem_of_mem_take hl)⟩
  at_points := forall₂_take h.at_points (n + 1)
  circle := fun p hp => h.circle p (List.mem_of_mem_take hp)
  radius := h.radius
  step := fun s hs => h.step s (steps_take _ _ s hs)
  way := by
    rcases h.way with hw | hw
    · exact Or.inl fun s hs => hw s (steps_take _ _ s hs)
    · exact Or.inr fun s hs => hw s (steps_take _ _ s hs)
  wide := by rw [List.take_take, min_eq_left (by omega)]; exact h.wide
  flow := fun s hs => h.flow s (steps_take (n + 1) (start :: w) s hs)
  size := h.size
  amount := h.amount

/-! ### a regular run is accepted -/

theorem segments_run {t : Trig ℝ} {v d' : ℝ} (w : List (PyLine ℝ)) : ∀ (first : PyLine ℝ) (pts : List (ℝ × ℝ)), List.Forall₂ At (first :: w) pts →
    (∀ s ∈ steps (first :: w), Pushes s.1 s.2 v) → (∀ s ∈ steps pts, pyRound t.mode 7 (t.sqrt ((s.2.1 - s.1.1) ^ 2 + (s.2.2 - s.1.2) ^ 2)) = d') →
    segments t (first :: w) = .ok (List.replicate w.length { path := d', filament := v }) := by
  induction w with
  | nil => intro first pts _ _ _; rfl
  | cons l w ih =>
    intro first pts hp hv hd
    cases hp with
    | cons h1 h2 =>
      cases h2 with
      | cons h3 h4 =>
        rename_i p q rest
        unfold segments
        rw [h1.1, h1.2, h3.1, h3.2]
        simp only
        rw [(segFilament_spec _ _ _).2 (hv (first, l) (by rw [steps_cons]; simp)), ih l (q :: rest) (List.Forall₂.cons h3 h4)
          (fun s hs => hv s (by rw [steps_cons]; exact List.mem_cons_of_mem _ hs)) (fun s hs => hd s (by rw [steps_cons]; exact List.mem_cons_of_mem _ hs))]
        simp only
        rw [hd (p, q) (by rw [steps_cons]; simp)]
        rfl

theorem Spec.RegularRun.accepted (mode : RoundMode) {start : PyLine ℝ} {w : List (PyLine ℝ)} {pts : List (ℝ × ℝ)} {c : ℝ × ℝ} {r d v : ℝ} (h : RegularRun start w pts c r d v) :
    (arcOps (realTrig mode)).valid (start :: w) = .ok true ∧ ∃ ci, getCircle (realTrig mode) pts = .ok (false, some ci) ∧ ci.cx = c.1 ∧ ci.cy = c.2 := by
  have hd0 : 0 < d := lt_of_lt_of_le (by norm_num) h.size
  have hv0 : 0 < v := lt_of_lt_of_le (by positivity) h.amount
  obtain ⟨l1, w', rfl⟩ : ∃ l1 w', w = l1 :: w' := by
    cases w with
    | nil => have := h.long; simp at this
    | cons a b => exact ⟨a, b, rfl⟩
  obtain ⟨f, hf⟩ := h.feed
  obtain ⟨z, hz⟩ := h.height
  have hlen := h.at_points.length_eq
  have hlong := h.long
  -- the lines
  have hu : uniformTail (start :: l1 :: w') = .ok (true, true) := by
    unfold uniformTail
    simp only [List.getElem?_cons_succ, List.getElem?_cons_zero, List.drop_succ_cons, List.drop_zero]
    have e1 : l1.e.isSome = true := by rw [Option.isSome_iff_ne_none]; exact (h.moves l1 (by simp)).2
    have e2 : (l1 :: w').all (fun l => l.e.isSome) = true := by
      rw [List.all_eq_true]; intro l hl; rw [Option.isSome_iff_ne_none]; exact (h.moves l hl).2
    have e3 : (l1 :: w').all (fun l => decide (l.currentF = l1.currentF)) = true := by
      rw [List.all_eq_true]; intro l hl; rw [decide_eq_true_eq, hf l hl, hf l1 (by simp)]
    have e4 : (l1 :: w').all (fun l => decide (l.currentZ = l1.currentZ)) = true := by
      rw [List.all_eq_true]; intro l hl; rw [decide_eq_true_eq, hz l hl, hz l1 (by simp)]
    rw [e1, e2, e3, e4]
    rfl
  -- the points
  have hpts : points (start :: l1 :: w') = .ok pts := (points_spec _ _).2 h.at_points
  obtain ⟨p0, p1, p2, rest, rfl⟩ : ∃ p0 p1 p2 rest, pts = p0 :: p1 :: p2 :: rest := by
    match pts, hlen with
    | [], h => simp at h
    | [_], h => simp only [List.length_cons, List.length_nil] at h hlong; omega
    | [_, _], h => simp only [List.length_cons, List.length_nil] at h hlong; omega
    | a :: b :: c :: r, _ => exact ⟨a, b, c, r, rfl⟩
  have i1 : (p0, p1) ∈ steps (p0 :: p1 :: p2 :: rest) := by rw [steps_cons]; simp
  have i2 : (p1, p2) ∈ steps (p0 :: p1 :: p2 :: rest) := by rw [steps_cons, steps_cons]; simp
  have hr : 0 < r := by
    rcases h.radius.1.lt_or_eq with h' | h'
    · exact h'
    · exfalso
      have a0 := h.circle p0 (by simp)
      have a1 := h.circle p1 (by simp)
      have a2 := h.step _ i1
      rw [← h'] at a0 a1
      unfold distSq at a0 a1 a2
      have b1 : p0.1 - c.1 = 0 := by nlinarith [sq_nonneg (p0.1 - c.1), sq_nonneg (p0.2 - c.2)]
      have b2 : p0.2 - c.2 = 0 := by nlinarith [sq_nonneg (p0.1 - c.1), sq_nonneg (p0.2 - c.2)]
      have b3 : p1.1 - c.1 = 0 := by nlinarith [sq_nonneg (p1.1 - c.1), sq_nonneg (p1.2 - c.2)]
      have b4 : p1.2 - c.2 = 0 := by nlinarith [sq_nonneg (p1.1 - c.1), sq_nonneg (p1.2 - c.2)]
      simp only at a2
      rw [show p0.1 - p1.1 = 0 by linarith, show p0.2 - p1.2 = 0 by linarith] at a2
      nlinarith
  have hne : ∀ s ∈ steps (p0 :: p1 :: p2 :: rest), s.1 ≠ s.2 := by
    intro s hs he
    have := h.step s hs
    rw [he] at this
    unfold distSq at this
    nlinarith
  have hturn : ∀ s ∈ steps (p0 :: p1 :: p2 :: rest), turn (realTrig mode) c s.1 s.2 = turn (realTrig mode) c p0 p1 := by
    intro s hs
    have hs12 : s.1 ∈ p0 :: p1 :: p2 :: rest ∧ s.2 ∈ p0 :: p1 :: p2 :: rest := by
      obtain ⟨u, v, huv⟩ := steps_mem _ s.1 s.2 hs
      rw [huv]; simp
    refine turn_equal hr (h.circle _ hs12.1) (h.circle _ hs12.2) (h.circle _ (by simp)) (h.circle _ (by simp)) (h.step s hs) (h.step _ i1) ?_
    rcases h.way with hw | hw
    · exact Or.inl ⟨hw s hs, hw _ i1⟩
    · exact Or.inr ⟨hw s hs, hw _ i1⟩
  have h02 : p0 ≠ p2 := by
    rintro rfl
    have : cross c p0 p1 = -cross c p1 p0 := by unfold cross; ring
    rcases h.way with hw | hw
    · have k1 := hw _ i1; have k2 := hw _ i2; simp only at k1 k2; linarith
    · have k1 := hw _ i1; have k2 := hw _ i2; simp only at k1 k2; linarith
  have hang : ∀ a ∈ angles (realTrig mode) c (p0 :: p1 :: p2 :: rest), a = turn (realTrig mode) c p0 p1 := by
    intro a ha
    obtain ⟨s, hs, rfl⟩ := List.mem_map.1 ha
    exact hturn s hs
  have hmean := mean_const (angles (realTrig mode) c (p0 :: p1 :: p2 :: rest)) _ (by unfold angles; rw [steps_cons]; simp) hang
  have hwide : 1 / 1000000 ≤ spread ((p0 :: p1 :: p2 :: rest).map (·.1)) ∧ 1 / 1000000 ≤ spread ((p0 :: p1 :: p2 :: rest).map (·.2)) := by
    obtain ⟨x1, x2⟩ := h.wide
    have e : ∀ g : ℝ × ℝ → ℝ, (p0 :: p1 :: p2 :: rest).map g = ((p0 :: p1 :: p2 :: rest).take 9).map g ++ ((p0 :: p1 :: p2 :: rest).drop 9).map g := by
      intro g; rw [← List.map_append, List.take_append_drop]
    constructor
    · rw [e]; exact le_trans (by norm_num at x1 ⊢; exact x1) (spread_prefix _ _)
    · rw [e]; exact le_trans (by norm_num at x2 ⊢; exact x2) (spread_prefix _ _)
  obtain ⟨ci, hci, hc1, hc2, _⟩ := C57_accepted mode (p0 :: p1 :: p2 :: rest) c.1 c.2 r hr.le h.radius.2 (fun p hp => h.circle p hp)
    ⟨p0, by simp, p1, by simp, p2, by simp, hne _ i1, h02, hne _ i2⟩ hwide.1 hwide.2 (by
      intro a ha
      rw [show ((c.1, c.2) : ℝ × ℝ) = c from rfl] at ha ⊢
      rw [hmean, hang a ha, sub_self]
      have := Real.pi_pos
      positivity)
  -- the amounts
  have hpath : ∀ s ∈ steps (p0 :: p1 :: p2 :: rest), pyRound (realTrig mode).mode 7 ((realTrig mode).sqrt ((s.2.1 - s.1.1) ^ 2 + (s.2.2 - s.1.2) ^ 2)) = pyRound mode 7 d := by
    intro s hs
    have := h.step s hs
    unfold distSq at this
    simp only [realTrig]
    rw [show (s.2.1 - s.1.1) ^ 2 + (s.2.2 - s.1.2) ^ 2 = d ^ 2 by rw [← this]; ring, Real.sqrt_sq hd0.le]
  have hseg := segments_run (t := realTrig mode) (v := v) (d' := pyRound mode 7 d) (l1 :: w') start _ h.at_points h.flow hpath
  have hb := abs_le.1 (pyRound_bound mode 7 d)
  have hsz := h.size
  have ham := h.amount
  generalize pyRound mode 7 d = d' at *
  have hd'1 : 1 / 1000000 ≤ d' := by norm_num at hb hsz ⊢; linarith
  have hd'2 : d' ≤ 2 * d := by norm_num at hb hsz ⊢; linarith
  have hd'0 : 0 < d' := lt_of_lt_of_le (by norm_num) hd'1
  have hn : (((l1 :: w').length : ℕ) : ℝ) ≠ 0 := by
    have : (l1 :: w').length ≠ 0 := by simp
    exact_mod_cast this
  have hdist : getDistances (realTrig mode) (start :: l1 :: w') = .ok ⟨List.replicate (l1 :: w').length ⟨d', v⟩, ((l1 :: w').length : ℝ) * d', ((l1 :: w').length : ℝ) * v, v / d'⟩ := by
    unfold getDistances
    rw [hseg]
    simp only [List.map_replicate, List.sum_replicate, nsmul_eq_mul]
    unfold divE
    rw [if_neg (mul_ne_zero hn hd'0.ne'), mul_div_mul_left _ _ hn]
  have hratio : ratioOk (⟨List.replicate (l1 :: w').length ⟨d', v⟩, ((l1 :: w').length : ℝ) * d', ((l1 :: w').length : ℝ) * v, v / d'⟩ : Distances ℝ) = true := by
    unfold ratioOk
    rw [Bool.and_eq_true, List.all_eq_true]
    constructor
    · simp only [Bool.not_eq_true', decide_eq_false_iff_not, not_lt]
      unfold arcEpsilon
      rw [le_div_iff₀ hd'0]
      norm_num at ham ⊢
      linarith
    · intro s hs
      obtain rfl := List.eq_of_mem_replicate hs
      rw [decide_eq_true_eq]
      unfold segRatio arcEpsilon extrusionError
      rw [if_neg (not_lt.2 hd'1)]
      simp only
      rw [div_self (div_ne_zero hv0.ne' hd'0.ne'), sub_self, abs_zero]
      norm_num
  refine ⟨?_, ci, hci, hc1, hc2⟩
  simp only [arcOps]
  unfold queueValid
  rw [hu]
  simp only [if_true]
  rw [hdist]
  simp only [hratio, if_true]
  rw [hpts]
  simp only
  rw [hci]
  rfl

theorem valid_mixed {α : Type} [Field α] [LinearOrder α] [IsStrictOrderedRing α] [FloorRing α] (t : Trig α) (a : PyLine α) (q : List (PyLine α)) (h1 : ∃ l ∈ q, l.e = none) (h2 : ∃ l ∈ q, l.e ≠ none) :
    (arcOps t).valid (a :: q) = .ok false := by
  obtain ⟨l1, m1, e1⟩ := h1
  obtain ⟨l2, m2, e2⟩ := h2
  cases q with
  | nil => simp at m1
  | cons x q =>
    have hu : ∃ b, uniformTail (a :: x :: q) = .ok (false, b) := by
      unfold uniformTail
      simp only [List.getElem?_cons_succ, List.getElem?_cons_zero, List.drop_succ_cons, List.drop_zero]
      refine ⟨x.e.isSome, ?_⟩
      congr 2
      by_cases hx : x.e.isSome = true
      · rw [if_pos hx, show (x :: q).all (fun l => l.e.isSome) = false by
          rw [List.all_eq_false]; exact ⟨l1, m1, by rw [e1]; simp⟩]
        simp
      · rw [if_neg hx, show (x :: q).any (fun l => l.e.isSome) = true by
          rw [List.any_eq_true]; exact ⟨l2, m2, by rw [Option.isSome_iff_ne_none]; exact e2⟩]
        simp
    obtain ⟨b, hb⟩ := hu
    simp only [arcOps]
    unfold queueValid
    rw [hb]
    rfl

/-! ### what is written for it -/

theorem toGcode_circle {α : Type} [Field α] [LinearOrder α] [IsStrictOrderedRing α] [FloorRing α] {t : Trig α} {first last : PyLine α} {w r : List (PyLine α)} {pts : List (α × α)} {b : Bool} {ci : Circle α}
    (h : toGcode t (first :: w) last = .ok r) (hp : points (first :: w) = .ok pts) (hc : getCircle t pts = .ok (b, some ci)) :
    ∃ arc, r[1]? = some arc ∧ arc.command = some (if 0 < ci.direction then c!"G3" else c!"G2") ∧
      arc.i = some (pyRound t.mode 3 (ci.cx - ci.startX)) ∧ arc.j = some (pyRound t.mode 3 (ci.cy - ci.startY)) := by
  unfold toGcode at h
  split at h
  · rename_i f e hf he
    rw [hp] at h
    simp only at h
    rw [hc] at h
    simp only at h
    cases hd : getDistances t (first :: w) with
    | error er => rw [hd] at h; simp at h
    | ok d =>
      rw [hd] at h
      simp only at h
      generalize hcmd : (if 0 < ci.direction then c!"G3" else c!"G2") = cmd at h ⊢
      split_ifs at h
      · split at h
        · simp at h
        · simp only [Except.ok.injEq] at h
          rw [← h]
          exact ⟨_, rfl, rfl, rfl, rfl⟩
      · split at h
        · split_ifs at h
          all_goals
            simp only [Except.ok.injEq] at h
            rw [← h]
            exact ⟨_, rfl, rfl, rfl, rfl⟩
        · simp at h
        · simp at h
  · simp at h

/-- The direction over the first two steps is that of the run, if the steps are below a quarter turn. -/
theorem Spec.RegularRun.dir (mode : RoundMode) {start : PyLine ℝ} {w : List (PyLine ℝ)} {p0 p1 p2 : ℝ × ℝ} {rest : List (ℝ × ℝ)} {c : ℝ × ℝ} {r d v : ℝ}
    (h : RegularRun start w (p0 :: p1 :: p2 :: rest) c r d v) (hr : d ^ 2 < 2 * r ^ 2) :
    ((∀ s ∈ steps (p0 :: p1 :: p2 :: rest), 0 < cross c s.1 s.2) → 0 < turn (realTrig mode) c p0 p2) ∧
    ((∀ s ∈ steps (p0 :: p1 :: p2 :: rest), cross c s.1 s.2 < 0) → turn (realTrig mode) c p0 p2 < 0) := by
  have i1 : (p0, p1) ∈ steps (p0 :: p1 :: p2 :: rest) := by rw [steps_cons]; simp
  have i2 : (p1, p2) ∈ steps (p0 :: p1 :: p2 :: rest) := by rw [steps_cons, steps_cons]; simp
  have hr0 : 0 < r := by
    rcases h.radius.1.lt_or_eq with h' | h'
    · exact h'
    · rw [← h'] at hr
      nlinarith [sq_nonneg d]
  have hne : ∀ p ∈ p0 :: p1 :: p2 :: rest, p ≠ c := by
    intro p hp he
    have := h.circle p hp
    rw [he] at this
    unfold distSq at this
    nlinarith
  have hquarter : ∀ p q, p ∈ p0 :: p1 :: p2 :: rest → q ∈ p0 :: p1 :: p2 :: rest → distSq p q = d ^ 2 → |turn (realTrig mode) c p q| < Real.pi / 2 := by
    intro p q hp hq hd
    have hc : 0 < Real.cos (turn (realTrig mode) c p q) := by
      rw [cos_turn_dot hr0 (h.circle p hp) (h.circle q hq)]
      have a1 := h.circle p hp
      have a2 := h.circle q hq
      unfold distSq at a1 a2 hd
      exact div_pos (by nlinarith) (by positivity)
    by_contra hcon
    rw [not_lt] at hcon
    have hb := turn_bounds (mode := mode) c p q
    have : Real.cos |turn (realTrig mode) c p q| ≤ 0 := Real.cos_nonpos_of_pi_div_two_le_of_le hcon (by
      have := abs_le.2 hb
      linarith [Real.pi_pos])
    rw [Real.cos_abs] at this
    linarith
  have q1 := abs_lt.1 (hquarter p0 p1 (by simp) (by simp) (h.step _ i1))
  have q2 := abs_lt.1 (hquarter p1 p2 (by simp) (by simp) (h.step _ i2))
  constructor
  · intro hw
    have t1 := (turn_cross (mode := mode) c p0 p1).1 (hw _ i1)
    have t2 := (turn_cross (mode := mode) c p1 p2).1 (hw _ i2)
    have := two_steps (mode := mode) (s := 1) (Or.inl rfl) (hne p0 (by simp)) (hne p1 (by simp)) (hne p2 (by simp)) (by linarith) (by linarith) (by linarith) (by linarith)
    linarith
  · intro hw
    have t1 := (turn_cross (mode := mode) c p0 p1).2 (hw _ i1)
    have t2 := (turn_cross (mode := mode) c p1 p2).2 (hw _ i2)
    have := two_steps (mode := mode) (s := -1) (Or.inr rfl) (hne p0 (by simp)) (hne p1 (by simp)) (hne p2 (by simp)) (by linarith) (by linarith) (by linarith) (by linarith)
    linarith

/-! ### C97 -/

/-- The generated line has the centre and the direction of the fitted circle. -/
def FitLine (t : Trig ℝ) (start : PyLine ℝ) (w gen : List (PyLine ℝ)) : Prop :=
  ∀ pts b ci, points (start :: w) = .ok pts → getCircle t pts = .ok (b, some ci) → ∃ arc rest, gen = arc :: rest ∧
    arc.command = some (if 0 < ci.direction then c!"G3" else c!"G2") ∧
    arc.i = some (pyRound t.mode 3 (ci.cx - ci.startX)) ∧ arc.j = some (pyRound t.mode 3 (ci.cy - ci.startY))

theorem guard_fits {mode : RoundMode} : ∀ first w last r, (guardOps (arcOps (realTrig mode)) (List.IsChain EStep)).valid (first :: w) = .ok true → 8 ≤ w.length →
    (∀ l ∈ first :: w, MoveOrComment l) → (guardOps (arcOps (realTrig mode)) (List.IsChain EStep)).emit (first :: w) last = .ok r →
    ∃ gen, r = first :: (gen ++ [last]) ∧ ((ArcReplacement (realTrig mode) first w gen ∧ ∀ l ∈ w, l.e ≠ none) ∧ FitLine (realTrig mode) first w gen) := by
  intro first w last r hv h8 hm hem
  obtain ⟨gen, rfl, hg⟩ := guard_replaces first w last r hv h8 hm hem
  refine ⟨gen, rfl, hg, ?_⟩
  intro pts b ci hp hc
  simp only [guardOps] at hem
  by_cases hcc : List.IsChain EStep (first :: w)
  · rw [if_pos hcc] at hem
    obtain ⟨arc, h1, h2⟩ := toGcode_circle hem hp hc
    obtain ⟨_, _, _, _, _, _, arc', rest, _, _, _, hgen⟩ := hg.1
    rw [hgen] at h1 ⊢
    simp only [List.cons_append, List.getElem?_cons_succ, List.getElem?_cons_zero, Option.some.injEq] at h1
    subst h1
    exact ⟨arc', rest, rfl, h2⟩
  · rw [if_neg hcc] at hem; simp at hem

/-- C97.  A regular run (`RegularRun`: moves round a circle one way, in equal steps with equal filament) in a loaded program that begins
at `start` and is followed by a line `m` that is not an extruding move is replaced as a whole, with real square root, sine and phase, if
the optimiser returns a program at all: the output has `start`, then the arc for exactly these moves (possibly with a correction), then
what becomes of the rest.  The arc has the centre of the circle, and the direction of the moves if they turn less than a quarter each. -/
theorem C97_found (env : Env ℝ) (data : List Str) (home : Home ℝ) (g g' : GCode ℝ) (h : GCode.load env data false home = .ok g) (mode : RoundMode)
    (hr : g.optimizeArcs (realTrig mode) = .ok g') (pre w post : List (PyLine ℝ)) (start m : PyLine ℝ) (hg : program g = pre ++ start :: (w ++ m :: post))
    (hstart : IsMove start) (hb : Begins pre start) (he : Ends m) (p0 : ℝ × ℝ) (pts : List (ℝ × ℝ)) (c : ℝ × ℝ) (r d v : ℝ) (hreg : RegularRun start w (p0 :: pts) c r d v) :
    ∃ pre' arc more rest', program g' = pre' ++ start :: (arc :: more ++ rest') ∧ Rewrites (ArcReplacement (realTrig mode)) (pre ++ [start]) (pre' ++ [start]) ∧
      ArcReplacement (realTrig mode) start w (arc :: more) ∧ Rewrites (ArcReplacement (realTrig mode)) (m :: post) rest' ∧
      arc.i = some (pyRound mode 3 (c.1 - p0.1)) ∧ arc.j = some (pyRound mode 3 (c.2 - p0.2)) ∧
      (d ^ 2 < 2 * r ^ 2 → ((∀ s ∈ steps (p0 :: pts), 0 < cross c s.1 s.2) → HasCmd arc c!"G3") ∧ ((∀ s ∈ steps (p0 :: pts), cross c s.1 s.2 < 0) → HasCmd arc c!"G2")) := by
  unfold GCode.optimizeArcs at hr
  cases ha : arcRun (arcOps (realTrig mode)) {} g with
  | error e => rw [ha] at hr; simp [Except.map] at hr
  | ok res =>
    obtain ⟨s, g1⟩ := res
    rw [ha] at hr
    simp only [Except.map, Except.ok.injEq] at hr
    subst hr
    have hne : g.allLayers ≠ [] := by
      intro hc
      have : program g = [] := by unfold program layerLines; rw [hc]; rfl
      rw [this] at hg
      simp at hg
    obtain ⟨out, hout, hprog⟩ := arcRun_guarded h hne ha
    rw [hg] at hout
    obtain ⟨pre', gen, rest', e1, e2, e3, e4⟩ := run_found (ops := guardOps (arcOps (realTrig mode)) (List.IsChain EStep))
      (R := fun start w gen => (ArcReplacement (realTrig mode) start w gen ∧ ∀ l ∈ w, l.e ≠ none) ∧ FitLine (realTrig mode) start w gen)
      guard_last
      (fun a q h1 h2 => valid_mixed _ a q h1 h2)
      guard_fits
      (fun _ _ _ hR => hR.1.2) hout ((inMoves_iff _).2 hstart) (fun l hl => ⟨(inMoves_iff _).2 (hreg.moves l hl).1, (hreg.moves l hl).2⟩) hreg.long hb
      (by
        unfold Ends at he
        by_cases hm : IsMove m
        · right
          by_contra hne
          exact he ⟨hm, hne⟩
        · left
          rw [← inMoves_iff] at hm
          simpa using hm)
      (fun n h8 hn => ((hreg.part h8 hn).accepted mode).1)
    obtain ⟨_, ci, hci, hc1, hc2⟩ := hreg.accepted mode
    obtain ⟨arc, more, rfl, a1, a2, a3⟩ := e3.2 _ _ _ ((points_spec _ _).2 hreg.at_points) hci
    have hls : leastSquares (realTrig mode) (p0 :: pts) = .ok (some ci) := by
      unfold getCircle at hci
      cases hl : leastSquares (realTrig mode) (p0 :: pts) with
      | error e => rw [hl] at hci; simp at hci
      | ok o =>
        rw [hl] at hci
        cases o with
        | none => simp at hci
        | some c' =>
          simp only at hci
          split_ifs at hci
          · simp at hci
          · simp at hci
          · split at hci
            · simp at hci
            · simp only [Except.ok.injEq, Prod.mk.injEq, Option.some.injEq] at hci
              rw [hci.2]
    obtain ⟨q0, q2, ql, k0, k2, kl, kd, ksx, ksy, _, _⟩ := leastSquares_spec hls
    simp only [List.getElem?_cons_zero, Option.some.injEq] at k0
    subst k0
    refine ⟨pre', arc, more, rest', by rw [hprog, e1], rewrites_mono (fun _ _ _ h => h.1.1) e2, e3.1.1, rewrites_mono (fun _ _ _ h => h.1.1) e4, ?_, ?_, ?_⟩
    · rw [a2, hc1, ksx]; rfl
    · rw [a3, hc2, ksy]; rfl
    · intro hq
      match pts, hreg, k2 with
      | p1 :: p2 :: rest, hreg, k2 =>
        simp only [List.getElem?_cons_succ, List.getElem?_cons_zero, Option.some.injEq] at k2
        subst k2
        obtain ⟨d1, d2⟩ := hreg.dir mode hq
        rw [hc1, hc2] at kd
        unfold HasCmd
        rw [a1, kd]
        refine ⟨fun hw => ?_, fun hw => ?_⟩
        · rw [if_pos (d1 hw)]
        · rw [if_neg (not_lt.2 (d2 hw).le)]

/-- C97, at the end of the program: a regular run that nothing follows is not replaced. -/
theorem C97_last (env : Env ℝ) (data : List Str) (home : Home ℝ) (g g' : GCode ℝ) (h : GCode.load env data false home = .ok g) (mode : RoundMode)
    (hr : g.optimizeArcs (realTrig mode) = .ok g') (pre w : List (PyLine ℝ)) (start : PyLine ℝ) (hg : program g = pre ++ start :: w)
    (hstart : IsMove start) (hb : Begins pre start) (pts : List (ℝ × ℝ)) (c : ℝ × ℝ) (r d v : ℝ) (hreg : RegularRun start w pts c r d v) :
    ∃ pre', program g' = pre' ++ start :: w ∧ Rewrites (ArcReplacement (realTrig mode)) (pre ++ [start]) (pre' ++ [start]) := by
  unfold GCode.optimizeArcs at hr
  cases ha : arcRun (arcOps (realTrig mode)) {} g with
  | error e => rw [ha] at hr; simp [Except.map] at hr
  | ok res =>
    obtain ⟨s, g1⟩ := res
    rw [ha] at hr
    simp only [Except.map, Except.ok.injEq] at hr
    subst hr
    have hne : g.allLayers ≠ [] := by
      intro hc
      have : program g = [] := by unfold program layerLines; rw [hc]; rfl
      rw [this] at hg
      simp at hg
    obtain ⟨out, hout, hprog⟩ := arcRun_guarded h hne ha
    rw [hg] at hout
    obtain ⟨pre', e1, e2⟩ := run_left (ops := guardOps (arcOps (realTrig mode)) (List.IsChain EStep))
      (R := fun start w gen => (ArcReplacement (realTrig mode) start w gen ∧ ∀ l ∈ w, l.e ≠ none) ∧ FitLine (realTrig mode) start w gen)
      guard_last (fun a q h1 h2 => valid_mixed _ a q h1 h2) guard_fits (fun _ _ _ hR => hR.1.2) hout ((inMoves_iff _).2 hstart)
      (fun l hl => ⟨(inMoves_iff _).2 (hreg.moves l hl).1, (hreg.moves l hl).2⟩) hreg.long hb (fun n h8 hn => ((hreg.part h8 hn).accepted mode).1)
    exact ⟨pre', by rw [hprog, e1], rewrites_mono (fun _ _ _ h => h.1.1) e2⟩

/-! ### such runs exist -/

theorem spread_cast (vs : List ℚ) : spread (vs.map (fun x : ℚ => (x : ℝ))) = ((spread vs : ℚ) : ℝ) := by
  have hs : ∀ ws : List ℚ, (ws.map (fun x : ℚ => (x : ℝ))).sum = ((ws.sum : ℚ) : ℝ) := by
    intro ws
    induction ws with
    | nil => simp
    | cons x ws ih => rw [List.map_cons, List.sum_cons, List.sum_cons, ih, Rat.cast_add]
  have hm : mean (vs.map (fun x : ℚ => (x : ℝ))) = ((mean vs : ℚ) : ℝ) := by
    unfold mean; rw [hs, List.length_map]; push_cast; rfl
  unfold spread
  rw [hm, ← hs, List.map_map, List.map_map]
  congr 1
  refine List.map_congr_left fun x _ => ?_
  simp

theorem steps_map {β γ : Type} (f : β → γ) (ls : List β) : steps (ls.map f) = (steps ls).map (fun s => (f s.1, f s.2)) := by
  unfold steps
  rw [← List.map_tail, List.zip_map]
  rfl

/-- A regular run with rational numbers (`ds` is the squared length of a step). -/
structure RegularQ (start : PyLine ℚ) (w : List (PyLine ℚ)) (pts : List (ℚ × ℚ)) (c : ℚ × ℚ) (r ds v : ℚ) (f z : Option ℚ) : Prop where
  lines : ∀ l ∈ w, l.inMoves = true ∧ l.e ≠ none ∧ l.currentF = f ∧ l.currentZ = z
  long : 8 ≤ w.length
  places : (start :: w).map placeQ = pts.map some
  circle : ∀ p ∈ pts, distSq p c = r ^ 2
  radius : 0 ≤ r ∧ r ≤ 200
  step : ∀ s ∈ steps pts, distSq s.1 s.2 = ds ∧ 0 < cross c s.1 s.2
  wide : 1 / 10 ^ 6 ≤ spread ((pts.take 9).map (·.1)) ∧ 1 / 10 ^ 6 ≤ spread ((pts.take 9).map (·.2))
  flow : ∀ s ∈ steps (start :: w), s.2.relativeE = some true ∧ s.2.e = some v
  size : (2 / 10 ^ 6) ^ 2 ≤ ds
  amount : 0 ≤ v ∧ (2 / 10 ^ 6) ^ 2 * ds ≤ v ^ 2

theorem RegularQ.real {start : PyLine ℚ} {w : List (PyLine ℚ)} {pts : List (ℚ × ℚ)} {c : ℚ × ℚ} {r ds v : ℚ} {f z : Option ℚ} (h : RegularQ start w pts c r ds v f z) :
    RegularRun (castLine start) (w.map castLine) (pts.map (fun p => ((p.1 : ℝ), (p.2 : ℝ)))) ((c.1 : ℝ), (c.2 : ℝ)) (r : ℝ) (Real.sqrt (ds : ℝ)) (v : ℝ) := by
  have hds : (0 : ℝ) ≤ (ds : ℝ) := by
    have : (0 : ℚ) ≤ ds := le_trans (by norm_num) h.size
    exact_mod_cast this
  have hcr : ∀ a b : ℚ × ℚ, cross ((c.1 : ℝ), (c.2 : ℝ)) ((a.1 : ℝ), (a.2 : ℝ)) ((b.1 : ℝ), (b.2 : ℝ)) = ((cross c a b : ℚ) : ℝ) := by
    intro a b; unfold cross; push_cast; rfl
  have hat : ∀ (ls : List (PyLine ℚ)) (ps : List (ℚ × ℚ)), ls.map placeQ = ps.map some → List.Forall₂ At (ls.map (castLine (α := ℝ))) (ps.map (fun p => ((p.1 : ℝ), (p.2 : ℝ)))) := by
    intro ls
    induction ls with
    | nil => intro ps hp; cases ps with
      | nil => exact List.Forall₂.nil
      | cons _ _ => simp at hp
    | cons l ls ih =>
      intro ps hp
      cases ps with
      | nil => simp at hp
      | cons p ps =>
        simp only [List.map_cons, List.cons.injEq] at hp
        exact List.Forall₂.cons (place_cast hp.1) (ih ps hp.2)
  refine ⟨?_, by rw [List.length_map]; exact h.long, ⟨f.map (↑), ?_⟩, ⟨z.map (↑), ?_⟩, hat (start :: w) pts h.places, ?_, ?_, ?_, Or.inl ?_, ?_, ?_, ?_, ?_⟩
  · intro l hl
    obtain ⟨a, ha, rfl⟩ := List.mem_map.1 hl
    refine ⟨(cast_inMoves a).2 (h.lines a ha).1, ?_⟩
    simp only [castLine, ne_eq, Option.map_eq_none_iff]
    exact (h.lines a ha).2.1
  · intro l hl
    obtain ⟨a, ha, rfl⟩ := List.mem_map.1 hl
    simp only [castLine, (h.lines a ha).2.2.1]
  · intro l hl
    obtain ⟨a, ha, rfl⟩ := List.mem_map.1 hl
    simp only [castLine, (h.lines a ha).2.2.2]
  · intro p hp
    obtain ⟨a, ha, rfl⟩ := List.mem_map.1 hp
    rw [distSq_cast, h.circle a ha]
    push_cast; rfl
  · exact ⟨by exact_mod_cast h.radius.1, by exact_mod_cast h.radius.2⟩
  · intro s hs
    rw [steps_map] at hs
    obtain ⟨a, ha, rfl⟩ := List.mem_map.1 hs
    simp only
    rw [distSq_cast, (h.step a ha).1, Real.sq_sqrt hds]
  · intro s hs
    rw [steps_map] at hs
    obtain ⟨a, ha, rfl⟩ := List.mem_map.1 hs
    simp only
    rw [hcr]
    exact_mod_cast (h.step a ha).2
  · rw [← List.map_take, List.map_map, List.map_map]
    have e1 : spread ((pts.take 9).map ((fun p : ℝ × ℝ => p.1) ∘ fun p : ℚ × ℚ => ((p.1 : ℝ), (p.2 : ℝ)))) = ((spread ((pts.take 9).map (·.1)) : ℚ) : ℝ) := by
      rw [← spread_cast, List.map_map]; rfl
    have e2 : spread ((pts.take 9).map ((fun p : ℝ × ℝ => p.2) ∘ fun p : ℚ × ℚ => ((p.1 : ℝ), (p.2 : ℝ)))) = ((spread ((pts.take 9).map (·.2)) : ℚ) : ℝ) := by
      rw [← spread_cast, List.map_map]; rfl
    rw [e1, e2]
    have w1 : ((1 / 10 ^ 6 : ℚ) : ℝ) ≤ _ := Rat.cast_le.2 h.wide.1
    have w2 : ((1 / 10 ^ 6 : ℚ) : ℝ) ≤ _ := Rat.cast_le.2 h.wide.2
    push_cast at w1 w2
    exact ⟨w1, w2⟩
  · intro s hs
    rw [← List.map_cons, steps_map] at hs
    obtain ⟨a, ha, rfl⟩ := List.mem_map.1 hs
    obtain ⟨f1, f2⟩ := h.flow a ha
    unfold Pushes
    rw [if_pos (show (castLine a.2 : PyLine ℝ).relativeE = some true from f1)]
    show a.2.e.map (↑) = some (v : ℝ)
    rw [f2]
    rfl
  · apply Real.le_sqrt_of_sq_le
    have : (((2 / 10 ^ 6) ^ 2 : ℚ) : ℝ) ≤ _ := Rat.cast_le.2 h.size
    push_cast at this
    exact this
  · have h1 : (((2 / 10 ^ 6) ^ 2 * ds : ℚ) : ℝ) ≤ _ := Rat.cast_le.2 h.amount.2
    push_cast at h1
    have h2 : (0 : ℝ) ≤ (v : ℝ) := by exact_mod_cast h.amount.1
    refine abs_le_of_sq_le_sq' ?_ h2 |>.2
    rw [mul_pow, Real.sq_sqrt hds]
    exact h1

theorem RegularQ.ccw {start : PyLine ℚ} {w : List (PyLine ℚ)} {pts : List (ℚ × ℚ)} {c : ℚ × ℚ} {r ds v : ℚ} {f z : Option ℚ} (h : RegularQ start w pts c r ds v f z) :
    ∀ s ∈ steps (pts.map (fun p => ((p.1 : ℝ), (p.2 : ℝ)))), 0 < cross ((c.1 : ℝ), (c.2 : ℝ)) s.1 s.2 := by
  intro s hs
  rw [steps_map] at hs
  obtain ⟨a, ha, rfl⟩ := List.mem_map.1 hs
  have := (h.step a ha).2
  unfold cross at this ⊢
  simp only
  exact_mod_cast this

/-- Nine moves round (50, 50) at 10 mm, each by the angle whose cosine is 24/25. -/
def exactCircle : List Str :=
  [c!"M83", c!"G1 X60 Y50 F1800", c!"G1 X59.6 Y52.8 E0.1", c!"G1 X58.432 Y55.376 E0.1", c!"G1 X56.58944 Y57.52192 E0.1", c!"G1 X54.2197248 Y59.0660864 E0.1",
   c!"G1 X51.512431616 Y59.884965888 E0.1", c!"G1 X48.68414390272 Y59.91304810496 E0.1", c!"G1 X45.9611246772224 Y59.1480864735232 E0.1",
   c!"G1 X43.561215477547008 Y57.651277924204544 E0.1", c!"G1 X41.67640903966785536 Y55.54236714094952448 E0.1", c!"M107"]

/-- The points of `exactCircle`. -/
def exactPts : List (ℚ × ℚ) := ((program (loadQ exactCircle)).drop 1).filterMap (fun l => if l.inMoves then placeQ l else none)

theorem exact_regular : RegularQ ((program (loadQ exactCircle))[1]?.getD { raw := [] }) (((program (loadQ exactCircle)).drop 2).take 9) exactPts (50, 50) 10 8 (1 / 10)
    (some 1800) (some 0) := by
  refine ⟨?_, ?_, ?_, ?_, ?_, ?_, ?_, ?_, ?_, ?_⟩ <;> decide +kernel

/-- The hypotheses of C97 are met: the run of `exactCircle` becomes a counter-clockwise arc round (50, 50). -/
example (mode : RoundMode) : ∃ (g g' : GCode ℝ) (arc : PyLine ℝ), GCode.load ⟨fun a b => Real.sqrt (a ^ 2 + b ^ 2), mode⟩ exactCircle = .ok g ∧
    g.optimizeArcs (realTrig mode) = .ok g' ∧ arc ∈ program g' ∧ HasCmd arc c!"G3" ∧ arc.i = some (-10) ∧ arc.j = some 0 := by
  obtain ⟨g, hg⟩ := load_real (data := exactCircle) (by decide +kernel) mode
  have h0 : (castHome Home.init : Home ℝ) = Home.init := by simp [castHome, Home.init]
  have hp := load_cast (envQ := qEnv) (data := exactCircle) (gq := loadQ exactCircle) (home := Home.init) (by decide +kernel) (by rw [h0]; exact hg)
  obtain ⟨g', hg'⟩ := C54_safe_partial _ exactCircle Home.init g hg mode (by rw [hp]; exact safe_of_ok (by decide +kernel))
  have hsplit : program (loadQ exactCircle) = ((program (loadQ exactCircle)).take 1) ++ (program (loadQ exactCircle))[1]?.getD { raw := [] } ::
      ((((program (loadQ exactCircle)).drop 2).take 9) ++ (program (loadQ exactCircle))[11]?.getD { raw := [] } :: []) := by decide +kernel
  rw [hsplit] at hp
  simp only [List.map_append, List.map_cons, List.map_nil] at hp
  have hpts : exactPts = (60, 50) :: exactPts.drop 1 := by decide +kernel
  have hreg := exact_regular.real
  rw [hpts] at hreg
  obtain ⟨pre', arc, more, rest', e1, _, _, _, e5, e6, e7⟩ := C97_found _ exactCircle Home.init g g' hg mode hg' _ _ _ _ _ hp
    ((cast_inMoves _).2 (by decide +kernel)) (Or.inr (Or.inr (by
      simp only [castLine, Option.map_eq_none_iff]; decide +kernel))) (by
      unfold Ends
      rintro ⟨hm, _⟩
      have := (cast_inMoves _).1 hm
      revert this
      decide +kernel) _ _ _ _ _ _ hreg
  refine ⟨g, g', arc, hg, hg', by rw [e1]; simp, (e7 ?_).1 ?_, ?_, ?_⟩
  · rw [Real.sq_sqrt (by norm_num)]; norm_num
  · intro s hs
    rw [← List.map_cons (f := fun p : ℚ × ℚ => ((p.1 : ℝ), (p.2 : ℝ)))] at hs
    rw [← hpts] at hs
    exact exact_regular.ccw s hs
  · rw [e5, show ((50 : ℚ) : ℝ) - ((60 : ℚ) : ℝ) = ((-10 : ℤ) : ℝ) by norm_num, pyRound_natCast]
    norm_num
  · rw [e6, show ((50 : ℚ) : ℝ) - ((50 : ℚ) : ℝ) = ((0 : ℤ) : ℝ) by norm_num, pyRound_natCast]
    norm_num

/-- The same without the last line: the moves are still there. -/
example (mode : RoundMode) : ∃ (g g' : GCode ℝ), GCode.load ⟨fun a b => Real.sqrt (a ^ 2 + b ^ 2), mode⟩ (exactCircle.take 11) = .ok g ∧
    g.optimizeArcs (realTrig mode) = .ok g' ∧ (exactCircle.take 11).drop 1 <:+ (program g').map (·.raw) := by
  obtain ⟨g, hg⟩ := load_real (data := exactCircle.take 11) (by decide +kernel) mode
  have h0 : (castHome Home.init : Home ℝ) = Home.init := by simp [castHome, Home.init]
  have hp := load_cast (envQ := qEnv) (data := exactCircle.take 11) (gq := loadQ (exactCircle.take 11)) (home := Home.init) (by decide +kernel) (by rw [h0]; exact hg)
  obtain ⟨g', hg'⟩ := C54_safe_partial _ (exactCircle.take 11) Home.init g hg mode (by rw [hp]; exact safe_of_ok (by decide +kernel))
  have hsplit : program (loadQ (exactCircle.take 11)) = ((program (loadQ exactCircle)).take 1) ++ (program (loadQ exactCircle))[1]?.getD { raw := [] } ::
      ((((program (loadQ exactCircle)).drop 2).take 9)) := by decide +kernel
  rw [hsplit] at hp
  simp only [List.map_append, List.map_cons] at hp
  obtain ⟨pre', e1, e2⟩ := C97_last _ (exactCircle.take 11) Home.init g g' hg mode hg' _ _ _ hp
    ((cast_inMoves _).2 (by decide +kernel)) (Or.inr (Or.inr (by
      simp only [castLine, Option.map_eq_none_iff]; decide +kernel))) _ _ _ _ _ exact_regular.real
  refine ⟨g, g', hg, hg', ?_⟩
  rw [e1]
  simp only [List.map_append, List.map_cons, List.map_map]
  rw [show (exactCircle.take 11).drop 1 = (castLine ((program (loadQ exactCircle))[1]?.getD { raw := [] }) : PyLine ℝ).raw ::
    (((program (loadQ exactCircle)).drop 2).take 9).map ((fun l : PyLine ℝ => l.raw) ∘ castLine) by
      show _ = ((program (loadQ exactCircle))[1]?.getD ({ raw := [] } : PyLine ℚ)).raw :: (((program (loadQ exactCircle)).drop 2).take 9).map (fun l => l.raw)
      decide +kernel]
  exact List.suffix_append _ _

end GCodeUtils
