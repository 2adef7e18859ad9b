import Verif.Lemmas.ArcCount

/-
  When the arc optimiser does not raise.
-/

set_option linter.unusedSectionVars false

namespace GCodeUtils

open Spec

variable {α : Type} [Field α] [LinearOrder α] [IsStrictOrderedRing α] [FloorRing α]

/-! ### places of queued lines -/

/-- Where a move ends. -/
def spot (l : PyLine α) : Option (α × α) :=
  if IsMove l then (match l.currentX, l.currentY with | some x, some y => some (x, y) | _, _ => none) else none

theorem spot_some {l : PyLine α} {p : α × α} (h : spot l = some p) : IsMove l ∧ At l p := by
  unfold spot at h
  by_cases hm : IsMove l
  · rw [if_pos hm] at h
    cases hx : l.currentX with
    | none => rw [hx] at h; simp at h
    | some x =>
      cases hy : l.currentY with
      | none => rw [hx, hy] at h; simp at h
      | some y =>
        rw [hx, hy] at h
        simp only [Option.some.injEq] at h
        subst h
        exact ⟨hm, hx, hy⟩
  · rw [if_neg hm] at h; cases h

theorem spot_move {l : PyLine α} {p : α × α} (hm : IsMove l) (h : At l p) : spot l = some p := by
  unfold spot
  rw [if_pos hm, h.1, h.2]

theorem spot_none {l : PyLine α} (hm : ¬ IsMove l) : spot l = none := by unfold spot; rw [if_neg hm]

/-- The spot of the last line, if there is one. -/
def lastSpot (o : Option (α × α)) (q : List (PyLine α)) : Option (α × α) :=
  match q.getLast? with
  | none => o
  | some l => spot l

/-- Placed, with a filament coordinate. -/
def Here (l : PyLine α) (p : α × α) : Prop := At l p ∧ l.currentE ≠ none

/-- In a queue, moves have a place, and comments directly after a move have its place. -/
def Loc : Option (α × α) → List (PyLine α) → Prop
  | _, [] => True
  | o, l :: q => (IsMove l → ∃ p, Here l p) ∧ (¬ IsMove l → ∀ p, o = some p → Here l p) ∧ Loc (spot l) q

theorem lastSpot_append (o : Option (α × α)) (q : List (PyLine α)) (l : PyLine α) : lastSpot o (q ++ [l]) = spot l := by
  unfold lastSpot; simp

theorem loc_push (q : List (PyLine α)) (l : PyLine α) : ∀ o, Loc o q → (IsMove l → ∃ p, Here l p) → (¬ IsMove l → ∀ p, lastSpot o q = some p → Here l p) →
    Loc o (q ++ [l]) := by
  induction q with
  | nil => intro o _ h1 h2; exact ⟨h1, h2, trivial⟩
  | cons a q ih =>
    intro o h h1 h2
    refine ⟨h.1, h.2.1, ih (spot a) h.2.2 h1 ?_⟩
    intro hn p hp
    apply h2 hn
    rw [← hp]
    cases q with
    | nil => rfl
    | cons b q =>
      unfold lastSpot
      rw [List.getLast?_cons_cons]
      cases hb : (b :: q).getLast? with
      | none => simp at hb
      | some c => rfl

theorem loc_last (q : List (PyLine α)) : ∀ (o : Option (α × α)) (l : PyLine α), Loc o q → q.getLast? = some l → ∀ p, spot l = some p → Here l p := by
  induction q with
  | nil => intro o l _ h; simp at h
  | cons a q ih =>
    intro o l h hl p hp
    cases q with
    | nil =>
      simp only [List.getLast?_singleton, Option.some.injEq] at hl
      subst hl
      obtain ⟨hm, hat⟩ := spot_some hp
      obtain ⟨p', hh⟩ := h.1 hm
      exact ⟨hat, hh.2⟩
    | cons b q =>
      rw [List.getLast?_cons_cons] at hl
      exact ih (spot a) l h.2.2 hl p hp

theorem kept_move {l l' : PyLine α} (h : Kept l l') (hm : IsMove l') : l' = l := by
  have h' := kept_command h
  rcases h with h | ⟨hc, _⟩
  · exact h
  · exfalso
    obtain ⟨c, _, hcmd⟩ := hm
    rw [h', hc] at hcmd
    cases hcmd

theorem spot_kept {l l' : PyLine α} (h : Kept l l') : spot l' = spot l := by
  by_cases hm : IsMove l'
  · rw [kept_move h hm]
  · rw [spot_none hm, spot_none (fun hl => hm ((isMove_congr (kept_command h)).2 hl))]

theorem isMove_inMoves {l : PyLine α} : l.inMoves = true ↔ IsMove l := inMoves_iff l

/-- If the decisions do not fail on the queues that occur, the filter does not fail. -/
theorem arcFilter_total {ops : ArcOps α} {x : List (PyLine α)} (hloc : ∀ l ∈ x, IsMove l → ∃ p, Here l p)
    (hv : ∀ pre q0 post q, x = pre ++ (q0 ++ post) → List.Forall₂ Kept q0 q → Loc (lastSpot none pre) q → (∀ l ∈ q, MoveOrComment l) → 9 ≤ q.length →
      (∃ l, q.getLast? = some l ∧ IsMove l) → ∃ b, ops.valid q = .ok b)
    (he : ∀ pre q0 post q last, x = pre ++ (q0 ++ post) → List.Forall₂ Kept q0 q → Loc (lastSpot none pre) q → (∀ l ∈ q, MoveOrComment l) → 9 ≤ q.length →
      (∃ l, q.getLast? = some l ∧ IsMove l) → ops.valid q = .ok true → ∃ r, ops.emit q last = .ok r ∧ r.getLast? = some last)
    (ls : List (PyLine α)) : ∀ (s : ArcSt α) (pre q0 : List (PyLine α)), x = pre ++ (q0 ++ ls) → List.Forall₂ Kept q0 s.queue → Loc (lastSpot none pre) s.queue →
      (∀ l ∈ s.queue, MoveOrComment l) → (s.queue = [] → lastSpot none pre = none) →
      (s.validCircle = true → 9 ≤ s.queue.length ∧ ops.valid s.queue = .ok true ∧ ∃ l, s.queue.getLast? = some l ∧ IsMove l) →
      ∃ s' out, filterLines (arcFilter ops) s ls = .ok (s', out) := by
  induction ls with
  | nil => intro s pre q0 _ _ _ _ _ _; exact ⟨s, [], rfl⟩
  | cons l0 ls ih =>
    intro s pre q0 hx hk hl hm h0 hvc
    have hkl := inheritPos_kept s.queue l0
    have hcom := kept_command hkl
    have hl0 : l0 ∈ x := by rw [hx]; simp
    -- the longer queue
    have hx' : x = pre ++ ((q0 ++ [l0]) ++ ls) := by rw [hx]; simp
    have hk' : List.Forall₂ Kept (q0 ++ [l0]) (s.queue ++ [inheritPos s.queue l0]) := forall₂_append hk (List.Forall₂.cons hkl List.Forall₂.nil)
    have hmc : MoveOrComment l0 → MoveOrComment (inheritPos s.queue l0) := by
      rintro (h | h)
      · exact Or.inl ((isMove_congr hcom).2 h)
      · exact Or.inr (by rw [hcom, h])
    have hm' : MoveOrComment l0 → ∀ l ∈ s.queue ++ [inheritPos s.queue l0], MoveOrComment l := by
      intro h l hl
      rcases List.mem_append.1 hl with hl | hl
      · exact hm l hl
      · rw [List.mem_singleton] at hl; rw [hl]; exact hmc h
    have hl' : MoveOrComment l0 → Loc (lastSpot none pre) (s.queue ++ [inheritPos s.queue l0]) := by
      intro hmc0
      refine loc_push _ _ _ hl ?_ ?_
      · intro hmv
        rw [kept_move hkl hmv]
        exact hloc l0 hl0 (by rw [kept_move hkl hmv] at hmv; exact hmv)
      · intro hn p hp
        cases hq : s.queue.getLast? with
        | none =>
          have hnil : s.queue = [] := List.getLast?_eq_none_iff.1 hq
          rw [hnil] at hp
          have hp' : lastSpot none pre = some p := hp
          rw [h0 hnil] at hp'; cases hp'
        | some a =>
          have hsa : spot a = some p := by unfold lastSpot at hp; rw [hq] at hp; exact hp
          have hh := loc_last _ _ _ hl hq p hsa
          have hc0 : l0.command = none := by
            rcases hmc0 with h | h
            · exact absurd ((isMove_congr hcom).2 h) hn
            · exact h
          unfold inheritPos
          rw [hc0, hq]
          exact ⟨⟨hh.1.1, hh.1.2⟩, hh.2⟩
    have hlastm : IsMove (inheritPos s.queue l0) → ∃ l, (s.queue ++ [inheritPos s.queue l0]).getLast? = some l ∧ IsMove l := by
      intro h; exact ⟨_, by simp, h⟩
    have hmoveInv : (inheritPos s.queue l0).inMoves = true → IsMove (inheritPos s.queue l0) ∧ IsMove l0 := by
      intro h
      have := (inMoves_iff _).1 h
      exact ⟨this, (isMove_congr hcom).1 this⟩
    have step : ∃ s1 o, arcFilter ops s l0 = .ok (s1, o) ∧ ∃ pre1 q1, x = pre1 ++ (q1 ++ ls) ∧ List.Forall₂ Kept q1 s1.queue ∧ Loc (lastSpot none pre1) s1.queue ∧
        (∀ l ∈ s1.queue, MoveOrComment l) ∧ (s1.queue = [] → lastSpot none pre1 = none) ∧
        (s1.validCircle = true → 9 ≤ s1.queue.length ∧ ops.valid s1.queue = .ok true ∧ ∃ l, s1.queue.getLast? = some l ∧ IsMove l) := by
      have flush : ¬ IsMove l0 → ∃ pre1 q1, x = pre1 ++ (q1 ++ ls) ∧ List.Forall₂ Kept q1 ([] : List (PyLine α)) ∧ Loc (lastSpot none pre1) ([] : List (PyLine α)) ∧
          (∀ l ∈ ([] : List (PyLine α)), MoveOrComment l) ∧ (([] : List (PyLine α)) = [] → lastSpot none pre1 = none) := by
        intro hn
        refine ⟨pre ++ (q0 ++ [l0]), [], by rw [hx']; simp, .nil, trivial, by simp, fun _ => ?_⟩
        rw [← List.append_assoc, lastSpot_append, spot_none hn]
      unfold arcFilter
      simp only
      by_cases hlen : minSegments < (s.queue ++ [inheritPos s.queue l0]).length
      · rw [if_pos hlen]
        have hlen9 : 9 ≤ (s.queue ++ [inheritPos s.queue l0]).length := hlen
        by_cases hin : (inheritPos s.queue l0).inMoves = true
        · obtain ⟨him, him0⟩ := hmoveInv hin
          rw [hin]
          simp only [Bool.not_true, Bool.false_eq_true, if_false]
          obtain ⟨b, hb⟩ := hv pre (q0 ++ [l0]) ls _ hx' hk' (hl' (Or.inl him0)) (hm' (Or.inl him0)) hlen9 (hlastm him)
          rw [hb]
          cases b with
          | true =>
            exact ⟨_, _, rfl, pre, q0 ++ [l0], hx', hk', hl' (Or.inl him0), hm' (Or.inl him0), by simp, fun _ => ⟨hlen9, hb, hlastm him⟩⟩
          | false =>
            simp only
            by_cases hc : s.validCircle = true
            · rw [if_pos hc]
              obtain ⟨c1, c2, c3⟩ := hvc hc
              obtain ⟨r, hr, hrl⟩ := he pre q0 (l0 :: ls) s.queue (inheritPos s.queue l0) hx hk hl hm c1 c3 c2
              rw [hr]
              simp only [hrl]
              refine ⟨_, _, rfl, pre ++ q0, [l0], by rw [hx]; simp, .cons hkl .nil, ?_, ?_, by simp, by simp⟩
              · refine ⟨fun _ => ?_, fun hn => absurd him hn, trivial⟩
                rw [kept_move hkl him]
                exact hloc l0 hl0 him0
              · intro l hl
                rw [List.mem_singleton] at hl
                rw [hl]; exact Or.inl him
            · rw [if_neg hc]
              cases hq : s.queue with
              | nil => rw [hq] at hlen9; simp at hlen9
              | cons a tl =>
                have hkk := hk
                rw [hq] at hkk
                cases hkk with
                | cons ha htl =>
                  rename_i a0 tl0
                  simp only [List.cons_append]
                  refine ⟨_, _, rfl, pre ++ [a0], tl0 ++ [l0], by rw [hx]; simp, forall₂_append htl (by rw [← hq]; exact .cons hkl .nil), ?_, ?_, by simp, by simp [hc]⟩
                  · have := hl' (Or.inl him0)
                    rw [hq] at this
                    rw [lastSpot_append, ← spot_kept ha]
                    exact this.2.2
                  · intro l hl
                    have := hm' (Or.inl him0) l (by rw [hq]; exact List.mem_cons_of_mem _ hl)
                    exact this
        · have hn0 : ¬ IsMove l0 := fun h => hin ((inMoves_iff _).2 ((isMove_congr hcom).2 h))
          obtain ⟨pre1, q1, f1, f2, f3, f4, f5⟩ := flush hn0
          rw [show (inheritPos s.queue l0).inMoves = false by simpa using hin]
          simp only [Bool.not_false, if_true]
          by_cases hc : s.validCircle = true
          · rw [if_pos hc]
            obtain ⟨c1, c2, c3⟩ := hvc hc
            obtain ⟨r, hr, hrl⟩ := he pre q0 (l0 :: ls) s.queue (inheritPos s.queue l0) hx hk hl hm c1 c3 c2
            rw [hr]
            exact ⟨_, _, rfl, pre1, q1, f1, f2, f3, f4, f5, by simp⟩
          · rw [if_neg hc]
            exact ⟨_, _, rfl, pre1, q1, f1, f2, f3, f4, f5, by simp [hc]⟩
      · rw [if_neg hlen]
        have hnc : ¬ s.validCircle = true := by
          intro hc
          obtain ⟨c1, _⟩ := hvc hc
          apply hlen
          show 8 < _
          rw [List.length_append]
          omega
        by_cases hin : ((inheritPos s.queue l0).inMoves || (inheritPos s.queue l0).command = none) = true
        · rw [if_pos hin]
          have hmc0 : MoveOrComment l0 := by
            refine (moveOrComment_of l0).1 ?_
            rw [← show (inheritPos s.queue l0).inMoves = l0.inMoves by unfold PyLine.inMoves; rw [hcom], ← hcom, hin]
          exact ⟨_, _, rfl, pre, q0 ++ [l0], hx', hk', hl' hmc0, hm' hmc0, by simp, by simp [hnc]⟩
        · rw [if_neg hin]
          have hn0 : ¬ IsMove l0 := by
            intro h
            apply hin
            rw [(inMoves_iff _).2 ((isMove_congr hcom).2 h)]; rfl
          obtain ⟨pre1, q1, f1, f2, f3, f4, f5⟩ := flush hn0
          exact ⟨_, _, rfl, pre1, q1, f1, f2, f3, f4, f5, by simp⟩
    obtain ⟨s1, o, hst, pre1, q1, k1, k2, k3, k4, k5, k6⟩ := step
    obtain ⟨s', out, hrest⟩ := ih s1 pre1 q1 k1 k2 k3 k4 k5 k6
    unfold filterLines
    rw [hst]
    simp only [hrest]
    exact ⟨_, _, rfl⟩

/-! ### the computations -/

/-- The fit fails only for points on a slanted line. -/
theorem leastSquares_total (t : Trig α) (pts : List (α × α)) (h3 : 3 ≤ pts.length)
    (hb : ¬ ∃ a b c : α, a ≠ 0 ∧ b ≠ 0 ∧ ∀ p ∈ pts, a * p.1 + b * p.2 = c) : ∃ o, leastSquares t pts = .ok o := by
  have hn : (pts.length : α) ≠ 0 := by
    have : pts.length ≠ 0 := by omega
    exact_mod_cast this
  unfold leastSquares
  simp only [divE, if_neg hn]
  generalize sumOf pts (fun x _ => x) / (pts.length : α) = m
  generalize sumOf pts (fun _ y => y) / (pts.length : α) = n
  by_cases hs : sumOf pts (fun x _ => (x - m) * (x - m)) < arcEpsilon ∨ sumOf pts (fun _ y => (y - n) * (y - n)) < arcEpsilon
  · rw [if_pos hs]; exact ⟨_, rfl⟩
  · rw [if_neg hs]
    rw [not_or, not_lt, not_lt] at hs
    have hA0 : 0 < sumOf pts (fun x _ => (x - m) * (x - m)) := lt_of_lt_of_le (by unfold arcEpsilon; norm_num) hs.1
    have hB0 : 0 < sumOf pts (fun _ y => (y - n) * (y - n)) := lt_of_lt_of_le (by unfold arcEpsilon; norm_num) hs.2
    have hden : -(sumOf pts (fun x y => (x - m) * (y - n)) * sumOf pts (fun x y => (x - m) * (y - n))) / sumOf pts (fun x _ => (x - m) * (x - m)) +
        sumOf pts (fun _ y => (y - n) * (y - n)) ≠ 0 := by
      intro h0
      apply hb
      generalize hA : sumOf pts (fun x _ => (x - m) * (x - m)) = A at *
      generalize hB : sumOf pts (fun _ y => (y - n) * (y - n)) = B at *
      generalize hC : sumOf pts (fun x y => (x - m) * (y - n)) = C at *
      have hd : A * B = C * C := by
        field_simp at h0
        linarith
      have hz : sumOf pts (fun x y => (A * (y - n) - C * (x - m)) ^ 2) = 0 := by
        have e : sumOf pts (fun x y => (A * (y - n) - C * (x - m)) ^ 2) = A ^ 2 * B + (-2 * A * C) * C + C ^ 2 * A := by
          have e1 : A ^ 2 * B = sumOf pts (fun x y => A ^ 2 * ((y - n) * (y - n))) := by rw [← hB, sumOf_mul]
          have e2 : (-2 * A * C) * C = sumOf pts (fun x y => (-2 * A * C) * ((x - m) * (y - n))) := by rw [← sumOf_mul, hC]
          have e3 : C ^ 2 * A = sumOf pts (fun x y => C ^ 2 * ((x - m) * (x - m))) := by rw [← sumOf_mul, hA]
          rw [e1, e2, e3, sumOf_add, sumOf_add]
          apply sumOf_congr
          intro p _
          ring
        rw [e]
        linear_combination A * hd
      have hl := sumOf_nonneg_zero pts (fun p _ => sq_nonneg _) hz
      have hC0 : C ≠ 0 := by
        rintro rfl
        have := mul_pos hA0 hB0
        rw [hd] at this
        simp at this
      refine ⟨-C, A, A * n - C * m, neg_ne_zero.2 hC0, hA0.ne', ?_⟩
      intro p hp
      have := hl p hp
      have := pow_eq_zero_iff (two_ne_zero) |>.1 this
      linarith
    rw [if_neg hden]
    simp only
    cases h0 : pts[0]? with
    | none => rw [List.getElem?_eq_none_iff] at h0; omega
    | some p0 =>
      cases h2 : pts[2]? with
      | none => rw [List.getElem?_eq_none_iff] at h2; omega
      | some p2 =>
        cases hl : pts.getLast? with
        | none => rw [List.getLast?_eq_none_iff] at hl; rw [hl] at h3; simp at h3
        | some pl => exact ⟨_, rfl⟩

theorem angles_length (t : Trig α) (c : α × α) (pts : List (α × α)) : (angles t c pts).length = pts.length - 1 := by
  unfold angles steps
  simp only [List.length_map, List.length_zip, List.length_tail]
  omega

theorem getCircle_total (t : Trig α) (pts : List (α × α)) (h3 : 3 ≤ pts.length)
    (hb : ¬ ∃ a b c : α, a ≠ 0 ∧ b ≠ 0 ∧ ∀ p ∈ pts, a * p.1 + b * p.2 = c) : ∃ o, getCircle t pts = .ok o := by
  obtain ⟨o, ho⟩ := leastSquares_total t pts h3 hb
  unfold getCircle
  rw [ho]
  cases o with
  | none => exact ⟨_, rfl⟩
  | some c =>
    simp only
    split_ifs
    · exact ⟨_, rfl⟩
    · exact ⟨_, rfl⟩
    · unfold angleErrors
      rw [phaseDiffs_spec]
      have hlen : ((angles t (c.cx, c.cy) pts).length : α) ≠ 0 := by
        rw [angles_length]
        have : pts.length - 1 ≠ 0 := by omega
        exact_mod_cast this
      simp only [divE, if_neg hlen]
      exact ⟨_, rfl⟩

theorem points_total {q : List (PyLine α)} (h : ∀ l ∈ q, ∃ p, Here l p) : ∃ pts, List.Forall₂ At q pts := by
  induction q with
  | nil => exact ⟨[], .nil⟩
  | cons l q ih =>
    obtain ⟨p, hp⟩ := h l (by simp)
    obtain ⟨pts, hpts⟩ := ih (fun x hx => h x (List.mem_cons_of_mem _ hx))
    exact ⟨p :: pts, .cons hp.1 hpts⟩

theorem segments_total (t : Trig α) (w : List (PyLine α)) : ∀ first : PyLine α, (∀ l ∈ first :: w, ∃ p, Here l p) → (∀ l ∈ w, l.e ≠ none) →
    ∃ ss, segments t (first :: w) = .ok ss := by
  induction w with
  | nil => intro first _ _; exact ⟨[], by simp [segments]⟩
  | cons b w ih =>
    intro first h hE
    obtain ⟨ss, hss⟩ := ih b (fun l hl => h l (List.mem_cons_of_mem _ hl)) (fun l hl => hE l (List.mem_cons_of_mem _ hl))
    obtain ⟨p, hp⟩ := h first (by simp)
    obtain ⟨q, hq⟩ := h b (by simp)
    obtain ⟨v, hv⟩ : ∃ v, segFilament first b = .ok v := by
      unfold segFilament
      by_cases hr : b.relativeE.getD false = true
      · rw [if_pos hr]
        obtain ⟨v, hv⟩ := Option.ne_none_iff_exists'.1 (hE b (by simp))
        exact ⟨v, by rw [hv]; rfl⟩
      · rw [if_neg hr]
        obtain ⟨x, hx⟩ := Option.ne_none_iff_exists'.1 hp.2
        obtain ⟨y, hy⟩ := Option.ne_none_iff_exists'.1 hq.2
        rw [hx, hy]
        exact ⟨_, rfl⟩
    unfold segments
    rw [hq.1.1, hq.1.2, hp.1.1, hp.1.2, hv, hss]
    exact ⟨_, rfl⟩

theorem relArcE_total (t : Trig α) (r : α) (ss : List (Seg α)) : ∀ as, (∀ a ∈ as, 2 * r * t.sin (a / 2) ≠ 0) → ∃ e, relArcE t r ss as = .ok e := by
  induction ss with
  | nil => intro as _; exact ⟨0, by simp [relArcE]⟩
  | cons s ss ih =>
    intro as h
    cases as with
    | nil => exact ⟨0, by simp [relArcE]⟩
    | cons a as =>
      obtain ⟨e, he⟩ := ih as (fun x hx => h x (List.mem_cons_of_mem _ hx))
      unfold relArcE
      rw [he]
      unfold divE
      rw [if_neg (h a (by simp))]
      exact ⟨_, rfl⟩

/-- Two points seen in the same direction are as far apart as their distances from the viewer. -/
theorem turn_zero {mode : RoundMode} {c p q : ℝ × ℝ} (h : turn (realTrig mode) c p q = 0) :
    distSq p q = (distance (realTrig mode) c p - distance (realTrig mode) c q) ^ 2 := by
  have harg : Complex.arg ⟨q.1 - c.1, q.2 - c.2⟩ = Complex.arg ⟨p.1 - c.1, p.2 - c.2⟩ := by
    have h1 := Complex.neg_pi_lt_arg ⟨q.1 - c.1, q.2 - c.2⟩
    have h2 := Complex.arg_le_pi ⟨q.1 - c.1, q.2 - c.2⟩
    have h3 := Complex.neg_pi_lt_arg ⟨p.1 - c.1, p.2 - c.2⟩
    have h4 := Complex.arg_le_pi ⟨p.1 - c.1, p.2 - c.2⟩
    have hc := turn_cases (realTrig mode) c p q
    simp only at hc
    rw [h] at hc
    simp only [realTrig] at hc
    rcases hc with ⟨_, hc⟩ | ⟨_, hc⟩ | ⟨_, _, hc⟩ <;> linarith
  have hd : ∀ z : ℝ × ℝ, distance (realTrig mode) c z = ‖(⟨z.1 - c.1, z.2 - c.2⟩ : ℂ)‖ := by
    intro z
    rw [Complex.norm_def, Complex.normSq_apply]
    unfold distance
    simp only [realTrig]
    congr 1
    ring
  rw [hd, hd]
  have a1 := Complex.norm_mul_cos_arg ⟨p.1 - c.1, p.2 - c.2⟩
  have a2 := Complex.norm_mul_sin_arg ⟨p.1 - c.1, p.2 - c.2⟩
  have b1 := Complex.norm_mul_cos_arg ⟨q.1 - c.1, q.2 - c.2⟩
  have b2 := Complex.norm_mul_sin_arg ⟨q.1 - c.1, q.2 - c.2⟩
  rw [harg] at b1 b2
  generalize ‖(⟨p.1 - c.1, p.2 - c.2⟩ : ℂ)‖ = R at *
  generalize ‖(⟨q.1 - c.1, q.2 - c.2⟩ : ℂ)‖ = S at *
  generalize Complex.arg ⟨p.1 - c.1, p.2 - c.2⟩ = θ at *
  simp only at a1 a2 b1 b2
  have hcs := Real.sin_sq_add_cos_sq θ
  unfold distSq
  have e1 : p.1 - q.1 = (R - S) * Real.cos θ := by linarith
  have e2 : p.2 - q.2 = (R - S) * Real.sin θ := by linarith
  rw [e1, e2]
  linear_combination (R - S) ^ 2 * hcs

theorem sin_half_ne {a : ℝ} (h1 : -Real.pi ≤ a) (h2 : a ≤ Real.pi) (h0 : a ≠ 0) : Real.sin (a / 2) ≠ 0 := by
  have hp := Real.pi_pos
  rcases lt_or_gt_of_ne h0 with h | h
  · exact (Real.sin_neg_of_neg_of_neg_pi_lt (by linarith) (by linarith)).ne
  · exact (Real.sin_pos_of_pos_of_lt_pi (by linarith) (by linarith)).ne'

/-! ### loaded moves have a place -/

theorem process_here {home : Home α} {m m' : Machine α} {r : Str} {l : PyLine α} (hp : processLine home m { raw := r } = .ok (m', l)) (hm : IsMove l) :
    ∃ p, Here l p := by
  rcases processLine_ok hp with ⟨hc, rfl, rfl⟩ | ⟨cmd, hc, hne, m1, l1, l2, m3, l3, h1, h2, h3, rfl, rfl⟩
  · obtain ⟨c, hmem, h⟩ := hm
    rcases hc with hc | hc
    · rw [hc] at h; simp at h
    · rw [hc] at h
      obtain rfl := Option.some.inj h
      simp at hmem
  · refine ⟨((stepPos home m1 l2 cmd).currentX, (stepPos home m1 l2 cmd).currentY), ?_, by simp⟩
    unfold stepExtrusion at h3
    split at h3
    · simp only [Prod.mk.injEq] at h3; rw [← h3.2]; exact ⟨rfl, rfl⟩
    · split_ifs at h3 <;> (simp only [Prod.mk.injEq] at h3; rw [← h3.2]; exact ⟨rfl, rfl⟩)

theorem run_here {home : Home α} {m m' : Machine α} {raws : List Str} {out : List (PyLine α)} (h : Run home m (bare raws) m' out) :
    ∀ l ∈ out, IsMove l → ∃ p, Here l p := by
  generalize hb : bare raws = ls at h
  induction h generalizing raws with
  | nil m => intro l hl; simp at hl
  | cons hp _ ih =>
    cases raws with
    | nil => simp [bare] at hb
    | cons r raws =>
      simp only [bare, List.map_cons, List.cons.injEq] at hb
      obtain ⟨rfl, hb⟩ := hb
      intro x hx
      rcases List.mem_cons.1 hx with rfl | hx
      · exact process_here hp
      · exact ih hb x hx

theorem load_here {env : Env α} {data : List Str} {home : Home α} {g : GCode α} (h : GCode.load env data false home = .ok g) :
    ∀ l ∈ program g, IsMove l → ∃ p, Here l p := by
  obtain ⟨out, hr, hout⟩ := load_run' h
  have e : out = program g := by rw [← hout rfl, (load_indexed h).flat]; rfl
  rw [← e]
  exact run_here hr

/-! ### steps -/

theorem steps_mem {β : Type} (ls : List β) : ∀ a b, (a, b) ∈ steps ls → ∃ u v, ls = u ++ a :: b :: v := by
  induction ls with
  | nil => intro a b h; simp [steps] at h
  | cons x ls ih =>
    intro a b h
    cases ls with
    | nil => simp [steps] at h
    | cons y ls =>
      rw [steps_cons] at h
      rcases List.mem_cons.1 h with h | h
      · obtain ⟨rfl, rfl⟩ := Prod.mk.inj h
        exact ⟨[], ls, rfl⟩
      · obtain ⟨u, v, huv⟩ := ih a b h
        exact ⟨x :: u, v, by rw [huv]; rfl⟩

theorem steps_mem' {β : Type} (u : List β) (a b : β) (v : List β) : (a, b) ∈ steps (u ++ a :: b :: v) := by
  induction u with
  | nil => simp [steps_cons]
  | cons x u ih =>
    cases u with
    | nil => simp [steps_cons]
    | cons y u =>
      simp only [List.cons_append] at ih ⊢
      rw [steps_cons]
      exact List.mem_cons_of_mem _ ih

theorem steps_forall₂ {β γ : Type} {R : β → γ → Prop} {ls : List β} {ps : List γ} (h : List.Forall₂ R ls ps) :
    List.Forall₂ (fun (s : β × β) (t : γ × γ) => R s.1 t.1 ∧ R s.2 t.2) (steps ls) (steps ps) := by
  induction h with
  | nil => simp [steps]
  | cons h1 h2 ih =>
    cases h2 with
    | nil => simp [steps]
    | cons h3 h4 =>
      rw [steps_cons, steps_cons]
      exact .cons ⟨h1, h3⟩ ih

theorem forall₂_last {β γ : Type} {R : β → γ → Prop} {a : List β} {b : List γ} (h : List.Forall₂ R a b) : ∀ {y}, b.getLast? = some y →
    ∃ x, a.getLast? = some x ∧ R x y := by
  induction h with
  | nil => intro y hy; simp at hy
  | cons h1 h2 ih =>
    intro y hy
    cases h2 with
    | nil =>
      simp only [List.getLast?_singleton, Option.some.injEq] at hy
      subst hy
      exact ⟨_, rfl, h1⟩
    | cons h3 h4 =>
      rw [List.getLast?_cons_cons] at hy ⊢
      exact ih hy

/-! ### windows of a safe program -/

/-- What is used of a loaded program. -/
structure SafeProgram (x : List (PyLine α)) : Prop where
  here : ∀ l ∈ x, IsMove l → ∃ p, Here l p
  comment : ∀ l ∈ x, l.command = none → l.e = none
  runs : SafeRuns x

theorem run_take {w : List (PyLine α)} (h8 : 8 ≤ w.length) (hm : ∀ l ∈ w, IsMove l) (hE : ∀ l ∈ w, l.e ≠ none) : ExtrudingRun (w.take 8) := by
  refine ⟨by simp; omega, fun l hl => ?_⟩
  have := List.mem_of_mem_take hl
  exact ⟨hm l this, hE l this⟩

/-- Lines of an extruding window have places; the start is a move, or a comment at the place of the move before it. -/
theorem window_here {x pre q0 post : List (PyLine α)} {first : PyLine α} {w : List (PyLine α)} (hs : SafeProgram x) (hx : x = pre ++ (q0 ++ post))
    (hk : List.Forall₂ Kept q0 (first :: w)) (hl : Loc (lastSpot none pre) (first :: w)) (hm : ∀ l ∈ first :: w, MoveOrComment l) (h8 : 8 ≤ w.length)
    (hE : ∀ l ∈ w, l.e ≠ none) :
    ∃ f0, q0 = f0 :: w ∧ Kept f0 first ∧ (∀ l ∈ w, IsMove l) ∧ (∀ l ∈ first :: w, ∃ p, Here l p) ∧
      (first = f0 ∧ IsMove first ∨ f0.command = none ∧ ∃ pre' m p, pre = pre' ++ [m] ∧ IsMove m ∧ At m p ∧ At first p) := by
  cases hk with
  | cons hkf hkw =>
    rename_i f0 w0
    have hw0 : ∀ l ∈ w0, l ∈ x := fun l hl => by rw [hx]; simp [hl]
    obtain ⟨rfl, hmw⟩ := window_same hs.comment hw0 hkw (fun l hl => hm l (List.mem_cons_of_mem _ hl)) hE
    have hherew : ∀ l ∈ w, ∃ p, Here l p := fun l hl => hs.here l (hw0 l hl) (hmw l hl)
    by_cases hfm : IsMove first
    · have he := kept_move hkf hfm
      refine ⟨f0, rfl, hkf, hmw, ?_, Or.inl ⟨he, hfm⟩⟩
      intro l hl
      rcases List.mem_cons.1 hl with rfl | hl
      · rw [he]
        exact hs.here f0 (by rw [hx]; simp) (by rw [← he]; exact hfm)
      · exact hherew l hl
    · have hcf : first.command = none := by
        rcases hm first (by simp) with h | h
        · exact absurd h hfm
        · exact h
      have hc0 : f0.command = none := by rw [← kept_command hkf]; exact hcf
      obtain ⟨m, hpm, hmm⟩ := hs.runs.comment pre f0 (w.take 8) (w.drop 8 ++ post) (by rw [hx, ← List.append_assoc (w.take 8), List.take_append_drop]; simp) hc0
        (run_take h8 hmw hE)
      obtain ⟨pre', rfl⟩ := List.getLast?_eq_some_iff.1 hpm
      obtain ⟨p, hp⟩ := hs.here m (by rw [hx]; simp) hmm
      have hfp : Here first p := hl.2.1 hfm p (by rw [lastSpot_append]; exact spot_move hmm hp.1)
      refine ⟨f0, rfl, hkf, hmw, ?_, Or.inr ⟨hc0, pre', m, p, rfl, hmm, hp.1, hfp.1⟩⟩
      intro l hl
      rcases List.mem_cons.1 hl with rfl | hl
      · exact ⟨p, hfp⟩
      · exact hherew l hl

/-! ### with real numbers -/

theorem path_nonneg (mode : RoundMode) (p q : ℝ × ℝ) : 0 ≤ pyRound mode 7 (distance (realTrig mode) p q) := by
  have h : (0 : ℝ) ≤ distance (realTrig mode) p q := Real.sqrt_nonneg _
  have := pyRound_mono mode 7 h
  rwa [show pyRound mode 7 (0 : ℝ) = 0 by have := pyRound_natCast (α := ℝ) mode 7 0; simpa using this] at this

theorem path_pos (mode : RoundMode) {p q : ℝ × ℝ} (h : 1 / 10 ^ 12 ≤ distSq p q) : 1 / 1000000 ≤ pyRound mode 7 (distance (realTrig mode) p q) := by
  have h1 : (1 / 1000000 : ℝ) ≤ distance (realTrig mode) p q := by
    apply Real.le_sqrt_of_sq_le
    unfold distSq at h
    calc (1 / 1000000 : ℝ) ^ 2 = 1 / 10 ^ 12 := by norm_num
      _ ≤ _ := h
      _ = _ := by ring
  have := pyRound_mono mode 7 h1
  rwa [show pyRound mode 7 (1 / 1000000 : ℝ) = 1 / 1000000 by
    have := pyRound_exact (α := ℝ) mode 7 10
    rw [show ((10 : ℤ) : ℝ) / 10 ^ 7 = 1 / 1000000 by norm_num] at this
    exact this] at this

theorem sum_pos_of_mem {l : List ℝ} (h0 : ∀ v ∈ l, 0 ≤ v) {v : ℝ} (hv : v ∈ l) (hp : 0 < v) : 0 < l.sum := by
  have := List.single_le_sum h0 v hv
  linarith

theorem window_computes {mode : RoundMode} {x pre q0 post : List (PyLine ℝ)} {first : PyLine ℝ} {w : List (PyLine ℝ)} (hs : SafeProgram x) (hx : x = pre ++ (q0 ++ post))
    (hk : List.Forall₂ Kept q0 (first :: w)) (hl : Loc (lastSpot none pre) (first :: w)) (hm : ∀ l ∈ first :: w, MoveOrComment l) (h8 : 8 ≤ w.length)
    (hE : ∀ l ∈ w, l.e ≠ none) :
    (∃ pts o, points (first :: w) = .ok pts ∧ getCircle (realTrig mode) pts = .ok o) ∧ ∃ d, getDistances (realTrig mode) (first :: w) = .ok d := by
  obtain ⟨f0, rfl, hkf, hmw, hhere, _⟩ := window_here hs hx hk hl hm h8 hE
  obtain ⟨pts, hpts⟩ := points_total hhere
  have hrun := run_take h8 hmw hE
  have hxw : x = (pre ++ [f0]) ++ (w.take 8 ++ (w.drop 8 ++ post)) := by rw [hx, ← List.append_assoc (w.take 8), List.take_append_drop]; simp
  have hlen : pts.length = w.length + 1 := by rw [← hpts.length_eq]; rfl
  have hbent : ¬ ∃ a b c : ℝ, a ≠ 0 ∧ b ≠ 0 ∧ ∀ p ∈ pts, a * p.1 + b * p.2 = c := by
    rintro ⟨a, b, c, ha, hb, hall⟩
    refine hs.runs.bent _ _ _ hxw hrun ⟨a, b, c, ha, hb, ?_⟩
    intro l hlw p hp
    obtain ⟨p', hp', hat⟩ := forall₂_mem_left hpts l (List.mem_cons_of_mem _ (List.mem_of_mem_take hlw))
    have : p = p' := by
      rw [At, hp.1, hp.2] at hat
      exact Prod.ext (Option.some.inj hat.1) (Option.some.inj hat.2)
    rw [this]
    exact hall p' hp'
  obtain ⟨o, ho⟩ := getCircle_total (realTrig mode) pts (by omega) hbent
  refine ⟨⟨pts, o, (points_spec _ _).2 hpts, ho⟩, ?_⟩
  obtain ⟨ss, hss⟩ := segments_total (realTrig mode) w first hhere hE
  obtain ⟨hpath, _⟩ := segments_spec _ _ _ _ hpts hss
  have htp : (ss.map (·.path)).sum ≠ 0 := by
    obtain ⟨u, a, b, v, huv, hfar⟩ := hs.runs.moving _ _ _ hxw hrun
    have hab : (a, b) ∈ steps (first :: w) := by
      have : first :: w = (first :: u) ++ a :: b :: (v ++ w.drop 8) := by
        conv_lhs => rw [← List.take_append_drop 8 w, huv]
        simp
      rw [this]; exact steps_mem' _ _ _ _
    obtain ⟨⟨p, q⟩, hpq, h1, h2⟩ := forall₂_mem_left (steps_forall₂ hpts) _ hab
    obtain ⟨val, hval, hv⟩ := forall₂_mem_left hpath _ hpq
    refine (sum_pos_of_mem ?_ hval ?_).ne'
    · intro y hy
      obtain ⟨s, _, rfl⟩ := forall₂_mem_right hpath y hy
      exact path_nonneg mode _ _
    · rw [hv]
      have hd : distSq q p = distSq p q := by unfold distSq; ring
      have := path_pos mode (p := q) (q := p) (by rw [hd]; exact hfar p q h1 h2)
      exact lt_of_lt_of_le (by norm_num) this
  unfold getDistances
  rw [hss]
  simp only [divE, if_neg htp]
  exact ⟨_, rfl⟩

/-- Deciding does not fail. -/
theorem valid_total {mode : RoundMode} {x : List (PyLine ℝ)} (hs : SafeProgram x) : ∀ pre q0 post q, x = pre ++ (q0 ++ post) → List.Forall₂ Kept q0 q →
    Loc (lastSpot none pre) q → (∀ l ∈ q, MoveOrComment l) → 9 ≤ q.length → (∃ l, q.getLast? = some l ∧ IsMove l) →
    ∃ b, (arcOps (realTrig mode)).valid q = .ok b := by
  intro pre q0 post q hx hk hl hm h9 hlast
  cases q with
  | nil => simp at h9
  | cons first w =>
    have h8 : 8 ≤ w.length := by simpa using h9
    simp only [arcOps]
    have : ∃ o, queueValid (realTrig mode) (first :: w) = .ok o := by
      unfold queueValid
      cases hu : uniformTail (first :: w) with
      | error er =>
        exfalso
        unfold uniformTail at hu
        cases w with
        | nil => simp at h8
        | cons a w => simp at hu
      | ok r =>
        obtain ⟨b, allE⟩ := r
        cases b with
        | false => exact ⟨_, rfl⟩
        | true =>
          obtain ⟨_, _, _, u4, u5⟩ := uniformTail_spec hu
          cases allE with
          | true =>
            obtain ⟨⟨pts, o, k1, k2⟩, d, k3⟩ := window_computes (mode := mode) hs hx hk hl hm h8 (u4 rfl)
            simp only [k1, k2, k3, if_true]
            split_ifs <;> exact ⟨_, rfl⟩
          | false =>
            exfalso
            have hno := u5 rfl
            cases hk with
            | cons hkf hkw =>
              rename_i f0 w0
              refine hs.runs.travel (pre ++ [f0]) w0 post (by rw [hx]; simp) (by rw [hkw.length_eq]; exact h8) ?_ ?_
              · intro l hlw
                obtain ⟨l', hl', hkl⟩ := forall₂_mem_left hkw l hlw
                refine ⟨?_, by rw [← (kept_z hkl).2]; exact hno l' hl'⟩
                rcases hm l' (List.mem_cons_of_mem _ hl') with h | h
                · exact Or.inl ((isMove_congr (kept_command hkl)).1 h)
                · exact Or.inr (by rw [← kept_command hkl]; exact h)
              · obtain ⟨l, hll, hlm⟩ := hlast
                have hwne : w ≠ [] := by rintro rfl; simp at h8
                have hlw : w.getLast? = some l := by
                  cases w with
                  | nil => exact absurd rfl hwne
                  | cons a w => simpa [List.getLast?_cons_cons] using hll
                obtain ⟨l0, hl0, b1⟩ := forall₂_last hkw hlw
                exact ⟨l0, hl0, (isMove_congr (kept_command b1)).1 hlm⟩
    obtain ⟨⟨e, o⟩, ho⟩ := this
    rw [ho]
    exact ⟨_, rfl⟩

/-- Points of an arc with a positive path between them are seen in different directions. -/
theorem turn_ne {mode : RoundMode} {c p q : ℝ × ℝ} {r : ℝ} (hp : |distance (realTrig mode) c p - r| ≤ 15 / 1000) (hq : |distance (realTrig mode) c q - r| ≤ 15 / 1000)
    (hfar : (31 / 1000) ^ 2 < distSq p q) : turn (realTrig mode) c p q ≠ 0 := by
  intro h
  rw [turn_zero h] at hfar
  have h1 := abs_le.1 hp
  have h2 := abs_le.1 hq
  have : (distance (realTrig mode) c p - distance (realTrig mode) c q) ^ 2 ≤ (30 / 1000) ^ 2 := by
    apply sq_le_sq'
    · linarith
    · linarith
  norm_num at this hfar
  linarith

theorem path_ne {mode : RoundMode} {p q : ℝ × ℝ} {v : ℝ} (hv : v = pyRound mode 7 (distance (realTrig mode) q p)) (h : 1 / 1000000 ≤ v) : p ≠ q := by
  rintro rfl
  have h0 : distance (realTrig mode) p p = 0 := by unfold distance; simp [realTrig]
  rw [hv, h0, show pyRound mode 7 (0 : ℝ) = 0 by have := pyRound_natCast (α := ℝ) mode 7 0; simpa using this] at h
  norm_num at h

/-- Replacing does not fail. -/
theorem emit_total {mode : RoundMode} {x : List (PyLine ℝ)} (hs : SafeProgram x) : ∀ pre q0 post q last, x = pre ++ (q0 ++ post) → List.Forall₂ Kept q0 q →
    Loc (lastSpot none pre) q → (∀ l ∈ q, MoveOrComment l) → 9 ≤ q.length → (∃ l, q.getLast? = some l ∧ IsMove l) →
    (arcOps (realTrig mode)).valid q = .ok true → ∃ r, (arcOps (realTrig mode)).emit q last = .ok r ∧ r.getLast? = some last := by
  intro pre q0 post q last hx hk hl hm h9 hlast hv
  cases q with
  | nil => simp at h9
  | cons first w =>
    have h8 : 8 ≤ w.length := by simpa using h9
    have hvq : ∃ o, queueValid (realTrig mode) (first :: w) = .ok (false, o) := by
      simp only [arcOps] at hv
      cases hq : queueValid (realTrig mode) (first :: w) with
      | error e => rw [hq] at hv; simp at hv
      | ok r =>
        obtain ⟨b, o⟩ := r
        rw [hq] at hv
        simp only [Except.ok.injEq, Bool.not_eq_true'] at hv
        exact ⟨o, by rw [hv]⟩
    obtain ⟨o, hvo⟩ := hvq
    have hE : ∀ l ∈ w, l.e ≠ none := by
      by_contra hcon
      -- otherwise the queue has no E words, which is excluded
      have hvq := hvo
      unfold queueValid at hvq
      cases hu : uniformTail (first :: w) with
      | error er => rw [hu] at hvq; simp at hvq
      | ok r =>
        obtain ⟨b, allE⟩ := r
        rw [hu] at hvq
        cases b with
        | false => simp at hvq
        | true =>
          obtain ⟨_, _, _, u4, u5⟩ := uniformTail_spec hu
          cases allE with
          | true => exact hcon (u4 rfl)
          | false =>
            have hno := u5 rfl
            cases hk with
            | cons hkf hkw =>
              rename_i f0 w0
              refine hs.runs.travel (pre ++ [f0]) w0 post (by rw [hx]; simp) (by rw [hkw.length_eq]; exact h8) ?_ ?_
              · intro l hlw
                obtain ⟨l', hl', hkl⟩ := forall₂_mem_left hkw l hlw
                refine ⟨?_, by rw [← (kept_z hkl).2]; exact hno l' hl'⟩
                rcases hm l' (List.mem_cons_of_mem _ hl') with h | h
                · exact Or.inl ((isMove_congr (kept_command hkl)).1 h)
                · exact Or.inr (by rw [← kept_command hkl]; exact h)
              · obtain ⟨l, hll, hlm⟩ := hlast
                have hlw : w.getLast? = some l := by
                  cases w with
                  | nil => simp at h8
                  | cons a w => simpa [List.getLast?_cons_cons] using hll
                obtain ⟨l0, hl0, b1⟩ := forall₂_last hkw hlw
                exact ⟨l0, hl0, (isMove_congr (kept_command b1)).1 hlm⟩
    obtain ⟨⟨pts', o', k1, k2⟩, d, hd⟩ := window_computes (mode := mode) hs hx hk hl hm h8 hE
    obtain ⟨pts, c, rfl, hpts, hc, harc⟩ := queueValid_spec hvo hd
    rw [hpts] at k1
    obtain rfl := Except.ok.inj k1
    have hwne : w ≠ [] := by rintro rfl; simp at h8
    obtain ⟨_, hfpos, _, _, _⟩ := onArc_positive harc hE hwne
    obtain ⟨_, _, hf2, _, _⟩ := getDistances_spec hd
    obtain ⟨f0, rfl, hkf, hmw, hhere, hfirst⟩ := window_here hs hx hk hl hm h8 hE
    have hcirc : ∃ b, getCircle (realTrig mode) pts = .ok (b, some c) := by
      have := k2
      unfold getCircle at this ⊢
      rw [hc] at this ⊢
      simp only at this ⊢
      split_ifs at this ⊢
      · exact ⟨_, rfl⟩
      · exact ⟨_, rfl⟩
      · cases ha : angleErrors (realTrig mode) c pts with
        | error er => rw [ha] at this; simp at this
        | ok errs => exact ⟨_, rfl⟩
    obtain ⟨b, hb⟩ := hcirc
    obtain ⟨endPt, hend⟩ : ∃ e, (first :: w).getLast? = some e := by
      rw [List.getLast?_cons]; exact ⟨_, rfl⟩
    have hendw : endPt ∈ w := by
      cases w with
      | nil => exact absurd rfl hwne
      | cons a w =>
        rw [List.getLast?_cons_cons] at hend
        exact List.mem_of_getLast? hend
    simp only [arcOps]
    unfold toGcode
    rw [hend, hpts]
    simp only [List.head?_cons, hb, hd]
    by_cases hrel : endPt.relativeE.getD false = true
    · rw [if_pos hrel]
      have hang : ∀ a ∈ phaseDiffs (realTrig mode) c pts, 2 * c.radius * (realTrig mode).sin (a / 2) ≠ 0 := by
        intro a ha
        rw [phaseDiffs_spec] at ha
        obtain ⟨⟨p, q⟩, hpq, rfl⟩ := List.mem_map.1 ha
        obtain ⟨v, hv0, hv1⟩ := harc.root
        have hr : 0 < c.radius := by rw [hv1]; exact Real.sqrt_pos.2 hv0
        obtain ⟨path, hpath, hpv⟩ := forall₂_mem_left harc.paths_eq _ hpq
        obtain ⟨fil, _, hflow, _⟩ := forall₂_mem_left (harc.flow hE).2 path hpath
        have hne := path_ne hpv hflow
        obtain ⟨⟨l1, l2⟩, hll, hat1, hat2⟩ := forall₂_mem_right (steps_forall₂ harc.at_points) _ hpq
        have hpm : p ∈ pts ∧ q ∈ pts := by
          obtain ⟨u, v, huv⟩ := steps_mem _ _ _ hpq
          rw [huv]; simp
        have hfar : (31 / 1000) ^ 2 < distSq p q := by
          have hap : ∀ pre a mid b post, x = pre ++ a :: (mid ++ b :: post) → IsMove a → (∀ c ∈ mid, c.command = none) →
              IsMove b → b.e ≠ none → ∀ p q, At a p → At b q → p = q ∨ (31 / 1000) ^ 2 < distSq p q := by
            rcases hs.runs.apart with h | h
            · exfalso
              refine h endPt (by rw [hx]; simp [hendw]) ?_
              cases hre : endPt.relativeE with
              | none => rw [hre] at hrel; simp at hrel
              | some b => rw [hre] at hrel; simp only [Option.getD_some] at hrel; rw [hrel]
            · exact h
          obtain ⟨u, v, huv⟩ := steps_mem _ _ _ hll
          cases u with
          | nil =>
            simp only [List.nil_append, List.cons.injEq] at huv
            obtain ⟨rfl, rfl⟩ := huv
            rcases hfirst with ⟨rfl, hfm⟩ | ⟨hc0, pre', m, pm, rfl, hmm, hmp, hfp⟩
            · rcases hap pre first [] l2 (v ++ post) (by rw [hx]; simp) hfm (by simp) (hmw l2 (by simp)) (hE l2 (by simp)) p q hat1 hat2 with h | h
              · exact absurd h hne
              · exact h
            · have hpp : pm = p := by
                have h1 := hat1.1; have h2 := hat1.2
                simp only at h1 h2
                rw [hfp.1] at h1; rw [hfp.2] at h2
                exact Prod.ext (Option.some.inj h1) (Option.some.inj h2)
              subst hpp
              rcases hap pre' m [f0] l2 (v ++ post) (by rw [hx]; simp) hmm (by simp [hc0]) (hmw l2 (by simp)) (hE l2 (by simp)) pm q hmp hat2 with h | h
              · exact absurd h hne
              · exact h
          | cons z u =>
            simp only [List.cons_append, List.cons.injEq] at huv
            obtain ⟨rfl, rfl⟩ := huv
            rcases hap (pre ++ f0 :: u) l1 [] l2 (v ++ post) (by rw [hx]; simp) (hmw l1 (by simp)) (by simp) (hmw l2 (by simp)) (hE l2 (by simp)) p q hat1 hat2 with h | h
            · exact absurd h hne
            · exact h
        have hturn := turn_ne (harc.near p hpm.1) (harc.near q hpm.2) hfar
        have hbd := turn_bounds (mode := mode) (c.cx, c.cy) p q
        have hsin : (realTrig mode).sin (turn (realTrig mode) (c.cx, c.cy) p q / 2) ≠ 0 := sin_half_ne hbd.1 hbd.2 hturn
        exact mul_ne_zero (by positivity) hsin
      obtain ⟨e, he⟩ := relArcE_total (realTrig mode) c.radius d.segs _ hang
      rw [he]
      exact ⟨_, rfl, rfl⟩
    · rw [if_neg hrel]
      obtain ⟨p, hp⟩ := hhere first (by simp)
      obtain ⟨e0, he0⟩ := Option.ne_none_iff_exists'.1 hp.2
      have htf : d.totalFilament ≠ 0 := by rw [hf2]; exact hfpos.ne'
      simp only [he0, divE, if_neg htf]
      split_ifs <;> exact ⟨_, rfl, rfl⟩

/-- The optimiser succeeds on programs with safe runs. -/
theorem optimizeArcs_total (mode : RoundMode) {g : GCode ℝ} (hs : SafeProgram (program g)) : ∃ g', g.optimizeArcs (realTrig mode) = .ok g' := by
  have e1 : program g = g.allLayers.flatMap (·.lines) := by unfold program layerLines; rw [List.flatMap_def]
  obtain ⟨s', out, h1⟩ := arcFilter_total (ops := arcOps (realTrig mode)) hs.here (valid_total hs) (emit_total hs) (program g) {} [] [] rfl .nil trivial (by simp) (fun _ => rfl)
    (by simp)
  rw [e1] at h1
  obtain ⟨Ls, h3⟩ := filterLayers_of_flat _ _ _ _ _ h1
  unfold GCode.optimizeArcs arcRun runFilter
  rw [parseLayers_eq, h3]
  exact ⟨_, rfl⟩

end GCodeUtils
