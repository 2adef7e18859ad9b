import Verif.Lemmas.ArcGuard

/-
  When the queue of the arc optimiser comes to hold exactly one run of moves.
-/

set_option linter.unusedSectionVars false

namespace GCodeUtils

open Spec

variable {α : Type} [Field α] [LinearOrder α] [IsStrictOrderedRing α] [FloorRing α]

theorem inheritPos_move (q : List (PyLine α)) {l : PyLine α} (h : l.inMoves = true) : inheritPos q l = l := by
  unfold inheritPos
  cases hc : l.command with
  | none => unfold PyLine.inMoves at h; rw [hc] at h; cases h
  | some c => rfl

/-- A move on a short queue is queued. -/
theorem arcFilter_queue {ops : ArcOps α} {s : ArcSt α} {l : PyLine α} (hm : l.inMoves = true) (hl : s.queue.length + 1 ≤ 8) :
    arcFilter ops s l = .ok ({ s with queue := s.queue ++ [l] }, .many []) := by
  unfold arcFilter
  rw [inheritPos_move _ hm]
  simp only
  rw [if_neg (by rw [List.length_append, List.length_singleton]; unfold minSegments; omega), if_pos (by rw [hm]; rfl)]

/-- A move that continues the run is queued. -/
theorem arcFilter_more {ops : ArcOps α} {s : ArcSt α} {l : PyLine α} (hm : l.inMoves = true) (hl : 9 ≤ s.queue.length + 1) (hv : ops.valid (s.queue ++ [l]) = .ok true) :
    arcFilter ops s l = .ok ({ queue := s.queue ++ [l], validCircle := true }, .many []) := by
  unfold arcFilter
  rw [inheritPos_move _ hm]
  simp only
  rw [if_pos (by rw [List.length_append, List.length_singleton]; unfold minSegments; omega), if_neg (by rw [hm]; simp), hv]

/-- A move that does not make a run: the first line leaves the queue. -/
theorem arcFilter_slide {ops : ArcOps α} {s : ArcSt α} {h l : PyLine α} {q : List (PyLine α)} (hq : s.queue = h :: q) (hm : l.inMoves = true) (hl : 9 ≤ s.queue.length + 1)
    (hc : s.validCircle = false) (hv : ops.valid (s.queue ++ [l]) = .ok false) :
    arcFilter ops s l = .ok ({ queue := q ++ [l], validCircle := false }, .one h) := by
  unfold arcFilter
  rw [inheritPos_move _ hm]
  simp only
  rw [if_pos (by rw [List.length_append, List.length_singleton]; unfold minSegments; omega), if_neg (by rw [hm]; simp), hv]
  simp only
  rw [if_neg (by rw [hc]; simp), hq]
  simp only [List.cons_append]
  rw [← hc]

/-- The run is queued to its end. -/
theorem collect_more {ops : ArcOps α} (first : PyLine α) (v : List (PyLine α)) : ∀ u, 8 ≤ u.length → (∀ l ∈ v, l.inMoves = true) →
    (∀ n, u.length < n → n ≤ (u ++ v).length → ops.valid (first :: (u ++ v).take n) = .ok true) →
    filterLines (arcFilter ops) { queue := first :: u, validCircle := true } v = .ok ({ queue := first :: (u ++ v), validCircle := true }, []) := by
  induction v with
  | nil => intro u _ _ _; simp [filterLines]
  | cons x v ih =>
    intro u hu hm hv
    have h1 : ops.valid (first :: (u ++ [x])) = .ok true := by
      have := hv (u.length + 1) (by omega) (by simp)
      rwa [show (u ++ x :: v).take (u.length + 1) = u ++ [x] by
        rw [show u ++ x :: v = (u ++ [x]) ++ v by simp, List.take_append_of_le_length (by simp), List.take_of_length_le (by simp)]] at this
    unfold filterLines
    rw [arcFilter_more (s := { queue := first :: u, validCircle := true }) (hm x (by simp)) (by simp; omega) h1]
    simp only
    rw [show (first :: u) ++ [x] = first :: (u ++ [x]) by simp, ih (u ++ [x]) (by simp; omega) (fun l hl => hm l (List.mem_cons_of_mem _ hl)) (by
      intro n k1 k2
      rw [List.append_assoc] at k2 ⊢
      exact hv n (by simp at k1; omega) k2)]
    simp [replacement]

/-- The queue slides until it begins with the start of the run. -/
theorem collect {ops : ArcOps α} (hmix : ∀ (a : PyLine α) q, (∃ l ∈ q, l.e = none) → (∃ l ∈ q, l.e ≠ none) → ops.valid (a :: q) = .ok false) (first : PyLine α) (v : List (PyLine α)) :
    ∀ q u, q.length + 1 + u.length ≤ 8 → (q = [] ∨ first.e = none) → 8 ≤ (u ++ v).length → (∀ l ∈ v, l.inMoves = true ∧ l.e ≠ none) →
    (∀ n, 8 ≤ n → n ≤ (u ++ v).length → ops.valid (first :: (u ++ v).take n) = .ok true) →
    filterLines (arcFilter ops) { queue := q ++ first :: u, validCircle := false } v = .ok ({ queue := first :: (u ++ v), validCircle := true }, q) := by
  induction v with
  | nil => intro q u h1 _ h2; simp at h2; omega
  | cons x v ih =>
    intro q u hl hq h8 hm hv
    obtain ⟨mx, ex⟩ := hm x (by simp)
    have happ : u ++ x :: v = (u ++ [x]) ++ v := by simp
    unfold filterLines
    by_cases hs : q.length + 1 + u.length < 8
    · rw [arcFilter_queue (s := { queue := q ++ first :: u, validCircle := false }) mx (by simp; omega)]
      simp only
      rw [show (q ++ first :: u) ++ [x] = q ++ first :: (u ++ [x]) by simp, ih q (u ++ [x]) (by simp; omega) hq (by rw [← happ]; exact h8) (fun l hl => hm l (List.mem_cons_of_mem _ hl)) (by
        rw [← happ]; exact hv)]
      simp [replacement]
    · cases q with
      | nil =>
        have hu : u.length = 7 := by simp at hl hs; omega
        have h1 : ops.valid (first :: (u ++ [x])) = .ok true := by
          have := hv 8 le_rfl h8
          rwa [show (u ++ x :: v).take 8 = u ++ [x] by
            rw [happ, List.take_append_of_le_length (by simp; omega), List.take_of_length_le (by simp; omega)]] at this
        rw [List.nil_append, arcFilter_more (s := { queue := first :: u, validCircle := false }) mx (by simp; omega) h1]
        simp only
        rw [show (first :: u) ++ [x] = first :: (u ++ [x]) by simp, collect_more first v (u ++ [x]) (by simp; omega) (fun l hl => (hm l (List.mem_cons_of_mem _ hl)).1) (by
          intro n k1 k2
          rw [← happ] at k2 ⊢
          exact hv n (by simp at k1; omega) k2)]
        simp [replacement]
      | cons a q =>
        have he : first.e = none := by
          rcases hq with h | h
          · cases h
          · exact h
        have h0 : ops.valid (a :: q ++ first :: u ++ [x]) = .ok false := hmix a _ ⟨first, by simp, he⟩ ⟨x, by simp, ex⟩
        rw [arcFilter_slide (s := { queue := a :: q ++ first :: u, validCircle := false }) (h := a) (q := q ++ first :: u) rfl mx (by simp at hs ⊢; omega) rfl h0]
        simp only
        rw [show (q ++ first :: u) ++ [x] = q ++ first :: (u ++ [x]) by simp, ih q (u ++ [x]) (by simp at hl ⊢; omega) (Or.inr he) (by rw [← happ]; exact h8) (fun l hl => hm l (List.mem_cons_of_mem _ hl)) (by
          rw [← happ]; exact hv)]
        simp [replacement]

/-- Without an accepted run the queue is short. -/
def ShortQueue (s : ArcSt α) : Prop := s.validCircle = false → s.queue.length ≤ 8

theorem arcFilter_len {ops : ArcOps α} {s s' : ArcSt α} {o : FResult α} {l : PyLine α} (hs : ShortQueue s) (h : arcFilter ops s l = .ok (s', o)) : ShortQueue s' := by
  unfold ShortQueue at hs ⊢
  unfold arcFilter at h
  simp only at h
  by_cases hlen : minSegments < (s.queue ++ [inheritPos s.queue l]).length
  · rw [if_pos hlen] at h
    by_cases hm : (inheritPos s.queue l).inMoves = true
    · rw [if_neg (by rw [hm]; simp)] at h
      cases hv : ops.valid (s.queue ++ [inheritPos s.queue l]) with
      | error e => rw [hv] at h; simp at h
      | ok b =>
        rw [hv] at h
        cases b with
        | true =>
          simp only [Except.ok.injEq, Prod.mk.injEq] at h
          rw [← h.1]; simp
        | false =>
          simp only at h
          by_cases hc : s.validCircle = true
          · rw [if_pos hc] at h
            cases hem : ops.emit s.queue (inheritPos s.queue l) with
            | error e => rw [hem] at h; simp at h
            | ok r =>
              rw [hem] at h
              simp only at h
              cases hl : r.getLast? with
              | none => rw [hl] at h; simp at h
              | some x =>
                rw [hl] at h
                simp only [Except.ok.injEq, Prod.mk.injEq] at h
                rw [← h.1]; simp
          · rw [if_neg hc] at h
            have h8 := hs (by simpa using hc)
            cases hq : s.queue ++ [inheritPos s.queue l] with
            | nil => simp at hq
            | cons a q =>
              rw [hq] at h
              simp only [Except.ok.injEq, Prod.mk.injEq] at h
              rw [← h.1]
              intro _
              have := congrArg List.length hq
              simp at this ⊢
              omega
    · rw [if_pos (by simp [hm])] at h
      by_cases hc : s.validCircle = true
      · rw [if_pos hc] at h
        cases hem : ops.emit s.queue (inheritPos s.queue l) with
        | error e => rw [hem] at h; simp at h
        | ok r =>
          rw [hem] at h
          simp only [Except.ok.injEq, Prod.mk.injEq] at h
          rw [← h.1]; simp
      · rw [if_neg hc] at h
        simp only [Except.ok.injEq, Prod.mk.injEq] at h
        rw [← h.1]; simp
  · rw [if_neg hlen] at h
    unfold minSegments at hlen
    split_ifs at h
    · simp only [Except.ok.injEq, Prod.mk.injEq] at h
      rw [← h.1]
      intro _
      simp only
      omega
    · simp only [Except.ok.injEq, Prod.mk.injEq] at h
      rw [← h.1]; simp

theorem filterLines_len {ops : ArcOps α} (ls : List (PyLine α)) : ∀ {s s' : ArcSt α} {out : List (PyLine α)}, ShortQueue s → filterLines (arcFilter ops) s ls = .ok (s', out) → ShortQueue s' := by
  induction ls with
  | nil =>
    intro s s' out hs h
    simp only [filterLines, Except.ok.injEq, Prod.mk.injEq] at h
    rw [← h.1]; exact hs
  | cons l ls ih =>
    intro s s' out hs h
    unfold filterLines at h
    cases hf : arcFilter ops s l with
    | error e => rw [hf] at h; simp at h
    | ok p =>
      obtain ⟨s1, r⟩ := p
      rw [hf] at h
      simp only at h
      cases hg : filterLines (arcFilter ops) s1 ls with
      | error e => rw [hg] at h; simp at h
      | ok p2 =>
        rw [hg] at h
        simp only [Except.ok.injEq, Prod.mk.injEq] at h
        rw [← h.1]
        exact ih (arcFilter_len hs hf) hg

/-- A command that is not a move empties the queue. -/
theorem arcFilter_clears {ops : ArcOps α} {s s' : ArcSt α} {o : FResult α} {l : PyLine α} (hc : l.command ≠ none) (hm : ¬ IsMove l) (h : arcFilter ops s l = .ok (s', o)) : s'.queue = [] := by
  have hk := kept_command (inheritPos_kept s.queue l)
  have hm' : (inheritPos s.queue l).inMoves = false := by
    rw [show (inheritPos s.queue l).inMoves = l.inMoves by unfold PyLine.inMoves; rw [hk]]
    rw [← inMoves_iff] at hm
    simpa using hm
  unfold arcFilter at h
  simp only at h
  by_cases hlen : minSegments < (s.queue ++ [inheritPos s.queue l]).length
  · rw [if_pos hlen, if_pos (by simp [hm'])] at h
    by_cases hc : s.validCircle = true
    · rw [if_pos hc] at h
      cases hem : ops.emit s.queue (inheritPos s.queue l) with
      | error e => rw [hem] at h; simp at h
      | ok r =>
        rw [hem] at h
        simp only [Except.ok.injEq, Prod.mk.injEq] at h
        rw [← h.1]
    · rw [if_neg hc] at h
      simp only [Except.ok.injEq, Prod.mk.injEq] at h
      rw [← h.1]
  · rw [if_neg hlen, if_neg (by rw [hm', hk]; simpa using hc)] at h
    simp only [Except.ok.injEq, Prod.mk.injEq] at h
    rw [← h.1]

/-- The state after the start of the run. -/
theorem start_shape {ops : ArcOps α} (hlast : ∀ q l r, ops.emit q l = .ok r → r.getLast? = some l) {s s' : ArcSt α} {o : FResult α} {first : PyLine α} (hi : QueueInv ops s) (hsh : ShortQueue s) (hm : first.inMoves = true)
    (hs : s.queue = [] ∨ first.e = none) (h : arcFilter ops s first = .ok (s', o)) :
    ∃ q, s'.queue = q ++ [first] ∧ (q = [] ∨ first.e = none) ∧ ((s'.validCircle = false ∧ q.length ≤ 7) ∨ (s'.validCircle = true ∧ q ≠ [] ∧ first.e = none)) := by
  unfold arcFilter at h
  rw [inheritPos_move _ hm] at h
  simp only at h
  by_cases hlen : minSegments < (s.queue ++ [first]).length
  · have hne : s.queue ≠ [] := by
      intro hc; rw [hc] at hlen; simp [minSegments] at hlen
    have he : first.e = none := hs.resolve_left hne
    rw [if_pos hlen, if_neg (by rw [hm]; simp)] at h
    cases hv : ops.valid (s.queue ++ [first]) with
    | error e => rw [hv] at h; simp at h
    | ok b =>
      rw [hv] at h
      cases b with
      | true =>
        simp only [Except.ok.injEq, Prod.mk.injEq] at h
        obtain ⟨rfl, _⟩ := h
        exact ⟨s.queue, rfl, Or.inr he, Or.inr ⟨rfl, hne, he⟩⟩
      | false =>
        simp only at h
        by_cases hc : s.validCircle = true
        · rw [if_pos hc] at h
          cases hem : ops.emit s.queue first with
          | error e => rw [hem] at h; simp at h
          | ok r =>
            rw [hem] at h
            simp only [hlast _ _ _ hem, Except.ok.injEq, Prod.mk.injEq] at h
            obtain ⟨rfl, _⟩ := h
            exact ⟨[], rfl, Or.inl rfl, Or.inl ⟨rfl, by simp⟩⟩
        · rw [if_neg hc] at h
          cases hq : s.queue with
          | nil => exact absurd hq hne
          | cons a q =>
            rw [hq] at h
            simp only [List.cons_append, Except.ok.injEq, Prod.mk.injEq] at h
            obtain ⟨rfl, _⟩ := h
            have := hsh (by simpa using hc)
            rw [hq] at this
            exact ⟨q, rfl, Or.inr he, Or.inl ⟨by simpa using hc, by simpa using this⟩⟩
  · rw [if_neg hlen, if_pos (by rw [hm]; rfl)] at h
    simp only [Except.ok.injEq, Prod.mk.injEq] at h
    obtain ⟨rfl, _⟩ := h
    refine ⟨s.queue, rfl, hs, Or.inl ⟨?_, ?_⟩⟩
    · by_contra hc
      have hv : s.validCircle = true := by simpa using hc
      have := (hi.valid hv).1
      rw [List.length_append, List.length_singleton] at hlen
      unfold minSegments at hlen
      omega
    · rw [List.length_append, List.length_singleton] at hlen
      unfold minSegments at hlen
      omega

theorem filterLines_split {σ : Type} {f : OpFilter σ α} {a b out : List (PyLine α)} {s s' : σ} (h : filterLines f s (a ++ b) = .ok (s', out)) :
    ∃ s1 o1 o2, filterLines f s a = .ok (s1, o1) ∧ filterLines f s1 b = .ok (s', o2) ∧ out = o1 ++ o2 := by
  rw [filterLines_append] at h
  cases h1 : filterLines f s a with
  | error e => rw [h1] at h; simp at h
  | ok p =>
    obtain ⟨s1, o1⟩ := p
    rw [h1] at h
    simp only at h
    cases h2 : filterLines f s1 b with
    | error e => rw [h2] at h; simp at h
    | ok p2 =>
      obtain ⟨s2, o2⟩ := p2
      rw [h2] at h
      simp only [Except.ok.injEq, Prod.mk.injEq] at h
      exact ⟨s1, o1, o2, rfl, by rw [h2, h.1], h.2.symm⟩

theorem filterLines_one {σ : Type} {f : OpFilter σ α} {l : PyLine α} {s s' : σ} {out : List (PyLine α)} (h : filterLines f s [l] = .ok (s', out)) :
    ∃ o, f s l = .ok (s', o) ∧ out = replacement l o := by
  simp only [filterLines] at h
  cases hf : f s l with
  | error e => rw [hf] at h; simp at h
  | ok p =>
    obtain ⟨s1, o⟩ := p
    rw [hf] at h
    simp only [Except.ok.injEq, Prod.mk.injEq, List.append_nil] at h
    exact ⟨o, by rw [h.1], h.2.symm⟩

/-- A run that is accepted at every length from eight on and begins freshly or with a travel move is in the queue as a whole at its end. -/
theorem run_collected {ops : ArcOps α} {R : PyLine α → List (PyLine α) → List (PyLine α) → Prop}
    (hlast : ∀ q l r, ops.emit q l = .ok r → r.getLast? = some l)
    (hmix : ∀ (a : PyLine α) q, (∃ l ∈ q, l.e = none) → (∃ l ∈ q, l.e ≠ none) → ops.valid (a :: q) = .ok false)
    (hR : ∀ first w last r, ops.valid (first :: w) = .ok true → 8 ≤ w.length → (∀ l ∈ first :: w, MoveOrComment l) →
      ops.emit (first :: w) last = .ok r → ∃ gen, r = first :: (gen ++ [last]) ∧ R first w gen)
    (hRe : ∀ first w gen, R first w gen → ∀ l ∈ w, l.e ≠ none)
    {pre w out : List (PyLine α)} {first : PyLine α} {s' : ArcSt α}
    (h : filterLines (arcFilter ops) {} (pre ++ first :: w) = .ok (s', out))
    (hfirst : first.inMoves = true) (hw : ∀ l ∈ w, l.inMoves = true ∧ l.e ≠ none) (h8 : 8 ≤ w.length)
    (hstart : pre = [] ∨ (∃ p c, pre = p ++ [c] ∧ c.command ≠ none ∧ ¬ IsMove c) ∨ first.e = none)
    (hv : ∀ n, 8 ≤ n → n ≤ w.length → ops.valid (first :: w.take n) = .ok true) :
    s' = { queue := first :: w, validCircle := true } ∧ Rewrites R (pre ++ [first]) (out ++ [first]) := by
  rw [show pre ++ first :: w = (pre ++ [first]) ++ w by simp] at h
  obtain ⟨s1, o1, o3, h1, h3, rfl⟩ := filterLines_split h
  obtain ⟨qi1, rw1⟩ := arcFilter_rewrites hR _ (queueInv_fresh _) List.Forall₂.nil h1
  simp only [List.nil_append] at rw1
  -- the state after the start
  obtain ⟨s0, o7, o8, h7, h8', e78⟩ := filterLines_split h1
  obtain ⟨f1, h9, e9⟩ := filterLines_one h8'
  obtain ⟨qi0, _⟩ := arcFilter_rewrites hR _ (queueInv_fresh _) List.Forall₂.nil h7
  have hq0 : s0.queue = [] ∨ first.e = none := by
    rcases hstart with rfl | ⟨p, c, rfl, hc, hcm⟩ | he
    · simp only [filterLines, Except.ok.injEq, Prod.mk.injEq] at h7
      rw [← h7.1]; exact Or.inl rfl
    · obtain ⟨_, _, _, _, hb, _⟩ := filterLines_split h7
      obtain ⟨_, hb1, _⟩ := filterLines_one hb
      exact Or.inl (arcFilter_clears hc hcm hb1)
    · exact Or.inr he
  obtain ⟨q, eq1, hq, hcase⟩ := start_shape hlast qi0 (filterLines_len _ (by intro _; simp) h7) hfirst hq0 h9
  rcases hcase with ⟨hv1, hl1⟩ | ⟨hv1, hqne, hfe⟩
  · -- collecting
    have hs1 : s1 = { queue := q ++ first :: [], validCircle := false } := by
      cases s1; simp only at eq1 hv1; rw [eq1, hv1]
    rw [hs1, collect hmix first w q [] (by simp; omega) hq (by simpa using h8) hw (by simpa using hv)] at h3
    simp only [Except.ok.injEq, Prod.mk.injEq, List.nil_append] at h3
    obtain ⟨rfl, rfl⟩ := h3
    rw [eq1] at rw1
    exact ⟨rfl, by simpa using rw1⟩
  · -- a run of travel moves is never replaced
    exfalso
    cases w with
    | nil => simp at h8
    | cons x w =>
      obtain ⟨mx, ex⟩ := hw x (by simp)
      rw [show x :: w = [x] ++ w by simp] at h3
      obtain ⟨_, _, _, hx, _, _⟩ := filterLines_split h3
      obtain ⟨_, hx, _⟩ := filterLines_one hx
      have h9' := (qi1.valid hv1).1
      cases q with
      | nil => exact hqne rfl
      | cons a q =>
        rw [eq1] at h9'
        unfold arcFilter at hx
        rw [inheritPos_move _ mx] at hx
        simp only at hx
        rw [if_pos (by rw [eq1]; simp [minSegments] at h9' ⊢; omega), if_neg (by rw [mx]; simp), eq1, show a :: q ++ [first] ++ [x] = a :: (q ++ [first] ++ [x]) by simp,
          hmix a _ ⟨first, by simp, hfe⟩ ⟨x, by simp, ex⟩] at hx
        simp only [hv1, if_true] at hx
        cases hem : ops.emit (a :: q ++ [first]) x with
        | error e => rw [hem] at hx; simp at hx
        | ok r =>
          have hvq := (qi1.valid hv1).2
          have hmq := qi1.moves
          rw [eq1] at hvq hmq
          rw [show a :: q ++ [first] = a :: (q ++ [first]) by simp] at hvq hmq hem
          obtain ⟨gen, _, hg⟩ := hR a (q ++ [first]) x r hvq (by simp at h9' ⊢; omega) hmq hem
          exact hRe _ _ _ hg first (by simp) hfe

/-- A run that is accepted at every length from eight on, begins freshly or with a travel move and is followed by anything but an extruding
move, is replaced as a whole. -/
theorem run_found {ops : ArcOps α} {R : PyLine α → List (PyLine α) → List (PyLine α) → Prop}
    (hlast : ∀ q l r, ops.emit q l = .ok r → r.getLast? = some l)
    (hmix : ∀ (a : PyLine α) q, (∃ l ∈ q, l.e = none) → (∃ l ∈ q, l.e ≠ none) → ops.valid (a :: q) = .ok false)
    (hR : ∀ first w last r, ops.valid (first :: w) = .ok true → 8 ≤ w.length → (∀ l ∈ first :: w, MoveOrComment l) →
      ops.emit (first :: w) last = .ok r → ∃ gen, r = first :: (gen ++ [last]) ∧ R first w gen)
    (hRe : ∀ first w gen, R first w gen → ∀ l ∈ w, l.e ≠ none)
    {pre w post out : List (PyLine α)} {first m : PyLine α} {s' : ArcSt α}
    (h : filterLines (arcFilter ops) {} (pre ++ first :: (w ++ m :: post)) = .ok (s', out))
    (hfirst : first.inMoves = true) (hw : ∀ l ∈ w, l.inMoves = true ∧ l.e ≠ none) (h8 : 8 ≤ w.length)
    (hstart : pre = [] ∨ (∃ p c, pre = p ++ [c] ∧ c.command ≠ none ∧ ¬ IsMove c) ∨ first.e = none) (hend : m.inMoves = false ∨ m.e = none)
    (hv : ∀ n, 8 ≤ n → n ≤ w.length → ops.valid (first :: w.take n) = .ok true) :
    ∃ pre' gen rest', out ++ s'.queue = pre' ++ first :: (gen ++ rest') ∧ Rewrites R (pre ++ [first]) (pre' ++ [first]) ∧ R first w gen ∧ Rewrites R (m :: post) rest' := by
  rw [show pre ++ first :: (w ++ m :: post) = (pre ++ first :: w) ++ ([m] ++ post) by simp] at h
  obtain ⟨s2, o1, o4, h3, h4, rfl⟩ := filterLines_split h
  obtain ⟨s3, o5, o6, h5, h6, rfl⟩ := filterLines_split h4
  obtain ⟨rfl, rw1⟩ := run_collected hlast hmix hR hRe h3 hfirst hw h8 hstart hv
  obtain ⟨f2, h10, rfl⟩ := filterLines_one h5
  have hvw : ops.valid (first :: w) = .ok true := by
    have := hv w.length h8 le_rfl
    rwa [List.take_length] at this
  have hmv : ∀ l ∈ first :: w, MoveOrComment l := by
    intro l hl
    rcases List.mem_cons.1 hl with rfl | hl
    · exact Or.inl ((inMoves_iff _).1 hfirst)
    · exact Or.inl ((inMoves_iff _).1 (hw l hl).1)
  have hkm := inheritPos_kept (first :: w) m
  -- what the line after the run makes of it
  unfold arcFilter at h10
  simp only at h10
  rw [if_pos (by simp [minSegments]; omega)] at h10
  by_cases hmm : m.inMoves = true
  · have hme : m.e = none := by
      rcases hend with h | h
      · rw [h] at hmm; cases hmm
      · exact h
    rw [inheritPos_move _ hmm, if_neg (by rw [hmm]; simp), show first :: w ++ [m] = first :: (w ++ [m]) by simp, hmix first (w ++ [m]) ⟨m, by simp, hme⟩ (by
      cases w with
      | nil => simp at h8
      | cons x w => exact ⟨x, by simp, (hw x (by simp)).2⟩)] at h10
    simp only [if_true] at h10
    cases hem : ops.emit (first :: w) m with
    | error e => rw [hem] at h10; simp at h10
    | ok r =>
      rw [hem] at h10
      obtain ⟨gen, rfl, hg⟩ := hR first w m r hvw h8 hmv hem
      have hl : (first :: (gen ++ [m])).getLast? = some m := by rw [← List.cons_append, List.getLast?_append]; simp
      have hd : (first :: (gen ++ [m])).dropLast = first :: gen := by rw [← List.cons_append, List.dropLast_concat]
      simp only [hl, hd, Except.ok.injEq, Prod.mk.injEq] at h10
      obtain ⟨rfl, rfl⟩ := h10
      have hk2 : Kept m m := Or.inl rfl
      have hf2 : List.Forall₂ Kept [m] [m] := List.Forall₂.cons hk2 List.Forall₂.nil
      obtain ⟨_, rw2⟩ := arcFilter_rewrites (q0 := [m]) hR _ ⟨fun l hl => by rw [List.mem_singleton.1 hl]; exact Or.inl ((inMoves_iff _).1 hmm), by simp⟩ hf2 h6
      refine ⟨o1, gen, o6 ++ s'.queue, by simp [replacement], by simpa using rw1, hg, by simpa using rw2⟩
  · have hmf : (inheritPos (first :: w) m).inMoves = false := by
      rw [show (inheritPos (first :: w) m).inMoves = m.inMoves by unfold PyLine.inMoves; rw [kept_command hkm]]
      simpa using hmm
    rw [if_pos (by rw [hmf]; rfl)] at h10
    simp only [if_true] at h10
    cases hem : ops.emit (first :: w) (inheritPos (first :: w) m) with
    | error e => rw [hem] at h10; simp at h10
    | ok r =>
      rw [hem] at h10
      obtain ⟨gen, rfl, hg⟩ := hR first w _ r hvw h8 hmv hem
      simp only [Except.ok.injEq, Prod.mk.injEq] at h10
      obtain ⟨rfl, rfl⟩ := h10
      obtain ⟨_, rw2⟩ := arcFilter_rewrites (q0 := []) hR _ ⟨by simp, by simp⟩ List.Forall₂.nil h6
      refine ⟨o1, gen, inheritPos (first :: w) m :: (o6 ++ s'.queue), by simp [replacement], by simpa using rw1, hg, ?_⟩
      exact Rewrites.keep hkm (by simpa using rw2)

/-- At the end of the program it stays. -/
theorem run_left {ops : ArcOps α} {R : PyLine α → List (PyLine α) → List (PyLine α) → Prop}
    (hlast : ∀ q l r, ops.emit q l = .ok r → r.getLast? = some l)
    (hmix : ∀ (a : PyLine α) q, (∃ l ∈ q, l.e = none) → (∃ l ∈ q, l.e ≠ none) → ops.valid (a :: q) = .ok false)
    (hR : ∀ first w last r, ops.valid (first :: w) = .ok true → 8 ≤ w.length → (∀ l ∈ first :: w, MoveOrComment l) →
      ops.emit (first :: w) last = .ok r → ∃ gen, r = first :: (gen ++ [last]) ∧ R first w gen)
    (hRe : ∀ first w gen, R first w gen → ∀ l ∈ w, l.e ≠ none)
    {pre w out : List (PyLine α)} {first : PyLine α} {s' : ArcSt α}
    (h : filterLines (arcFilter ops) {} (pre ++ first :: w) = .ok (s', out))
    (hfirst : first.inMoves = true) (hw : ∀ l ∈ w, l.inMoves = true ∧ l.e ≠ none) (h8 : 8 ≤ w.length)
    (hstart : pre = [] ∨ (∃ p c, pre = p ++ [c] ∧ c.command ≠ none ∧ ¬ IsMove c) ∨ first.e = none)
    (hv : ∀ n, 8 ≤ n → n ≤ w.length → ops.valid (first :: w.take n) = .ok true) :
    ∃ pre', out ++ s'.queue = pre' ++ first :: w ∧ Rewrites R (pre ++ [first]) (pre' ++ [first]) := by
  obtain ⟨rfl, rw1⟩ := run_collected hlast hmix hR hRe h hfirst hw h8 hstart hv
  exact ⟨out, rfl, rw1⟩

end GCodeUtils
