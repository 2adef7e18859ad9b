import Verif.Spec.Arc
import Verif.Lemmas.Filter

/-
  Lemmas about the arc optimiser: the queue and the checks.
-/

set_option linter.unusedSectionVars false

namespace GCodeUtils

open Spec

variable {α : Type} [Field α] [LinearOrder α] [IsStrictOrderedRing α] [FloorRing α]

/-! ### the queue -/

theorem inheritPos_kept (q : List (PyLine α)) (l : PyLine α) : Kept l (inheritPos q l) := by
  unfold inheritPos
  cases hc : l.command with
  | some c => exact Or.inl rfl
  | none =>
    cases q.getLast? with
    | none => exact Or.inl rfl
    | some x => exact Or.inr ⟨hc, x.currentX, x.currentY, x.currentZ, x.currentE, x.currentF, by simp [hc]⟩

theorem kept_command {l l' : PyLine α} (h : Kept l l') : l'.command = l.command := by
  rcases h with rfl | ⟨_, _, _, _, _, _, rfl⟩ <;> rfl

/-- What is in the queue between two calls. -/
structure QueueInv (ops : ArcOps α) (s : ArcSt α) : Prop where
  moves : ∀ l ∈ s.queue, MoveOrComment l
  valid : s.validCircle = true → 9 ≤ s.queue.length ∧ ops.valid s.queue = .ok true

theorem moveOrComment_of (l : PyLine α) : (l.inMoves || l.command = none) = true ↔ MoveOrComment l := by
  unfold MoveOrComment
  rw [Bool.or_eq_true, inMoves_iff, decide_eq_true_eq]

theorem forall₂_append {β γ : Type} {R : β → γ → Prop} {a c : List β} {b d : List γ} (h : List.Forall₂ R a b) (k : List.Forall₂ R c d) :
    List.Forall₂ R (a ++ c) (b ++ d) := by
  induction h with
  | nil => exact k
  | cons h _ ih => exact List.Forall₂.cons h ih

theorem rewrites_kept {R : PyLine α → List (PyLine α) → List (PyLine α) → Prop} {q0 q a b : List (PyLine α)}
    (h : List.Forall₂ Kept q0 q) (hr : Rewrites R a b) : Rewrites R (q0 ++ a) (q ++ b) := by
  induction h with
  | nil => exact hr
  | cons h _ ih => exact Rewrites.keep h ih

/-- The queue machine: the lines read, after the pending ones, are rewritten to the output and the pending ones. -/
theorem arcFilter_rewrites {ops : ArcOps α} {R : PyLine α → List (PyLine α) → List (PyLine α) → Prop}
    (hR : ∀ first w last r, ops.valid (first :: w) = .ok true → 8 ≤ w.length → (∀ l ∈ first :: w, MoveOrComment l) →
      ops.emit (first :: w) last = .ok r → ∃ gen, r = first :: (gen ++ [last]) ∧ R first w gen)
    (ls : List (PyLine α)) : ∀ {s s' : ArcSt α} {out q0 : List (PyLine α)}, QueueInv ops s → List.Forall₂ Kept q0 s.queue →
      filterLines (arcFilter ops) s ls = .ok (s', out) → QueueInv ops s' ∧ Rewrites R (q0 ++ ls) (out ++ s'.queue) := by
  induction ls with
  | nil =>
    intro s s' out q0 hi hq h
    simp only [filterLines, Except.ok.injEq, Prod.mk.injEq] at h
    obtain ⟨rfl, rfl⟩ := h
    refine ⟨hi, ?_⟩
    simpa using rewrites_kept (R := R) hq Rewrites.done
  | cons l ls ih =>
    intro s s' out q0 hi hq h
    unfold filterLines at h
    cases hf : arcFilter ops s l with
    | error e => rw [hf] at h; simp at h
    | ok p =>
      obtain ⟨s1, r⟩ := p
      rw [hf] at h
      simp only at h
      cases hg : filterLines (arcFilter ops) s1 ls with
      | error e => rw [hg] at h; simp at h
      | ok p2 =>
        obtain ⟨s2, out2⟩ := p2
        rw [hg] at h
        simp only [Except.ok.injEq, Prod.mk.injEq] at h
        obtain ⟨rfl, rfl⟩ := h
        have hk := inheritPos_kept s.queue l
        have hkc := kept_command hk
        -- the window of a valid circle
        have hwin : s.validCircle = true → ∃ f w f0 w0, s.queue = f :: w ∧ q0 = f0 :: w0 ∧ Kept f0 f ∧ List.Forall₂ Kept w0 w ∧ 8 ≤ w.length ∧ ops.valid (f :: w) = .ok true := by
          intro hv
          obtain ⟨v1, v2⟩ := hi.valid hv
          cases hs : s.queue with
          | nil => rw [hs] at v1; simp at v1
          | cons f w =>
            rw [hs] at hq v1 v2
            cases hq with
            | cons h1 h2 => exact ⟨f, w, _, _, rfl, rfl, h1, h2, by simpa using v1, v2⟩
        -- the three ways of emptying the queue
        have flush : ∀ v, s1 = { queue := [], validCircle := v } → (v = true → False) → r = .many (s.queue ++ [inheritPos s.queue l]) →
            QueueInv ops s2 ∧ Rewrites R (q0 ++ l :: ls) (replacement l r ++ out2 ++ s2.queue) := by
          rintro v rfl hv rfl
          obtain ⟨j1, j2⟩ := ih (q0 := []) ⟨by simp, fun h => absurd h hv⟩ List.Forall₂.nil hg
          refine ⟨j1, ?_⟩
          have := rewrites_kept (R := R) (forall₂_append hq (List.Forall₂.cons hk List.Forall₂.nil)) j2
          simpa [replacement, List.append_assoc] using this
        unfold arcFilter at hf
        simp only at hf
        by_cases hlen : minSegments < (s.queue ++ [inheritPos s.queue l]).length
        · rw [if_pos hlen] at hf
          by_cases hm : (inheritPos s.queue l).inMoves = true
          · rw [if_neg (by simp [hm])] at hf
            have hMl : MoveOrComment (inheritPos s.queue l) := Or.inl ((inMoves_iff _).1 hm)
            have hall : ∀ x ∈ s.queue ++ [inheritPos s.queue l], MoveOrComment x := by
              intro x hx
              rcases List.mem_append.1 hx with hx | hx
              · exact hi.moves x hx
              · rw [List.mem_singleton.1 hx]; exact hMl
            cases hv : ops.valid (s.queue ++ [inheritPos s.queue l]) with
            | error e => rw [hv] at hf; simp at hf
            | ok b =>
              rw [hv] at hf
              cases b with
              | true =>
                simp only [Except.ok.injEq, Prod.mk.injEq] at hf
                obtain ⟨rfl, rfl⟩ := hf
                obtain ⟨j1, j2⟩ := ih (q0 := q0 ++ [l]) ⟨hall, fun _ => ⟨by
                  have : minSegments = 8 := rfl
                  simp only; omega, hv⟩⟩ (forall₂_append hq (List.Forall₂.cons hk List.Forall₂.nil)) hg
                exact ⟨j1, by simpa [replacement] using j2⟩
              | false =>
                simp only at hf
                by_cases hc : s.validCircle = true
                · rw [if_pos hc] at hf
                  obtain ⟨f, w, f0, w0, e1, e2, k1, k2, k3, k4⟩ := hwin hc
                  have hmv : ∀ x ∈ f :: w, MoveOrComment x := e1 ▸ hi.moves
                  rw [e1] at hf
                  cases he : ops.emit (f :: w) (inheritPos (f :: w) l) with
                  | error e => rw [he] at hf; simp at hf
                  | ok r0 =>
                    rw [he] at hf
                    obtain ⟨gen, rfl, hgen⟩ := hR f w _ r0 k4 k3 hmv he
                    have hl : (f :: (gen ++ [inheritPos (f :: w) l])).getLast? = some (inheritPos (f :: w) l) := by
                      rw [← List.cons_append, List.getLast?_append]; simp
                    have hd : (f :: (gen ++ [inheritPos (f :: w) l])).dropLast = f :: gen := by
                      rw [← List.cons_append, List.dropLast_concat]
                    simp only [hl, hd] at hf
                    simp only [Except.ok.injEq, Prod.mk.injEq] at hf
                    obtain ⟨rfl, rfl⟩ := hf
                    rw [e1] at hk hMl
                    obtain ⟨j1, j2⟩ := ih (q0 := [l]) ⟨by simpa using hMl, by simp⟩ (List.Forall₂.cons hk List.Forall₂.nil) hg
                    refine ⟨j1, ?_⟩
                    rw [e2]
                    have := Rewrites.arc k1 k2 hgen j2
                    simpa [replacement] using this
                · rw [if_neg hc] at hf
                  cases hs : s.queue with
                  | nil =>
                    rw [hs] at hlen
                    simp [minSegments] at hlen
                  | cons f w =>
                    rw [hs] at hf hq hk hall
                    cases hq with
                    | cons h1 h2 =>
                      rename_i f0 w0
                      simp only [List.cons_append] at hf
                      simp only [Except.ok.injEq, Prod.mk.injEq] at hf
                      obtain ⟨rfl, rfl⟩ := hf
                      obtain ⟨j1, j2⟩ := ih (s := { s with queue := w ++ [inheritPos (f :: w) l] }) (q0 := w0 ++ [l]) ⟨fun x hx => hall x (List.mem_cons_of_mem _ hx), fun h => absurd h hc⟩
                        (forall₂_append h2 (List.Forall₂.cons hk List.Forall₂.nil)) hg
                      refine ⟨j1, ?_⟩
                      have := Rewrites.keep h1 j2
                      simpa [replacement] using this
          · rw [if_pos (by simp [hm])] at hf
            by_cases hc : s.validCircle = true
            · rw [if_pos hc] at hf
              obtain ⟨f, w, f0, w0, e1, e2, k1, k2, k3, k4⟩ := hwin hc
              have hmv : ∀ x ∈ f :: w, MoveOrComment x := e1 ▸ hi.moves
              rw [e1] at hf
              cases he : ops.emit (f :: w) (inheritPos (f :: w) l) with
              | error e => rw [he] at hf; simp at hf
              | ok r0 =>
                rw [he] at hf
                obtain ⟨gen, rfl, hgen⟩ := hR f w _ r0 k4 k3 hmv he
                simp only [Except.ok.injEq, Prod.mk.injEq] at hf
                obtain ⟨rfl, rfl⟩ := hf
                rw [e1] at hk
                obtain ⟨j1, j2⟩ := ih (q0 := []) ⟨by simp, by simp⟩ List.Forall₂.nil hg
                refine ⟨j1, ?_⟩
                rw [e2]
                have := Rewrites.arc k1 k2 hgen (Rewrites.keep hk j2)
                simpa [replacement] using this
            · rw [if_neg hc] at hf
              simp only [Except.ok.injEq, Prod.mk.injEq] at hf
              exact flush s.validCircle (by rw [← hf.1]) hc hf.2.symm
        · rw [if_neg hlen] at hf
          by_cases hm : ((inheritPos s.queue l).inMoves || (inheritPos s.queue l).command = none) = true
          · rw [if_pos hm] at hf
            simp only [Except.ok.injEq, Prod.mk.injEq] at hf
            obtain ⟨rfl, rfl⟩ := hf
            obtain ⟨j1, j2⟩ := ih (q0 := q0 ++ [l]) ⟨by
              intro x hx
              rcases List.mem_append.1 hx with hx | hx
              · exact hi.moves x hx
              · rw [List.mem_singleton.1 hx]; exact (moveOrComment_of _).1 hm, by
              intro hv
              obtain ⟨v1, _⟩ := hi.valid hv
              have : minSegments = 8 := rfl
              rw [List.length_append, List.length_singleton] at hlen
              omega⟩ (forall₂_append hq (List.Forall₂.cons hk List.Forall₂.nil)) hg
            exact ⟨j1, by simpa [replacement] using j2⟩
          · rw [if_neg hm] at hf
            simp only [Except.ok.injEq, Prod.mk.injEq] at hf
            exact flush false hf.1.symm (by simp) hf.2.symm

theorem modifyLast_flat (q : List (PyLine α)) (Ls : List (Layer α)) (h : Ls ≠ []) :
    (modifyLast (fun L => { L with lines := L.lines ++ q }) Ls).flatMap (·.lines) = Ls.flatMap (·.lines) ++ q := by
  induction Ls with
  | nil => exact absurd rfl h
  | cons L Ls ih =>
    cases Ls with
    | nil => simp [modifyLast]
    | cons M Ms =>
      unfold modifyLast
      rw [List.flatMap_cons, ih (by simp)]
      simp

/-- The whole run of the optimiser. -/
theorem arcRun_rewrites {ops : ArcOps α} {R : PyLine α → List (PyLine α) → List (PyLine α) → Prop}
    (hR : ∀ first w last r, ops.valid (first :: w) = .ok true → 8 ≤ w.length → (∀ l ∈ first :: w, MoveOrComment l) →
      ops.emit (first :: w) last = .ok r → ∃ gen, r = first :: (gen ++ [last]) ∧ R first w gen)
    {s s' : ArcSt α} {g g' : GCode α} (hi : QueueInv ops s) (hne : g.allLayers ≠ []) (h : arcRun ops s g = .ok (s', g')) :
    QueueInv ops s' ∧ Rewrites R (s.queue ++ program g) (program g') := by
  unfold arcRun runFilter at h
  rw [parseLayers_eq] at h
  cases hf : filterLayers (arcFilter ops) s g.allLayers with
  | error e => rw [hf] at h; simp at h
  | ok p =>
    obtain ⟨s1, Ls⟩ := p
    rw [hf] at h
    simp only [Except.ok.injEq, Prod.mk.injEq] at h
    obtain ⟨rfl, rfl⟩ := h
    obtain ⟨f1, f2, _⟩ := filterLayers_flat _ _ _ _ _ hf
    obtain ⟨j1, j2⟩ := arcFilter_rewrites hR _ hi (List.forall₂_same.2 (fun x _ => Or.inl rfl)) f1
    refine ⟨j1, ?_⟩
    have e1 : program g = g.allLayers.flatMap (·.lines) := by
      unfold program layerLines; rw [List.flatMap_def]
    rw [e1]
    have hLs : Ls ≠ [] := by
      intro hc
      rw [hc] at f2
      exact hne (by simpa using f2.symm)
    by_cases hq : s1.queue.isEmpty = true
    · rw [if_pos hq]
      rw [List.isEmpty_iff] at hq
      rw [hq, List.append_nil] at j2
      have : program { g with allLayers := Ls } = Ls.flatMap (·.lines) := by
        unfold program layerLines; rw [List.flatMap_def]
      rw [this]; exact j2
    · rw [if_neg hq]
      have : program { g with allLayers := modifyLast (fun L => { L with lines := L.lines ++ s1.queue }) Ls } =
          Ls.flatMap (·.lines) ++ s1.queue := by
        unfold program layerLines
        rw [← List.flatMap_def, modifyLast_flat _ _ hLs]
      rw [this]; exact j2

theorem queueInv_fresh (ops : ArcOps α) : QueueInv ops {} := ⟨by simp, by simp⟩

/-! ### the checks -/

theorem num_ok {v : Option α} {a : α} : num v = .ok a ↔ v = some a := by
  cases v <;> simp [num]

theorem points_spec (ls : List (PyLine α)) : ∀ pts, points ls = .ok pts ↔ List.Forall₂ At ls pts := by
  induction ls with
  | nil => intro pts; cases pts <;> simp [points]
  | cons l ls ih =>
    intro pts
    unfold points
    cases hx : l.currentX with
    | none =>
      simp only [num]
      constructor
      · intro h; simp at h
      · intro h; cases h with | cons h1 _ => rw [At, hx] at h1; simp at h1
    | some x =>
      cases hy : l.currentY with
      | none =>
        simp only [num]
        constructor
        · intro h; simp at h
        · intro h; cases h with | cons h1 _ => rw [At, hy] at h1; simp at h1
      | some y =>
        simp only [num]
        cases hp : points ls with
        | error e =>
          simp only
          constructor
          · intro h; simp at h
          · intro h; cases h with | cons h1 h2 => rw [(ih _).2 h2] at hp; simp at hp
        | ok ps =>
          simp only [Except.ok.injEq]
          constructor
          · rintro rfl; exact List.Forall₂.cons ⟨hx, hy⟩ ((ih ps).1 hp)
          · intro h
            cases h with
            | cons h1 h2 =>
              rename_i p pts
              have h2' := (ih _).2 h2
              rw [hp] at h2'
              obtain rfl := Except.ok.inj h2'
              rw [At, hx, hy] at h1
              obtain ⟨a, b⟩ := p
              simp only [Option.some.injEq] at h1
              rw [h1.1, h1.2]

theorem segFilament_spec (p l : PyLine α) (v : α) : segFilament p l = .ok v ↔ Pushes p l v := by
  unfold segFilament Pushes
  by_cases h : l.relativeE = some true
  · rw [if_pos h, if_pos (by rw [h]; rfl), num_ok]
  · rw [if_neg h, if_neg (by
      cases hr : l.relativeE with
      | none => simp
      | some b => cases b with
        | true => exact absurd hr h
        | false => simp)]
    cases ha : l.currentE with
    | none => simp
    | some a =>
      cases hb : p.currentE with
      | none => simp
      | some b => simp [eq_comm]

theorem steps_cons {β : Type} (a b : β) (ls : List β) : steps (a :: b :: ls) = (a, b) :: steps (b :: ls) := rfl

theorem segments_spec (t : Trig α) (ls : List (PyLine α)) : ∀ pts ss, List.Forall₂ At ls pts → segments t ls = .ok ss →
    List.Forall₂ (fun (s : (α × α) × (α × α)) v => v = pyRound t.mode 7 (distance t s.2 s.1)) (steps pts) (ss.map (·.path)) ∧
    List.Forall₂ (fun (s : PyLine α × PyLine α) v => Pushes s.1 s.2 v) (steps ls) (ss.map (·.filament)) := by
  induction ls with
  | nil =>
    intro pts ss hp h
    cases hp
    simp only [segments, Except.ok.injEq] at h
    subst h; simp [steps]
  | cons p ls ih =>
    intro pts ss hp h
    cases ls with
    | nil =>
      cases hp with
      | cons h1 h2 =>
        cases h2
        simp only [segments, Except.ok.injEq] at h
        subst h; simp [steps]
    | cons l rest =>
      cases hp with
      | cons h1 h2 =>
        rename_i q qs
        cases h2 with
        | cons h3 h4 =>
          rename_i q2 qs2
          unfold segments at h
          rw [h1.1, h1.2, h3.1, h3.2] at h
          simp only at h
          cases hf : segFilament p l with
          | error e => rw [hf] at h; simp at h
          | ok fl =>
            rw [hf] at h
            cases hs : segments t (l :: rest) with
            | error e => rw [hs] at h; simp at h
            | ok ss2 =>
              rw [hs] at h
              simp only [Except.ok.injEq] at h
              subst h
              obtain ⟨i1, i2⟩ := ih _ _ (List.Forall₂.cons h3 h4) hs
              rw [steps_cons, steps_cons]
              refine ⟨List.Forall₂.cons ?_ i1, List.Forall₂.cons ((segFilament_spec _ _ _).1 hf) i2⟩
              simp only [distance]
              congr 2
              ring

theorem getDistances_spec {t : Trig α} {ls : List (PyLine α)} {d : Distances α} (h : getDistances t ls = .ok d) :
    segments t ls = .ok d.segs ∧ d.totalPath = (d.segs.map (·.path)).sum ∧ d.totalFilament = (d.segs.map (·.filament)).sum ∧
    d.totalPath ≠ 0 ∧ d.avgRatio = d.totalFilament / d.totalPath := by
  unfold getDistances at h
  cases hs : segments t ls with
  | error e => rw [hs] at h; simp at h
  | ok ss =>
    rw [hs] at h
    simp only at h
    unfold divE at h
    by_cases h0 : (ss.map (·.path)).sum = 0
    · rw [if_pos h0] at h; simp at h
    · rw [if_neg h0] at h
      simp only [Except.ok.injEq] at h
      subst h
      exact ⟨rfl, rfl, rfl, h0, rfl⟩

theorem leastSquares_spec {t : Trig α} {pts : List (α × α)} {c : Circle α} (h : leastSquares t pts = .ok (some c)) :
    ∃ p0 p2 pl, pts[0]? = some p0 ∧ pts[2]? = some p2 ∧ pts.getLast? = some pl ∧
      c.direction = turn t (c.cx, c.cy) p0 p2 ∧ c.startX = p0.1 ∧ c.startY = p0.2 ∧ c.endX = pl.1 ∧ c.endY = pl.2 := by
  unfold leastSquares at h
  simp only at h
  split at h
  · simp at h
  · simp at h
  · split at h
    · simp at h
    · split at h
      · simp at h
      · split at h
        · rename_i p0 p2 pl h0 h2 hl
          simp only [Except.ok.injEq, Option.some.injEq] at h
          subst h
          exact ⟨p0, p2, pl, h0, h2, hl, rfl, rfl, rfl, rfl, rfl⟩
        · simp at h

theorem leastSquares_root {t : Trig α} {pts : List (α × α)} {c : Circle α} (h : leastSquares t pts = .ok (some c)) :
    ∃ v, 0 < v ∧ c.radius = t.sqrt v := by
  unfold leastSquares at h
  simp only at h
  split at h
  · simp at h
  · simp at h
  · rename_i xbar ybar _ _
    split at h
    · simp at h
    · rename_i hs
      simp only [not_or, not_lt] at hs
      split at h
      · simp at h
      · split at h
        · simp only [Except.ok.injEq, Option.some.injEq] at h
          subst h
          refine ⟨_, ?_, rfl⟩
          have hlen : (0 : α) < (pts.length : α) := by
            have : pts ≠ [] := by
              rintro rfl
              simp at *
            exact_mod_cast List.length_pos_iff.2 this
          have he : (0 : α) < arcEpsilon := by unfold arcEpsilon; norm_num
          have h1 : ∀ a : α, 0 ≤ a * a := mul_self_nonneg
          have hq := div_pos (add_pos (lt_of_lt_of_le he hs.1) (lt_of_lt_of_le he hs.2)) hlen
          exact add_pos_of_nonneg_of_pos (add_nonneg (h1 _) (h1 _)) hq
        · simp at h

theorem phaseDiffs_spec (t : Trig α) (c : Circle α) (pts : List (α × α)) : phaseDiffs t c pts = angles t (c.cx, c.cy) pts := by
  unfold phaseDiffs angles
  induction pts with
  | nil => rfl
  | cons p pts ih =>
    cases pts with
    | nil => rfl
    | cons q pts =>
      rw [steps_cons]
      simp only [List.map_cons, pairwise] at ih ⊢
      rw [ih]
      rfl

theorem getCircle_spec {t : Trig α} {pts : List (α × α)} {o : Option (Circle α)} (h : getCircle t pts = .ok (false, o)) :
    ∃ c, o = some c ∧ leastSquares t pts = .ok (some c) ∧ c.radius ≤ 200 ∧ (∀ p ∈ pts, |distance t (c.cx, c.cy) p - c.radius| ≤ 15 / 1000) ∧
      ∀ a ∈ angles t (c.cx, c.cy) pts, a - mean (angles t (c.cx, c.cy) pts) ≤ 5 * t.pi / 180 := by
  unfold getCircle at h
  cases hl : leastSquares t pts with
  | error e => rw [hl] at h; simp at h
  | ok oc =>
    rw [hl] at h
    cases oc with
    | none => simp at h
    | some c =>
      simp only at h
      by_cases hr : (maxRadius : α) < c.radius
      · rw [if_pos hr] at h; simp at h
      · rw [if_neg hr] at h
        by_cases he : (radiusErrors t c pts).any (fun e => decide (alignmentError < e)) = true
        · rw [if_pos he] at h; simp at h
        · rw [if_neg he] at h
          cases ha : angleErrors t c pts with
          | error e => rw [ha] at h; simp at h
          | ok errs =>
            rw [ha] at h
            simp only [Except.ok.injEq, Prod.mk.injEq] at h
            refine ⟨c, h.2.symm, rfl, not_lt.1 hr, ?_, ?_⟩
            · intro p hp
              by_contra hc
              apply he
              rw [List.any_eq_true]
              refine ⟨_, List.mem_map.2 ⟨p, hp, rfl⟩, ?_⟩
              simp only [decide_eq_true_eq]
              exact not_le.1 hc
            · intro a hin
              unfold angleErrors at ha
              rw [phaseDiffs_spec] at ha
              simp only at ha
              unfold divE at ha
              by_cases h0 : ((angles t (c.cx, c.cy) pts).length : α) = 0
              · rw [if_pos h0] at ha; simp at ha
              · rw [if_neg h0] at ha
                simp only [Except.ok.injEq] at ha
                subst ha
                have := h.1
                rw [List.any_eq_false] at this
                have := this _ (List.mem_map.2 ⟨a, hin, rfl⟩)
                simp only [decide_eq_true_eq, not_lt] at this
                exact this

/-- `getCircle` returns the fitted circle. -/
theorem getCircle_circle {t : Trig α} {pts : List (α × α)} {b : Bool} {o : Option (Circle α)} (h : getCircle t pts = .ok (b, o)) :
    leastSquares t pts = .ok o := by
  unfold getCircle at h
  cases hl : leastSquares t pts with
  | error e => rw [hl] at h; simp at h
  | ok oc =>
    rw [hl] at h
    cases oc with
    | none => simp only [Except.ok.injEq, Prod.mk.injEq] at h; rw [h.2]
    | some c =>
      simp only at h
      split_ifs at h
      · simp only [Except.ok.injEq, Prod.mk.injEq] at h; rw [h.2]
      · simp only [Except.ok.injEq, Prod.mk.injEq] at h; rw [h.2]
      · split at h
        · simp at h
        · simp only [Except.ok.injEq, Prod.mk.injEq] at h; rw [h.2]

theorem uniformTail_spec {first : PyLine α} {w : List (PyLine α)} {allE : Bool} (h : uniformTail (first :: w) = .ok (true, allE)) :
    (∃ f, ∀ l ∈ w, l.currentF = f) ∧ (∃ z, ∀ l ∈ w, l.currentZ = z) ∧ w ≠ [] ∧
    (allE = true → ∀ l ∈ w, l.e ≠ none) ∧ (allE = false → ∀ l ∈ w, l.e = none) := by
  unfold uniformTail at h
  cases w with
  | nil => simp at h
  | cons q1 w =>
    simp only [List.getElem?_cons_succ, List.getElem?_cons_zero, List.drop_one, List.tail_cons, Except.ok.injEq, Prod.mk.injEq,
      Bool.and_eq_true, List.all_eq_true, decide_eq_true_eq] at h
    obtain ⟨⟨⟨hE, hF⟩, hZ⟩, rfl⟩ := h
    refine ⟨⟨_, hF⟩, ⟨_, hZ⟩, by simp, ?_, ?_⟩
    · intro ha l hl
      rw [if_pos ha, List.all_eq_true] at hE
      have := hE l hl
      intro hc; rw [hc] at this; simp at this
    · intro ha l hl
      rw [if_neg (by rw [ha]; simp)] at hE
      simp only [Bool.not_eq_true', List.any_eq_false] at hE
      have := hE l hl
      cases he : l.e with
      | none => rfl
      | some v => rw [he] at this; simp at this

/-- An accepted queue lies on an arc (given its distances can be computed). -/
theorem queueValid_spec {t : Trig α} {first : PyLine α} {w : List (PyLine α)} {o : Option (Circle α)}
    (h : queueValid t (first :: w) = .ok (false, o)) {d : Distances α} (hd : getDistances t (first :: w) = .ok d) :
    ∃ pts c, o = some c ∧ points (first :: w) = .ok pts ∧ leastSquares t pts = .ok (some c) ∧
      OnArc t first w pts (c.cx, c.cy) c.radius (d.segs.map (·.path)) (d.segs.map (·.filament)) := by
  unfold queueValid at h
  cases hu : uniformTail (first :: w) with
  | error e => rw [hu] at h; simp at h
  | ok p =>
    obtain ⟨b, allE⟩ := p
    rw [hu] at h
    cases b with
    | false => simp at h
    | true =>
      obtain ⟨u1, u2, u3, u4, u5⟩ := uniformTail_spec hu
      obtain ⟨d1, d2, d3, d4, d5⟩ := getDistances_spec hd
      simp only at h
      cases hp : points (first :: w) with
      | error e =>
        rw [hp] at h
        cases allE with
        | false => simp at h
        | true =>
          rw [if_pos rfl, hd] at h
          simp only at h
          split_ifs at h
          simp at h
      | ok pts =>
        have hgo : getCircle t pts = .ok (false, o) ∧ (allE = true → ratioOk d = true) := by
          rw [hp] at h
          cases allE with
          | false => exact ⟨by simpa using h, fun hc => absurd hc (by simp)⟩
          | true =>
            rw [if_pos rfl, hd] at h
            simp only at h
            by_cases hr : ratioOk d = true
            · rw [if_pos hr] at h; exact ⟨h, fun _ => hr⟩
            · rw [if_neg hr] at h; simp at h
        obtain ⟨hgo, hratio⟩ := hgo
        obtain ⟨c, rfl, hls, hrad, hnear, heven⟩ := getCircle_spec hgo
        have hat := (points_spec _ _).1 hp
        obtain ⟨s1, s2⟩ := segments_spec t _ _ _ hat d1
        refine ⟨pts, c, rfl, rfl, hls, hat, hnear, hrad, leastSquares_root hls, heven, u1, u2, ?_, s1, s2, ?_⟩
        · cases allE with
          | true => exact Or.inl (u4 rfl)
          | false => exact Or.inr (u5 rfl)
        · intro hall
          have ha : allE = true := by
            cases allE with
            | true => rfl
            | false =>
              exfalso
              cases w with
              | nil => exact u3 rfl
              | cons x xs => exact hall x (by simp) (u5 rfl x (by simp))
          have hr := hratio ha
          unfold ratioOk at hr
          simp only [Bool.and_eq_true, Bool.not_eq_true', decide_eq_false_iff_not, not_lt, List.all_eq_true, decide_eq_true_eq] at hr
          rw [← d2, ← d3, ← d5]
          refine ⟨hr.1, ?_⟩
          have hr2 := hr.2
          rw [List.forall₂_map_left_iff, List.forall₂_map_right_iff, List.forall₂_same]
          intro s hs
          have := hr2 s hs
          unfold segRatio at this
          by_cases hp0 : s.path < arcEpsilon
          · rw [if_pos hp0, zero_div, zero_sub, abs_neg, abs_one] at this
            unfold extrusionError at this
            norm_num at this
          · rw [if_neg hp0] at this
            exact ⟨not_lt.1 hp0, this⟩

theorem relArcE_spec (t : Trig α) (r : α) (ss : List (Seg α)) : ∀ as e, relArcE t r ss as = .ok e →
    e = (List.zipWith (fun s a => s * (r * a) / (2 * r * t.sin (a / 2))) (ss.map (·.filament)) as).sum := by
  induction ss with
  | nil => intro as e h; simp only [relArcE, Except.ok.injEq] at h; simp [← h]
  | cons s ss ih =>
    intro as e h
    cases as with
    | nil => simp only [relArcE, Except.ok.injEq] at h; simp [← h]
    | cons a as =>
      unfold relArcE at h
      unfold divE at h
      by_cases h0 : 2 * r * t.sin (a / 2) = 0
      · rw [if_pos h0] at h; simp at h
      · rw [if_neg h0] at h
        cases hr : relArcE t r ss as with
        | error er => rw [hr] at h; simp at h
        | ok rest =>
          rw [hr] at h
          simp only [Except.ok.injEq] at h
          rw [← h, ih as rest hr]
          simp

theorem relArcE_ne (t : Trig α) (r : α) (ss : List (Seg α)) : ∀ as e, relArcE t r ss as = .ok e → as.length ≤ ss.length →
    ∀ a ∈ as, 2 * r * t.sin (a / 2) ≠ 0 := by
  induction ss with
  | nil =>
    intro as e _ hl a ha
    simp only [List.length_nil, Nat.le_zero, List.length_eq_zero_iff] at hl
    rw [hl] at ha; simp at ha
  | cons s ss ih =>
    intro as e h hl a ha
    cases as with
    | nil => simp at ha
    | cons b as =>
      unfold relArcE at h
      unfold divE at h
      by_cases h0 : 2 * r * t.sin (b / 2) = 0
      · rw [if_pos h0] at h; simp at h
      · rw [if_neg h0] at h
        cases hr : relArcE t r ss as with
        | error er => rw [hr] at h; simp at h
        | ok rest =>
          rcases List.mem_cons.1 ha with rfl | ha
          · exact h0
          · exact ih as rest hr (by simpa using hl) a ha

/-- What the code emits for an accepted window. -/
theorem toGcode_spec {t : Trig α} {first : PyLine α} {w : List (PyLine α)} {last : PyLine α} {r : List (PyLine α)}
    (hv : (arcOps t).valid (first :: w) = .ok true) (hlen : 8 ≤ w.length) (hm : ∀ l ∈ first :: w, MoveOrComment l)
    (h : (arcOps t).emit (first :: w) last = .ok r) : ∃ gen, r = first :: (gen ++ [last]) ∧ ArcReplacement t first w gen := by
  have hv' : ∃ o, queueValid t (first :: w) = .ok (false, o) := by
    simp only [arcOps] at hv
    cases hq : queueValid t (first :: w) with
    | error e => rw [hq] at hv; simp at hv
    | ok p =>
      obtain ⟨b, o⟩ := p
      rw [hq] at hv
      cases b with
      | true => simp at hv
      | false => exact ⟨o, rfl⟩
  obtain ⟨o, hv'⟩ := hv'
  simp only [arcOps] at h
  unfold toGcode at h
  obtain ⟨lw, hlw⟩ : ∃ lw, w.getLast? = some lw := by
    cases hw : w.getLast? with
    | some x => exact ⟨x, rfl⟩
    | none => rw [List.getLast?_eq_none_iff] at hw; rw [hw] at hlen; simp at hlen
  have hlw2 : (first :: w).getLast? = some lw := by
    cases w with
    | nil => simp at hlw
    | cons a w => rw [List.getLast?_cons_cons]; exact hlw
  rw [hlw2] at h
  simp only [List.head?_cons] at h
  cases hp : points (first :: w) with
  | error e => rw [hp] at h; simp at h
  | ok pts0 =>
    rw [hp] at h
    simp only at h
    cases hc : getCircle t pts0 with
    | error e => rw [hc] at h; simp at h
    | ok p =>
      obtain ⟨b, oc⟩ := p
      rw [hc] at h
      simp only at h
      have hls := getCircle_circle hc
      cases hd : getDistances t (first :: w) with
      | error e => rw [hd] at h; simp at h
      | ok d =>
        rw [hd] at h
        simp only at h
        obtain ⟨pts, c, rfl, hp', hls', harc⟩ := queueValid_spec hv' hd
        rw [hp] at hp'
        obtain rfl := Except.ok.inj hp'
        rw [hls] at hls'
        obtain rfl := Except.ok.inj hls'
        simp only at h
        obtain ⟨p0, p2, pl, g0, g2, gl, gd, gsx, gsy, gex, gey⟩ := leastSquares_spec hls
        obtain ⟨d1, d2, d3, d4, d5⟩ := getDistances_spec hd
        have hfeed : ∀ l ∈ w, lw.currentF = l.currentF := by
          obtain ⟨f, hf⟩ := harc.feed
          intro l hl
          rw [hf l hl, hf lw (List.mem_of_getLast? hlw)]
        have hw' : ∀ l ∈ w, MoveOrComment l := fun l hl => hm l (List.mem_cons_of_mem _ hl)
        have hcmd : ∀ x : PyLine α, x.command = some (if 0 < c.direction then c!"G3" else c!"G2") → HasCmd x c!"G2" ∨ HasCmd x c!"G3" := by
          intro x hx
          by_cases h0 : 0 < c.direction
          · rw [if_pos h0] at hx; exact Or.inr hx
          · rw [if_neg h0] at hx; exact Or.inl hx
        -- properties of an emitted arc line with extrusion `ev`
        have mk : ∀ arc : PyLine α, arc.command = some (if 0 < c.direction then c!"G3" else c!"G2") →
            arc.x = some (pyRound t.mode 3 c.endX) → arc.y = some (pyRound t.mode 3 c.endY) →
            arc.i = some (pyRound t.mode 3 (c.cx - c.startX)) → arc.j = some (pyRound t.mode 3 (c.cy - c.startY)) →
            arc.f = lw.currentF → arc.z = none →
            ((lw.relativeE = some true → (∀ a ∈ angles t (c.cx, c.cy) pts0, 2 * c.radius * t.sin (a / 2) ≠ 0) ∧
                arc.e = some (arcFilament t (c.cx, c.cy) c.radius pts0 (d.segs.map (·.filament)))) ∧
              (lw.relativeE ≠ some true → (d.segs.map (·.filament)).sum ≠ 0 ∧ ∃ e0, first.currentE = some e0 ∧
                arc.e = some (e0 + ((angles t (c.cx, c.cy) pts0).map (fun a => a * c.radius)).sum *
                  ((d.segs.map (·.filament)).sum / (d.segs.map (·.path)).sum)))) →
            ArcLine t first w pts0 (c.cx, c.cy) c.radius (d.segs.map (·.path)) (d.segs.map (·.filament)) arc := by
          intro arc a1 a2 a3 a4 a5 a6 az a7
          refine ⟨⟨p0, p2, g0, g2, by rw [a1, gd]⟩, ⟨pl, gl, by rw [a2, gex], by rw [a3, gey]⟩, ⟨p0, ?_, by rw [a4, gsx], by rw [a5, gsy]⟩, az, ?_, ⟨lw, hlw, a7⟩⟩
          · rw [List.head?_eq_getElem?]; exact g0
          · intro l hl; rw [a6, hfeed l hl]
        by_cases hrel : lw.relativeE = some true
        · rw [hrel] at h
          simp only [Option.getD_some, if_true] at h
          cases hra : relArcE t c.radius d.segs (phaseDiffs t c pts0) with
          | error e => rw [hra] at h; simp at h
          | ok ev =>
            rw [hra] at h
            simp only [Except.ok.injEq] at h
            have hev := relArcE_spec t _ _ _ _ hra
            rw [phaseDiffs_spec] at hev
            refine ⟨[_], h.symm, ⟨hlen, hw', _, hcmd _ rfl, ⟨_, _, List.append_assoc _ _ _⟩, Or.inl rfl⟩, pts0, (c.cx, c.cy), c.radius, _, _, _, [], harc,
              mk _ rfl rfl rfl rfl rfl rfl rfl ⟨fun _ => ⟨?_, ?_⟩, fun hn => absurd hrel hn⟩, ⟨lw, hlw, ?_⟩, rfl⟩
            · have := relArcE_ne t _ _ _ _ hra (by
                rw [phaseDiffs_spec]
                have := harc.paths_eq.length_eq
                simp only [List.length_map] at this
                simp only [angles, List.length_map, this, le_refl])
              rw [phaseDiffs_spec] at this
              exact this
            · exact congrArg some hev
            · rw [if_neg (fun hn => hn.1 hrel)]
        · have hrel' : lw.relativeE.getD false = false := by
            cases hr : lw.relativeE with
            | none => rfl
            | some b => cases b with
              | true => exact absurd hr hrel
              | false => rfl
          rw [hrel'] at h
          simp only [Bool.false_eq_true, if_false] at h
          cases he : first.currentE with
          | none => rw [he] at h; simp at h
          | some e0 =>
            rw [he] at h
            unfold divE at h
            by_cases h0 : d.totalFilament = 0
            · rw [if_pos h0] at h; simp at h
            · rw [if_neg h0] at h
              simp only at h
              have hE : ∀ x : PyLine α, x.e = some (e0 + ((phaseDiffs t c pts0).map (fun a => a * c.radius)).sum * d.avgRatio) →
                  (lw.relativeE = some true → (∀ a ∈ angles t (c.cx, c.cy) pts0, 2 * c.radius * t.sin (a / 2) ≠ 0) ∧
                    x.e = some (arcFilament t (c.cx, c.cy) c.radius pts0 (d.segs.map (·.filament)))) ∧
                  (lw.relativeE ≠ some true → (d.segs.map (·.filament)).sum ≠ 0 ∧ ∃ e0, first.currentE = some e0 ∧
                    x.e = some (e0 + ((angles t (c.cx, c.cy) pts0).map (fun a => a * c.radius)).sum *
                      ((d.segs.map (·.filament)).sum / (d.segs.map (·.path)).sum))) := by
                intro x hx
                refine ⟨fun hn => absurd hn hrel, fun _ => ⟨by rw [← d3]; exact h0, e0, he, ?_⟩⟩
                rw [hx, phaseDiffs_spec, d5, d2, d3]
              have hcorr : (phaseDiffs t c pts0 |>.map (fun a => a * c.radius)).sum * d.avgRatio / d.totalFilament - 1 =
                  ((angles t (c.cx, c.cy) pts0).map (fun a => a * c.radius)).sum *
                    ((d.segs.map (·.filament)).sum / (d.segs.map (·.path)).sum) / (d.segs.map (·.filament)).sum - 1 := by
                rw [phaseDiffs_spec, d5, d2, d3]
              by_cases hcor : correctionLimit < (phaseDiffs t c pts0 |>.map (fun a => a * c.radius)).sum * d.avgRatio / d.totalFilament - 1
              · rw [if_pos hcor] at h
                simp only [Except.ok.injEq] at h
                refine ⟨[_, _], h.symm, ⟨hlen, hw', _, hcmd _ rfl, ⟨_, _, List.append_assoc _ _ _⟩, Or.inr ⟨_, ?_, rfl⟩⟩, pts0, (c.cx, c.cy), c.radius, _, _, _, [_], harc,
                  mk _ rfl rfl rfl rfl rfl rfl rfl (hE _ rfl), ⟨lw, hlw, ?_⟩, rfl⟩
                · exact ⟨rfl, ⟨_, _, rfl⟩⟩
                · rw [hcorr] at hcor
                  rw [if_pos ⟨hrel, hcor⟩]
                  exact ⟨_, rfl, ⟨rfl, ⟨_, _, rfl⟩⟩, rfl, rfl, rfl, rfl⟩
              · rw [if_neg hcor] at h
                simp only [Except.ok.injEq] at h
                refine ⟨[_], h.symm, ⟨hlen, hw', _, hcmd _ rfl, ⟨_, _, List.append_assoc _ _ _⟩, Or.inl rfl⟩, pts0, (c.cx, c.cy), c.radius, _, _, _, [], harc,
                  mk _ rfl rfl rfl rfl rfl rfl rfl (hE _ rfl), ⟨lw, hlw, ?_⟩, rfl⟩
                rw [hcorr] at hcor
                rw [if_neg (fun hn => hcor hn.2)]

/-- Whatever the tests said about the window, the code emits one arc and at most one correction. -/
theorem toGcode_shape {t : Trig α} {first : PyLine α} {w : List (PyLine α)} {last : PyLine α} {r : List (PyLine α)}
    (hlen : 8 ≤ w.length) (hm : ∀ l ∈ first :: w, MoveOrComment l) (h : toGcode t (first :: w) last = .ok r) :
    ∃ gen, r = first :: (gen ++ [last]) ∧ ArcForWindow first w gen := by
  have hw' : ∀ l ∈ w, MoveOrComment l := fun l hl => hm l (List.mem_cons_of_mem _ hl)
  unfold toGcode at h
  obtain ⟨lw, hlw⟩ : ∃ lw, (first :: w).getLast? = some lw := by
    cases hw : (first :: w).getLast? with
    | some x => exact ⟨x, rfl⟩
    | none => rw [List.getLast?_eq_none_iff] at hw; simp at hw
  rw [hlw] at h
  simp only [List.head?_cons] at h
  cases hp : points (first :: w) with
  | error e => rw [hp] at h; simp at h
  | ok pts0 =>
    rw [hp] at h
    simp only at h
    cases hc : getCircle t pts0 with
    | error e => rw [hc] at h; simp at h
    | ok p =>
      obtain ⟨b, oc⟩ := p
      rw [hc] at h
      simp only at h
      cases hd : getDistances t (first :: w) with
      | error e => rw [hd] at h; simp at h
      | ok d =>
        rw [hd] at h
        simp only at h
        cases oc with
        | none => simp at h
        | some c =>
          simp only at h
          have hcmd : ∀ x : PyLine α, x.command = some (if 0 < c.direction then c!"G3" else c!"G2") → HasCmd x c!"G2" ∨ HasCmd x c!"G3" := by
            intro x hx
            by_cases h0 : 0 < c.direction
            · rw [if_pos h0] at hx; exact Or.inr hx
            · rw [if_neg h0] at hx; exact Or.inl hx
          by_cases hrel : lw.relativeE.getD false = true
          · rw [if_pos hrel] at h
            cases hra : relArcE t c.radius d.segs (phaseDiffs t c pts0) with
            | error e => rw [hra] at h; simp at h
            | ok ev =>
              rw [hra] at h
              simp only [Except.ok.injEq] at h
              exact ⟨[_], h.symm, ⟨hlen, hw', _, hcmd _ rfl, ⟨_, _, List.append_assoc _ _ _⟩, Or.inl rfl⟩⟩
          · rw [if_neg hrel] at h
            cases he : first.currentE with
            | none => rw [he] at h; simp at h
            | some e0 =>
              rw [he] at h
              unfold divE at h
              by_cases h0 : d.totalFilament = 0
              · rw [if_pos h0] at h; simp at h
              · rw [if_neg h0] at h
                simp only at h
                by_cases hcor : correctionLimit < (phaseDiffs t c pts0 |>.map (fun a => a * c.radius)).sum * d.avgRatio / d.totalFilament - 1
                · rw [if_pos hcor] at h
                  simp only [Except.ok.injEq] at h
                  refine ⟨[_, _], h.symm, ⟨hlen, hw', _, hcmd _ rfl, ⟨_, _, List.append_assoc _ _ _⟩, Or.inr ⟨_, ?_, rfl⟩⟩⟩
                  exact ⟨rfl, ⟨_, _, rfl⟩⟩
                · rw [if_neg hcor] at h
                  simp only [Except.ok.injEq] at h
                  exact ⟨[_], h.symm, ⟨hlen, hw', _, hcmd _ rfl, ⟨_, _, List.append_assoc _ _ _⟩, Or.inl rfl⟩⟩

/-! ### consequences of rewriting -/

theorem rewrites_mono {R S : PyLine α → List (PyLine α) → List (PyLine α) → Prop} (h : ∀ a w g, R a w g → S a w g) {x y : List (PyLine α)}
    (hr : Rewrites R x y) : Rewrites S x y := by
  induction hr with
  | done => exact .done
  | keep k _ ih => exact .keep k ih
  | arc k1 k2 k3 _ ih => exact .arc k1 k2 (h _ _ _ k3) ih

theorem isMove_g23 {l : PyLine α} (h : HasCmd l c!"G2" ∨ HasCmd l c!"G3") : IsMove l := by
  rcases h with h | h
  · exact ⟨_, by simp, h⟩
  · exact ⟨_, by simp, h⟩

theorem other_keep {l l' : PyLine α} (h : Kept l l') :
    (decide (l'.command ≠ none ∧ ¬ IsMove l') = decide (l.command ≠ none ∧ ¬ IsMove l)) ∧ (l.command ≠ none → l' = l) := by
  have hc := kept_command h
  refine ⟨?_, ?_⟩
  · simp only [hc, isMove_congr hc]
  · intro hn
    rcases h with rfl | ⟨hn', _⟩
    · rfl
    · exact absurd hn' hn

/-- Rewriting windows of moves leaves the other commands alone, up to generated corrections. -/
theorem rewrites_others {x y : List (PyLine α)} (hr : Rewrites ArcForWindow x y) :
    List.Sublist (otherCommands x) (otherCommands y) ∧
    ((∀ l ∈ x, ¬ IsCorrection l) → ∀ keep : PyLine α → Bool, (∀ l, keep l = true ↔ ¬ IsCorrection l) → otherCommands x = (otherCommands y).filter keep) := by
  have hwin : ∀ w : List (PyLine α), (∀ l ∈ w, MoveOrComment l) → otherCommands w = [] := by
    intro w hw
    unfold otherCommands
    rw [List.filter_eq_nil_iff]
    intro l hl
    simp only [decide_eq_true_eq, not_and, not_not]
    intro hn
    rcases hw l hl with h | h
    · exact h
    · exact absurd h hn
  induction hr with
  | done => exact ⟨List.Sublist.refl _, fun _ _ _ => rfl⟩
  | @keep l l' a b k _ ih =>
    obtain ⟨k1, k2⟩ := other_keep k
    obtain ⟨i1, i2⟩ := ih
    have e : ∀ (l : PyLine α) ls, otherCommands (l :: ls) = (if decide (l.command ≠ none ∧ ¬ IsMove l) then [l] else []) ++ otherCommands ls := by
      intro l ls
      unfold otherCommands
      rw [List.filter_cons]
      by_cases hd : decide (l.command ≠ none ∧ ¬ IsMove l) = true
      · rw [if_pos hd, if_pos hd]; rfl
      · rw [if_neg hd, if_neg hd]; rfl
    rw [e, e, k1]
    by_cases hd : decide (l.command ≠ none ∧ ¬ IsMove l) = true
    · rw [if_pos hd, if_pos hd]
      have hl : l' = l := k2 (of_decide_eq_true hd).1
      subst hl
      refine ⟨List.Sublist.append (List.Sublist.refl _) i1, ?_⟩
      intro hx keep hkeep
      rw [List.filter_append, ← i2 (fun x hx' => hx x (List.mem_cons_of_mem _ hx')) keep hkeep,
        List.filter_singleton, (hkeep l').2 (hx l' (by simp))]
      rfl
    · rw [if_neg hd, if_neg hd]
      exact ⟨i1, fun hx keep hkeep => i2 (fun x hx' => hx x (List.mem_cons_of_mem _ hx')) keep hkeep⟩
  | @arc l l' w w' gen a b k kw hR _ ih =>
    obtain ⟨k1, k2⟩ := other_keep k
    obtain ⟨i1, i2⟩ := ih
    obtain ⟨_, hw', arc, harc, _, hgen⟩ := hR
    have hw : ∀ x ∈ w, MoveOrComment x := by
      intro x hx
      obtain ⟨n, hn, rfl⟩ := List.getElem_of_mem hx
      have h2 := (List.forall₂_iff_get.1 kw).2 n hn (by rw [← kw.length_eq]; exact hn)
      have hc := kept_command h2
      rcases hw' _ (List.get_mem w' ⟨n, by rw [← kw.length_eq]; exact hn⟩) with h | h
      · exact Or.inl ((isMove_congr hc).1 h)
      · exact Or.inr (hc.symm.trans h)
    have e : ∀ (l : PyLine α) ls, otherCommands (l :: ls) = (if decide (l.command ≠ none ∧ ¬ IsMove l) then [l] else []) ++ otherCommands ls := by
      intro l ls
      unfold otherCommands
      rw [List.filter_cons]
      by_cases hd : decide (l.command ≠ none ∧ ¬ IsMove l) = true
      · rw [if_pos hd, if_pos hd]; rfl
      · rw [if_neg hd, if_neg hd]; rfl
    have ea : ∀ p q : List (PyLine α), otherCommands (p ++ q) = otherCommands p ++ otherCommands q := fun p q => List.filter_append ..
    have hcor : ∀ x ∈ otherCommands gen, IsCorrection x := by
      intro x hx
      have hx' : x ∈ gen ∧ decide (x.command ≠ none ∧ ¬ IsMove x) = true := List.mem_filter.1 hx
      rcases hgen with rfl | ⟨g, hg, rfl⟩
      · obtain rfl := List.mem_singleton.1 hx'.1
        exact absurd (isMove_g23 harc) (of_decide_eq_true hx'.2).2
      · rcases List.mem_cons.1 hx'.1 with rfl | hx1
        · exact absurd (isMove_g23 harc) (of_decide_eq_true hx'.2).2
        · obtain rfl := List.mem_singleton.1 hx1; exact hg
    rw [e, e, k1, ea, ea, hwin w hw, List.nil_append]
    have sub : List.Sublist (otherCommands a) (otherCommands gen ++ otherCommands b) := i1.trans (List.sublist_append_right _ _)
    have flt : (∀ x ∈ a, ¬ IsCorrection x) → ∀ keep : PyLine α → Bool, (∀ l, keep l = true ↔ ¬ IsCorrection l) → otherCommands a = (otherCommands gen ++ otherCommands b).filter keep := by
      intro hx keep hkeep
      rw [List.filter_append, ← i2 hx keep hkeep]
      rw [List.filter_eq_nil_iff.2]
      · rfl
      · intro x hx hk
        exact (hkeep x).1 hk (hcor x hx)
    have tl : ∀ {P : PyLine α → Prop}, (∀ x ∈ l :: (w ++ a), P x) → ∀ x ∈ a, P x := by
      intro P h x hx
      exact h x (List.mem_cons_of_mem _ (List.mem_append_right _ hx))
    by_cases hd : decide (l.command ≠ none ∧ ¬ IsMove l) = true
    · rw [if_pos hd, if_pos hd]
      have hl : l' = l := k2 (of_decide_eq_true hd).1
      subst hl
      refine ⟨List.Sublist.append (List.Sublist.refl _) sub, ?_⟩
      intro hx keep hkeep
      rw [List.filter_append, ← flt (tl hx) keep hkeep, List.filter_singleton, (hkeep l').2 (hx l' (by simp))]
      rfl
    · rw [if_neg hd, if_neg hd]
      exact ⟨sub, fun hx keep hkeep => flt (tl hx) keep hkeep⟩

/-! ### short runs -/

/-- With never more than eight moves or comments in a row, nothing is replaced and nothing fails. -/
theorem arcFilter_short {ops : ArcOps α} (ls : List (PyLine α)) : ∀ {s : ArcSt α} {q0 : List (PyLine α)}, s.validCircle = false →
    List.Forall₂ Kept q0 s.queue → (∀ l ∈ q0, MoveOrComment l) →
    (∀ pre w post, q0 ++ ls = pre ++ w ++ post → (∀ l ∈ w, MoveOrComment l) → w.length ≤ 8) →
    ∃ s' out, filterLines (arcFilter ops) s ls = .ok (s', out) ∧ List.Forall₂ Kept (q0 ++ ls) (out ++ s'.queue) := by
  induction ls with
  | nil =>
    intro s q0 _ hq _ _
    exact ⟨s, [], rfl, by simpa using hq⟩
  | cons l ls ih =>
    intro s q0 hv hq hm hs
    have hk := inheritPos_kept s.queue l
    have hkc := kept_command hk
    have hql := hq.length_eq
    have hmc : (((inheritPos s.queue l).inMoves || decide ((inheritPos s.queue l).command = none)) = true ↔ MoveOrComment l) := by
      rw [moveOrComment_of]
      unfold MoveOrComment
      rw [isMove_congr hkc, hkc]
    have htail : ∀ pre w post, ls = pre ++ w ++ post → (∀ l ∈ w, MoveOrComment l) → w.length ≤ 8 := by
      intro pre w post he hw
      exact hs (q0 ++ l :: pre) w post (by rw [he]; simp) hw
    have fl : ∀ v, v = false → ∃ s' out, filterLines (arcFilter ops) { queue := [], validCircle := v } ls = .ok (s', out) ∧
        List.Forall₂ Kept ls (out ++ s'.queue) := by
      rintro v rfl
      exact ih (s := { queue := [], validCircle := false }) (q0 := []) rfl List.Forall₂.nil (by simp) (by simpa using htail)
    unfold filterLines
    by_cases hml : MoveOrComment l
    · have h8 : (q0 ++ [l]).length ≤ 8 := hs [] (q0 ++ [l]) ls (by simp) (by
        intro x hx
        rcases List.mem_append.1 hx with hx | hx
        · exact hm x hx
        · rw [List.mem_singleton.1 hx]; exact hml)
      have hstep : arcFilter ops s l = .ok ({ s with queue := s.queue ++ [inheritPos s.queue l] }, .many []) := by
        unfold arcFilter
        simp only
        rw [if_neg (by
          rw [List.length_append, ← hql, List.length_singleton]
          rw [List.length_append, List.length_singleton] at h8
          have : minSegments = 8 := rfl
          omega), if_pos (hmc.2 hml)]
      rw [hstep]
      obtain ⟨s', out, i1, i2⟩ := ih (s := { s with queue := s.queue ++ [inheritPos s.queue l] }) (q0 := q0 ++ [l]) hv
        (forall₂_append hq (List.Forall₂.cons hk List.Forall₂.nil)) (by
          intro x hx
          rcases List.mem_append.1 hx with hx | hx
          · exact hm x hx
          · rw [List.mem_singleton.1 hx]; exact hml) (by simpa using hs)
      simp only [i1]
      exact ⟨s', out, by simp [replacement], by simpa using i2⟩
    · have hnm : (inheritPos s.queue l).inMoves = false := by
        cases hb : (inheritPos s.queue l).inMoves with
        | false => rfl
        | true => exact absurd (hmc.1 (by rw [hb]; rfl)) hml
      have hstep : ∃ v, v = false ∧ arcFilter ops s l = .ok ({ queue := [], validCircle := v }, .many (s.queue ++ [inheritPos s.queue l])) := by
        unfold arcFilter
        simp only
        by_cases hlen : minSegments < (s.queue ++ [inheritPos s.queue l]).length
        · rw [if_pos hlen, if_pos (by simp [hnm]), if_neg (by simp [hv])]
          exact ⟨s.validCircle, hv, rfl⟩
        · rw [if_neg hlen, if_neg (fun h => hml (hmc.1 h))]
          exact ⟨false, rfl, rfl⟩
      obtain ⟨v, hv', hstep⟩ := hstep
      rw [hstep]
      obtain ⟨s', out, i1, i2⟩ := fl v hv'
      simp only [i1]
      refine ⟨s', _, rfl, ?_⟩
      have := forall₂_append (forall₂_append hq (List.Forall₂.cons hk List.Forall₂.nil)) i2
      simpa [replacement] using this

/-- Succeeding on the flat program is succeeding layer by layer. -/
theorem filterLayers_of_flat {σ : Type} (f : OpFilter σ α) (Ls : List (Layer α)) : ∀ s s' out,
    filterLines f s (Ls.flatMap (·.lines)) = .ok (s', out) → ∃ Ls', filterLayers f s Ls = .ok (s', Ls') := by
  induction Ls with
  | nil =>
    intro s s' out h
    simp only [List.flatMap_nil, filterLines, Except.ok.injEq, Prod.mk.injEq] at h
    exact ⟨[], by rw [← h.1]; rfl⟩
  | cons L Ls ih =>
    intro s s' out h
    rw [List.flatMap_cons, filterLines_append] at h
    unfold filterLayers
    cases h1 : filterLines f s L.lines with
    | error e => rw [h1] at h; simp at h
    | ok p =>
      obtain ⟨s1, o1⟩ := p
      rw [h1] at h
      simp only at h
      cases h2 : filterLines f s1 (Ls.flatMap (·.lines)) with
      | error e => rw [h2] at h; simp at h
      | ok q =>
        obtain ⟨s2, o2⟩ := q
        rw [h2] at h
        simp only [Except.ok.injEq, Prod.mk.injEq] at h
        obtain ⟨Ls', h3⟩ := ih s1 s2 o2 h2
        simp only [h3]
        exact ⟨_, by rw [h.1]⟩

end GCodeUtils
