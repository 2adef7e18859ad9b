import Verif.Lemmas.Neighbour

/-
  The displacement of a point, from the lines the iterators visit.
-/

set_option linter.unusedSectionVars false

namespace GCodeUtils

open Spec

variable {α : Type} [Field α] [LinearOrder α] [IsStrictOrderedRing α] [FloorRing α]

theorem pathEnd_snoc (p : Cx α) (a : List (Cx α)) (q : Cx α) : pathEnd p (a ++ [q]) = q := by
  unfold pathEnd; simp

theorem pathEnd_cons (p q : Cx α) (a : List (Cx α)) : pathEnd p (q :: a) = pathEnd q a := by
  unfold pathEnd
  cases a with
  | nil => rfl
  | cons r a => simp [List.getLast?_cons]

theorem pathLen_snoc (sqrt : α → α) (q : Cx α) : ∀ (a : List (Cx α)) (p : Cx α), pathLen sqrt p (a ++ [q]) = pathLen sqrt p a + far sqrt (pathEnd p a) q := by
  intro a
  induction a with
  | nil => intro p; simp [pathLen, pathEnd]
  | cons r a ih =>
    intro p
    rw [List.cons_append, pathLen, ih, pathLen, pathEnd_cons]
    ring

theorem abs_far (sqrt : α → α) (p q : Cx α) : (p.sub q).abs sqrt = far sqrt p q := by
  unfold far Cx.abs Cx.sub
  simp

theorem div_ok {a : Cx α} {k : α} {v : Cx α} (h : a.div k = .ok v) : k ≠ 0 ∧ k * v.re = a.re ∧ k * v.im = a.im := by
  unfold Cx.div at h
  by_cases hk : k = 0
  · rw [if_pos hk] at h; cases h
  · rw [if_neg hk] at h
    cases h
    exact ⟨hk, mul_div_cancel₀ _ hk, mul_div_cancel₀ _ hk⟩

theorem relLoop_push {sqrt : α → α} {fuel : ℕ} {d : StretchDist α} {loc : Vec3 α} {kind : ItKind} {ls : List (PyLine α)} :
    ∀ {out : List (PyLine α)} {st : ItSt} (n : ℕ) (a : List (Cx α)) {v : Cx α}, Yields kind ls st out → pathLen sqrt ⟨loc.x, loc.y⟩ a < d.fromDist →
    relStretchLoop sqrt fuel d (some loc) kind ls ⟨loc.x, loc.y⟩ n st (pathEnd ⟨loc.x, loc.y⟩ a) (pathLen sqrt ⟨loc.x, loc.y⟩ a) (pathEnd ⟨loc.x, loc.y⟩ a) (pathLen sqrt ⟨loc.x, loc.y⟩ a) = .ok v →
    Push sqrt d.fromDist ⟨loc.x, loc.y⟩ (a ++ out.map (goal ⟨loc.x, loc.y⟩)) v := by
  intro out
  induction out with
  | nil =>
    intro st n a v hy hlt h
    cases n with
    | zero => cases h
    | succ n =>
      rw [relStretchLoop] at h
      cases hy with
      | stop hg =>
        have hne : getNext fuel kind ls st ≠ .error .outOfFuel := by
          intro hc; rw [hc] at h; cases h
        rw [gets_at hg hne] at h
        simp only [abs_far] at h
        rw [List.map_nil, List.append_nil]
        by_cases h0 : 0 < far sqrt ⟨loc.x, loc.y⟩ (pathEnd ⟨loc.x, loc.y⟩ a)
        · rw [if_pos h0] at h
          obtain ⟨_, h1, h2⟩ := div_ok h
          exact .short a v hlt h0 h1 h2
        · rw [if_neg h0] at h
          cases h
          exact .closed a hlt h0
  | cons l out ih =>
    intro st n a v hy hlt h
    cases n with
    | zero => cases h
    | succ n =>
      rw [relStretchLoop] at h
      cases hy with
      | @more _ _ st' _ hg hy' =>
        have hne : getNext fuel kind ls st ≠ .error .outOfFuel := by
          intro hc; rw [hc] at h; cases h
        rw [gets_at hg hne] at h
        simp only [abs_far] at h
        have hpt : pointOf (some loc) l = goal ⟨loc.x, loc.y⟩ l := rfl
        rw [hpt] at h
        have hlen := pathLen_snoc sqrt (goal ⟨loc.x, loc.y⟩ l) a ⟨loc.x, loc.y⟩
        by_cases hr : d.fromDist ≤ pathLen sqrt ⟨loc.x, loc.y⟩ a + far sqrt (pathEnd ⟨loc.x, loc.y⟩ a) (goal ⟨loc.x, loc.y⟩ l)
        · rw [if_pos hr] at h
          by_cases h0 : far sqrt (pathEnd ⟨loc.x, loc.y⟩ a) (goal ⟨loc.x, loc.y⟩ l) = 0
          · rw [if_pos h0] at h; cases h
          · rw [if_neg h0] at h
            obtain ⟨_, h1, h2⟩ := div_ok h
            refine .reached a (goal ⟨loc.x, loc.y⟩ l) (out.map (goal ⟨loc.x, loc.y⟩)) _ _ v hlt (by rw [hlen]; exact hr) (div_mul_cancel₀ _ h0) ?_ ?_ h1 h2
            · simp only [Cx.add, Cx.smul]; ring
            · simp only [Cx.add, Cx.smul]; ring
        · rw [if_neg hr] at h
          have := ih n (a ++ [goal ⟨loc.x, loc.y⟩ l]) (v := v) hy' (by rw [hlen]; exact not_le.1 hr) (by rw [pathEnd_snoc, hlen]; exact h)
          simpa using this

theorem rel_push {sqrt : α → α} {fuel : ℕ} {d : StretchDist α} {loc : Vec3 α} {kind : ItKind} {ls : List (PyLine α)} {start : ℤ} {out : List (PyLine α)} {v : Cx α}
    (hd : 0 < d.fromDist) (hy : Yields kind ls { idx := start } out) (h : relStretch sqrt fuel d (some loc) kind ls start ⟨loc.x, loc.y⟩ = .ok v) :
    Push sqrt d.fromDist ⟨loc.x, loc.y⟩ (out.map (goal ⟨loc.x, loc.y⟩)) v := by
  have := relLoop_push (a := []) fuel hy (by simpa [pathLen] using hd) h
  simpa using this

/-- The settings that come from an edge width. -/
def Proper (d : StretchDist α) : Prop := d.crossFraction = d.crossLimit / 3 ∧ d.crossRemainder = d.crossLimit - d.crossLimit / 3

theorem proper_width (repo : StretchRepo α) (w : α) : Proper (setEdgeWidth repo w) := ⟨rfl, rfl⟩

theorem cross_held {sqrt : α → α} {fuel : ℕ} {d : StretchDist α} (hp : Proper d) {loc : Vec3 α} {kind : ItKind} {ls : List (PyLine α)} {start : ℤ} {out : List (PyLine α)} {s s' : Cx α}
    (hy : Yields kind ls { idx := start } out) (h : crossLimited sqrt fuel d (some loc) kind ls start ⟨loc.x, loc.y⟩ s = .ok s') :
    match (out.map (goal ⟨loc.x, loc.y⟩)).head? with | some q => Held sqrt d.crossLimit ⟨loc.x, loc.y⟩ q s s' | none => s' = s := by
  unfold crossLimited at h
  have hne : getNext fuel kind ls { idx := start } ≠ .error .outOfFuel := by
    intro hc; rw [hc] at h; cases h
  cases hy with
  | stop hg =>
    rw [gets_at hg hne] at h
    cases h
    rfl
  | @more _ l st' out hg hy' =>
    rw [gets_at hg hne] at h
    simp only [abs_far] at h
    have hpt : pointOf (some loc) l = goal ⟨loc.x, loc.y⟩ l := rfl
    rw [hpt, hp.1] at h
    show Held sqrt d.crossLimit ⟨loc.x, loc.y⟩ (goal ⟨loc.x, loc.y⟩ l) s s'
    by_cases h1 : far sqrt ⟨loc.x, loc.y⟩ (goal ⟨loc.x, loc.y⟩ l) ≤ d.crossLimit / 3
    · rw [if_pos h1] at h
      cases h
      exact .inl ⟨h1, rfl⟩
    · rw [if_neg h1] at h
      right
      refine ⟨not_le.1 h1, ?_⟩
      generalize hq : Cx.div (Cx.sub ⟨loc.x, loc.y⟩ (goal ⟨loc.x, loc.y⟩ l)) (far sqrt ⟨loc.x, loc.y⟩ (goal ⟨loc.x, loc.y⟩ l)) = q at h
      cases q with
      | error er => cases h
      | ok u =>
        simp only at h
        obtain ⟨_, u1, u2⟩ := div_ok hq
        refine ⟨u.re, u.im, u1, u2, ?_⟩
        unfold acrossShare
        by_cases h2 : d.crossLimit < far sqrt ⟨loc.x, loc.y⟩ (goal ⟨loc.x, loc.y⟩ l)
        · rw [if_pos h2] at h
          rw [if_pos h2]
          cases h
          simp only [Cx.smul, Cx.dot]
          constructor <;> ring
        · rw [if_neg h2, hp.2] at h
          rw [if_neg h2]
          by_cases h3 : d.crossLimit - d.crossLimit / 3 = 0
          · rw [if_pos h3] at h; cases h
          · rw [if_neg h3] at h
            cases h
            simp only [Cx.smul, Cx.dot, Cx.add]
            constructor <;> ring

theorem displacement_pushed {sqrt : α → α} {fuel : ℕ} {d : StretchDist α} (hp : Proper d) (hd : 0 < d.fromDist) {loc : Vec3 α} {kf kb : ItKind} {ls : List (PyLine α)} {n : ℕ} {most : α}
    {ahead behind : List (PyLine α)} (ha : Yields kf ls { idx := (n : ℤ) + 1 } ahead) (hb : Yields kb ls { idx := (n : ℤ) - 1 } behind) {δ : Cx α}
    (h : displacement sqrt fuel d (some loc) kf kb ls n most ⟨loc.x, loc.y⟩ = .ok δ) :
    PushedBy sqrt d.fromDist d.crossLimit most ⟨loc.x, loc.y⟩ (ahead.map (goal ⟨loc.x, loc.y⟩)) (behind.map (goal ⟨loc.x, loc.y⟩)) δ := by
  unfold displacement at h
  simp only [bind, Except.bind] at h
  generalize h1 : relStretch sqrt fuel d (some loc) kf ls ((n : ℤ) + 1) ⟨loc.x, loc.y⟩ = r1 at h
  cases r1 with
  | error er => cases h
  | ok a =>
    simp only at h
    generalize h2 : relStretch sqrt fuel d (some loc) kb ls ((n : ℤ) - 1) ⟨loc.x, loc.y⟩ = r2 at h
    cases r2 with
    | error er => cases h
    | ok b =>
      simp only at h
      generalize h3 : crossLimited sqrt fuel d (some loc) kf ls ((n : ℤ) + 1) ⟨loc.x, loc.y⟩ (Cx.smul (8 / 10) (a.add b)) = r3 at h
      cases r3 with
      | error er => cases h
      | ok s1 =>
        simp only at h
        generalize h4 : crossLimited sqrt fuel d (some loc) kb ls ((n : ℤ) - 1) ⟨loc.x, loc.y⟩ s1 = r4 at h
        cases r4 with
        | error er => cases h
        | ok s2 =>
          simp only at h
          have e : s2.abs sqrt = far sqrt s2 ⟨0, 0⟩ := by unfold far Cx.abs; simp
          rw [e] at h
          have c1 := cross_held hp ha h3
          have c2 := cross_held hp hb h4
          by_cases h5 : 1 < far sqrt s2 ⟨0, 0⟩
          · rw [if_pos h5] at h
            generalize h6 : s2.div (far sqrt s2 ⟨0, 0⟩) = r5 at h
            cases r5 with
            | error er => cases h
            | ok s3 =>
              simp only [Except.ok.injEq] at h
              obtain ⟨_, k1, k2⟩ := div_ok h6
              refine ⟨a, b, s1, s2, s3, rel_push hd ha h1, rel_push hd hb h2, c1, c2, ?_, by rw [← h]; rfl, by rw [← h]; rfl⟩
              rw [if_pos h5]
              exact ⟨k1, k2⟩
          · rw [if_neg h5] at h
            simp only [Except.ok.injEq] at h
            refine ⟨a, b, s1, s2, s2, rel_push hd ha h1, rel_push hd hb h2, c1, c2, ?_, by rw [← h]; rfl, by rw [← h]; rfl⟩
            rw [if_neg h5]

end GCodeUtils
