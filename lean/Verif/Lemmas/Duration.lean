import Verif.Spec.Duration
import Verif.Lemmas.Analysis
import Verif.Lemmas.Commute

/-
  The duration estimate follows the reference printer.
-/

set_option linter.unusedSectionVars false

namespace GCodeUtils

open Spec

variable {α : Type} [Field α] [LinearOrder α] [IsStrictOrderedRing α] [FloorRing α]

/-- Time of one move between the speeds of the range. -/
theorem moveDuration_bounds {last f t T fmin fmax : α} (h0 : 0 < fmin) (h1 : 0 ≤ last) (h2 : last ≤ fmax) (h3 : fmin ≤ f) (h4 : f ≤ fmax)
    (ht : 0 ≤ t) (h : moveDuration last f t = .ok T) : t / fmax ≤ T ∧ T ≤ 2 * t / fmin := by
  have hf : 0 < f := lt_of_lt_of_le h0 h3
  have hM : 0 < fmax := lt_of_lt_of_le hf h4
  have lo : ∀ {s v : α}, 0 ≤ s → 0 < v → v ≤ fmax → s / fmax ≤ s / v := fun hs hv hle => div_le_div_of_nonneg_left hs hv hle
  have hi : ∀ {s v : α}, 0 ≤ s → fmin ≤ v → s / v ≤ s / fmin := fun hs hle => div_le_div_of_nonneg_left hs h0 hle
  unfold moveDuration at h
  by_cases he : f = last
  · rw [if_pos he, if_pos hf.ne'] at h
    obtain rfl := Except.ok.inj h
    refine ⟨lo ht hf h4, le_trans (hi ht h3) ?_⟩
    exact div_le_div_of_nonneg_right (by linarith) h0.le
  · rw [if_neg he] at h
    have hs : 0 < last + f := by linarith
    simp only at h
    generalize hd : 2 * |((last + f) * (f - last) * (1 / 2)) / (acceleration : α)| = d at h
    have hd0 : 0 ≤ d := by rw [← hd]; positivity
    by_cases hc : d ≤ t ∧ last + f ≠ 0 ∧ f ≠ 0
    · rw [if_pos hc] at h
      obtain rfl := Except.ok.inj h
      have a1 : d / fmax ≤ 2 * d / (last + f) := by
        rw [div_le_div_iff₀ hM hs]; nlinarith
      have a2 := lo (s := t - d) (by linarith [hc.1]) hf h4
      have a3 : 2 * d / (last + f) ≤ 2 * d / fmin := hi (by linarith) (by linarith)
      have a4 : (t - d) / f ≤ 2 * (t - d) / fmin :=
        le_trans (hi (by linarith [hc.1]) h3) (div_le_div_of_nonneg_right (by linarith [hc.1]) h0.le)
      have e1 : t / fmax = d / fmax + (t - d) / fmax := by rw [← add_div]; congr 1; ring
      have e2 : 2 * t / fmin = 2 * d / fmin + 2 * (t - d) / fmin := by rw [← add_div]; congr 1; ring
      rw [e1, e2]
      exact ⟨add_le_add a1 a2, add_le_add a3 a4⟩
    · rw [if_neg hc, if_neg hs.ne'] at h
      obtain rfl := Except.ok.inj h
      refine ⟨?_, hi (by linarith) (by linarith)⟩
      rw [div_le_div_iff₀ hM hs]; nlinarith

/-! ### sums along a program -/

theorem along_append (len : Printer α → PyLine α → α) (home : Pos3 α) (a b : List (PyLine α)) : ∀ p : Printer α,
    along len home p (a ++ b) = along len home p a + along len home (p.run home a) b := by
  induction a with
  | nil => intro p; simp [along, Printer.run]
  | cons l a ih => intro p; simp only [List.cons_append, along, ih]; rw [add_assoc]; rfl

theorem throughout_append (P : Printer α → PyLine α → Prop) (home : Pos3 α) (a b : List (PyLine α)) : ∀ p : Printer α,
    throughout P home p (a ++ b) ↔ throughout P home p a ∧ throughout P home (p.run home a) b := by
  induction a with
  | nil => intro p; simp [throughout, Printer.run]
  | cons l a ih => intro p; simp only [List.cons_append, throughout, ih, and_assoc]; rfl

/-! ### one line -/

/-- The estimate knows where the head is and its feed rate. -/
structure Follows (p : Printer α) (d : DurSt α) : Prop where
  abs : p.rel = false
  orgx : p.org.x = 0
  orgy : p.org.y = 0
  x : d.lastx = p.pos.x
  y : d.lasty = p.pos.y
  f : d.lastf * 60 = p.feed

/-- Lines that are neither moves nor relabel or switch to relative coordinates. -/
theorem exec_still {home : Pos3 α} {p : Printer α} {l : PyLine α} (hm : ¬ IsMove l) (h91 : ¬ HasCmd l c!"G91")
    (h92 : HasCmd l c!"G92" → l.x = none ∧ l.y = none) (h28 : HasCmd l c!"G28" → p.pos.x = home.x ∧ p.pos.y = home.y)
    (hr : p.rel = false) (hox : p.org.x = 0) (hoy : p.org.y = 0) :
    (p.exec home l).rel = false ∧ (p.exec home l).org.x = 0 ∧ (p.exec home l).org.y = 0 ∧ (p.exec home l).pos.x = p.pos.x ∧
    (p.exec home l).pos.y = p.pos.y ∧ (p.exec home l).feed = p.feed := by
  unfold Printer.exec
  cases hc : l.command with
  | none => exact ⟨hr, hox, hoy, rfl, rfl, rfl⟩
  | some cmd =>
    have hm' : cmd ∉ [c!"G0", c!"G1", c!"G2", c!"G3"] := fun h => hm ⟨cmd, h, hc⟩
    simp only
    rw [if_neg hm']
    by_cases c1 : cmd = c!"G20"
    · rw [if_pos c1]; exact ⟨hr, hox, hoy, rfl, rfl, rfl⟩
    rw [if_neg c1]
    by_cases c2 : cmd = c!"G21"
    · rw [if_pos c2]; exact ⟨hr, hox, hoy, rfl, rfl, rfl⟩
    rw [if_neg c2]
    by_cases c3 : cmd = c!"G28"
    · rw [if_pos c3]
      obtain ⟨e1, e2⟩ := h28 (by rw [HasCmd, hc, c3])
      refine ⟨hr, ?_, ?_, ?_, ?_, rfl⟩ <;> simp only [Printer.homeAxes] <;> split
      · rfl
      · exact hox
      · rfl
      · exact hoy
      · exact e1.symm
      · rfl
      · exact e2.symm
      · rfl
    rw [if_neg c3]
    by_cases c4 : cmd = c!"G90"
    · rw [if_pos c4]; exact ⟨rfl, hox, hoy, rfl, rfl, rfl⟩
    rw [if_neg c4, if_neg (fun h => h91 (by rw [HasCmd, hc, h]))]
    by_cases c5 : cmd = c!"G92"
    · rw [if_pos c5]
      obtain ⟨e1, e2⟩ := h92 (by rw [HasCmd, hc, c5])
      rw [e1, e2]
      exact ⟨hr, hox, hoy, rfl, rfl, rfl⟩
    rw [if_neg c5]
    by_cases c6 : cmd = c!"M82"
    · rw [if_pos c6]; exact ⟨hr, hox, hoy, rfl, rfl, rfl⟩
    rw [if_neg c6]
    by_cases c7 : cmd = c!"M83"
    · rw [if_pos c7]; exact ⟨hr, hox, hoy, rfl, rfl, rfl⟩
    rw [if_neg c7]
    split <;> exact ⟨hr, hox, hoy, rfl, rfl, rfl⟩

theorem exec_moves {home : Pos3 α} {p : Printer α} {l : PyLine α} (hm : IsMove l) : p.exec home l = p.moveTo l.x l.y l.z l.e l.f := by
  obtain ⟨c, hc, hl⟩ := hm
  unfold Printer.exec
  rw [hl]
  simp only
  rw [if_pos hc]

theorem axis_abs {pos org : α} (h : org = 0) (v : Option α) : axis false pos org v = v.getD pos := by
  cases v with
  | none => rfl
  | some k => simp [axis, h]

theorem dwell_step {l : PyLine α} {v : Option α} (h : (findSpecificCode l.raw 'P' : Except Err (Option α)) = .ok v) (h4 : HasCmd l c!"G4") :
    dwell l = v.getD 0 / 1000 := by
  unfold dwell
  rw [if_pos h4]
  unfold findSpecificCode at h
  unfold dwellWords
  cases hw : findSpecificAux 'P' 0 l.raw with
  | nil =>
    rw [hw] at h
    obtain rfl := Except.ok.inj h
    simp
  | cons w ws =>
    rw [hw] at h
    simp only at h ⊢
    cases hf : (parseFloat w : Option α) with
    | none => rw [hf] at h; simp at h
    | some a => rw [hf] at h; simp only [Except.ok.injEq] at h; rw [← h]

/-- One line of the estimate. -/
theorem stepDur_follows {env : Env α} (henv : ∀ a b, 0 ≤ env.hypot a b) {home : Pos3 α} {p : Printer α} {d d' : DurSt α} {l : PyLine α} {fmin fmax : α}
    (h0 : 0 < fmin) (hF : Follows p d) (hlo : 0 ≤ d.lastf) (hhi : d.lastf * 60 ≤ fmax) (hs : Steady home fmin fmax p l) (h : stepDur env d l = .ok d') :
    Follows (p.exec home l) d' ∧ 0 ≤ d'.lastf ∧ d'.lastf * 60 ≤ fmax ∧
    d.total + (60 * lengthXY env.hypot home p l / fmax + dwell l) ≤ d'.total ∧
    (IsMove l → d'.total ≤ d.total + 2 * (60 * moveTravel env d l (l.x.getD d.lastx - d.lastx) (l.y.getD d.lasty - d.lasty)) / fmin) ∧
    (¬ IsMove l → d'.total = d.total + dwell l) ∧
    (IsMove l → lengthXY env.hypot home p l = env.hypot (l.x.getD d.lastx - d.lastx) (l.y.getD d.lasty - d.lasty)) := by
  obtain ⟨n2, n3, n91, n92, n28, hfeed⟩ := hs
  by_cases hm : IsMove l
  · have h01 : (l.isCmd c!"G0" || l.isCmd c!"G1") = true := by
      obtain ⟨c, hc, hl⟩ := hm
      simp only [List.mem_cons, List.not_mem_nil, or_false] at hc
      simp only [Bool.or_eq_true, isCmd_iff, HasCmd, hl]
      rcases hc with rfl | rfl | rfl | rfl
      · exact .inl rfl
      · exact .inr rfl
      · exact absurd hl n2
      · exact absurd hl n3
    have h4 : ¬ HasCmd l c!"G4" := fun h => not_move_cmd (by decide) h hm
    obtain ⟨f1, f2⟩ := hfeed hm
    rw [exec_moves hm] at f1 f2 ⊢
    have key : ∃ f, f * 60 = (p.moveTo l.x l.y l.z l.e l.f).feed ∧
        (match moveDuration (if (l.x.getD d.lastx - d.lastx) * d.lastdx + (l.y.getD d.lasty - d.lasty) * d.lastdy ≤ 0 then 0 else d.lastf) f
            (moveTravel env d l (l.x.getD d.lastx - d.lastx) (l.y.getD d.lasty - d.lasty)) with
         | .error er => .error er
         | .ok t => .ok { lastx := l.x.getD d.lastx, lasty := l.y.getD d.lasty, lastz := l.z.getD d.lastz, laste := l.e.getD d.laste, lastf := f, lastdx := l.x.getD d.lastx - d.lastx, lastdy := l.y.getD d.lasty - d.lasty, total := d.total + t, layerBegin := d.layerBegin }) =
        (Except.ok d' : Except Err (DurSt α)) := by
      unfold stepDur at h
      rw [if_pos h01] at h
      simp only at h
      cases hlf : l.f with
      | none => rw [hlf] at h; exact ⟨d.lastf, hF.f, h⟩
      | some k => rw [hlf] at h; exact ⟨k / 60, by simp [Printer.moveTo], h⟩
    clear h
    obtain ⟨f, hfeq, h⟩ := key
    rw [← hfeq] at f1 f2
    generalize hll : (if (l.x.getD d.lastx - d.lastx) * d.lastdx + (l.y.getD d.lasty - d.lasty) * d.lastdy ≤ 0 then 0 else d.lastf) = last at h
    have hl0 : 0 ≤ last := by rw [← hll]; split_ifs; exacts [le_refl _, hlo]
    have hl1 : last ≤ fmax / 60 := by
      rw [← hll, le_div_iff₀ (by norm_num)]
      split_ifs
      · rw [zero_mul]; exact le_trans (mul_nonneg hlo (by norm_num)) hhi
      · exact hhi
    cases hd : moveDuration last f (moveTravel env d l (l.x.getD d.lastx - d.lastx) (l.y.getD d.lasty - d.lasty)) with
    | error er => rw [hd] at h; simp at h
    | ok T =>
      rw [hd] at h
      simp only [Except.ok.injEq] at h
      subst h
      have ht0 := moveTravel_nonneg henv d l (l.x.getD d.lastx - d.lastx) (l.y.getD d.lasty - d.lasty)
      obtain ⟨b1, b2⟩ := moveDuration_bounds (fmin := fmin / 60) (fmax := fmax / 60) (by positivity) hl0 hl1
        (by rw [div_le_iff₀ (by norm_num)]; exact f1) (by rw [le_div_iff₀ (by norm_num)]; exact f2) ht0 hd
      have ex : axis p.rel p.pos.x p.org.x l.x = l.x.getD d.lastx := by rw [hF.abs, axis_abs hF.orgx, hF.x]
      have ey : axis p.rel p.pos.y p.org.y l.y = l.y.getD d.lasty := by rw [hF.abs, axis_abs hF.orgy, hF.y]
      have hlen : lengthXY env.hypot home p l = env.hypot (l.x.getD d.lastx - d.lastx) (l.y.getD d.lasty - d.lasty) := by
        unfold lengthXY
        rw [if_pos hm, exec_moves hm]
        simp only [Printer.moveTo]
        rw [ex, ey, ← hF.x, ← hF.y]
      refine ⟨⟨hF.abs, hF.orgx, hF.orgy, ex.symm, ey.symm, hfeq⟩, ?_, f2, ?_, fun _ => ?_, fun k => absurd hm k, fun _ => hlen⟩
      · have : 0 < f * 60 := lt_of_lt_of_le h0 f1
        linarith
      · rw [hlen]
        have hge : env.hypot (l.x.getD d.lastx - d.lastx) (l.y.getD d.lasty - d.lasty) ≤
            moveTravel env d l (l.x.getD d.lastx - d.lastx) (l.y.getD d.lasty - d.lasty) := by
          have hn := ht0
          unfold moveTravel at hn ⊢
          simp only at hn ⊢
          by_cases hz : env.hypot (l.x.getD d.lastx - d.lastx) (l.y.getD d.lasty - d.lasty) = 0
          · rw [if_pos hz] at hn ⊢; exact le_trans hz.le hn
          · rw [if_neg hz]
        have hM : 0 < fmax := lt_of_lt_of_le h0 (le_trans f1 f2)
        have hdw : dwell l = 0 := by unfold dwell; rw [if_neg h4]
        have e1 : 60 * env.hypot (l.x.getD d.lastx - d.lastx) (l.y.getD d.lasty - d.lasty) / fmax =
            env.hypot (l.x.getD d.lastx - d.lastx) (l.y.getD d.lasty - d.lasty) / (fmax / 60) := by field_simp
        rw [hdw, e1, add_zero]
        exact add_le_add (le_refl _) (le_trans (div_le_div_of_nonneg_right hge (by positivity)) b1)
      · have e2 : ∀ t : α, 2 * (60 * t) / fmin = 2 * t / (fmin / 60) := by intro t; field_simp
        rw [e2]
        exact add_le_add (le_refl _) b2
  · have hlen : lengthXY env.hypot home p l = 0 := by unfold lengthXY; rw [if_neg hm]
    obtain ⟨e1, e2, e3, e4, e5, e6⟩ := exec_still hm n91 n92 n28 hF.abs hF.orgx hF.orgy
    have keep : ∀ t : α, Follows (p.exec home l) { d with total := t } := fun t =>
      ⟨e1, e2, e3, by rw [e4]; exact hF.x, by rw [e5]; exact hF.y, by rw [e6]; exact hF.f⟩
    have n0 : ¬ ((l.isCmd c!"G0" || l.isCmd c!"G1") = true) := by
      simp only [Bool.or_eq_true, isCmd_iff]
      rintro (h | h)
      · exact hm ⟨_, by decide, h⟩
      · exact hm ⟨_, by decide, h⟩
    unfold stepDur at h
    rw [if_neg n0] at h
    have fin : d'.total = d.total + dwell l ∧ d' = { d with total := d'.total } := by
      by_cases h4 : l.isCmd c!"G4" = true
      · rw [if_pos h4] at h
        cases hv : (findSpecificCode l.raw 'P' : Except Err (Option α)) with
        | error er => rw [hv] at h; simp at h
        | ok v =>
          rw [dwell_step hv ((isCmd_iff l _).1 h4)]
          rw [hv] at h
          cases v with
          | none => simp only [Except.ok.injEq] at h; subst h; exact ⟨by simp, rfl⟩
          | some q =>
            simp only [Except.ok.injEq] at h
            by_cases hq : q ≠ 0
            · rw [if_pos hq] at h; subst h; exact ⟨rfl, rfl⟩
            · rw [if_neg hq] at h; subst h
              rw [not_not] at hq
              exact ⟨by simp [hq], rfl⟩
      · rw [if_neg h4] at h
        simp only [Except.ok.injEq] at h
        subst h
        refine ⟨?_, rfl⟩
        unfold dwell
        rw [if_neg (fun k => h4 ((isCmd_iff l _).2 k)), add_zero]
    obtain ⟨g1, g2⟩ := fin
    refine ⟨?_, ?_, ?_, ?_, fun k => absurd k hm, fun _ => g1, fun k => absurd k hm⟩
    · rw [g2]; exact keep _
    · rw [g2]; exact hlo
    · rw [g2]; exact hhi
    · rw [hlen, g1]; simp

/-! ### modes recorded with the lines -/

theorem exec_modes (home : Pos3 α) (p : Printer α) {l : PyLine α} {cmd : Str} (hc : l.command = some cmd) (hm : ¬ IsMove l) :
    (p.exec home l).rel = (if cmd = c!"G90" then false else if cmd = c!"G91" then true else p.rel) ∧
    (p.exec home l).relE = (if cmd = c!"G90" then false else if cmd = c!"G91" then true else if cmd = c!"M82" then false
      else if cmd = c!"M83" then true else p.relE) := by
  have hm' : cmd ∉ [c!"G0", c!"G1", c!"G2", c!"G3"] := fun h => hm ⟨cmd, h, hc⟩
  unfold Printer.exec
  rw [hc]
  simp only
  rw [if_neg hm']
  by_cases c1 : cmd = c!"G20"
  · subst c1; exact ⟨rfl, rfl⟩
  rw [if_neg c1]
  by_cases c2 : cmd = c!"G21"
  · subst c2; exact ⟨rfl, rfl⟩
  rw [if_neg c2]
  by_cases c3 : cmd = c!"G28"
  · subst c3; exact ⟨rfl, rfl⟩
  rw [if_neg c3]
  by_cases c4 : cmd = c!"G90"
  · subst c4; exact ⟨rfl, rfl⟩
  by_cases c5 : cmd = c!"G91"
  · subst c5; exact ⟨rfl, rfl⟩
  by_cases c6 : cmd = c!"G92"
  · subst c6; exact ⟨rfl, rfl⟩
  by_cases c7 : cmd = c!"M82"
  · subst c7; exact ⟨rfl, rfl⟩
  by_cases c8 : cmd = c!"M83"
  · subst c8; exact ⟨rfl, rfl⟩
  simp only [if_neg c4, if_neg c5, if_neg c6, if_neg c7, if_neg c8]
  split <;> exact ⟨rfl, rfl⟩

theorem stepModes_modes {m m' : Machine α} {l l' : PyLine α} {cmd : Str} (h : stepModes m l cmd = .ok (m', l')) (hm : l.isMove = false) :
    m'.relative = (if cmd = c!"G90" then false else if cmd = c!"G91" then true else m.relative) ∧
    m'.relativeE = (if cmd = c!"G90" then false else if cmd = c!"G91" then true else if cmd = c!"M82" then false
      else if cmd = c!"M83" then true else m.relativeE) := by
  unfold stepModes at h
  rw [if_neg (by rw [hm]; decide)] at h
  by_cases c1 : cmd = c!"G20"
  · rw [if_pos c1] at h; simp only [Except.ok.injEq, Prod.mk.injEq] at h; rw [← h.1]; subst c1; exact ⟨rfl, rfl⟩
  rw [if_neg c1] at h
  by_cases c2 : cmd = c!"G21"
  · rw [if_pos c2] at h; simp only [Except.ok.injEq, Prod.mk.injEq] at h; rw [← h.1]; subst c2; exact ⟨rfl, rfl⟩
  rw [if_neg c2] at h
  by_cases c4 : cmd = c!"G90"
  · rw [if_pos c4] at h; simp only [Except.ok.injEq, Prod.mk.injEq] at h; rw [← h.1]; subst c4; exact ⟨rfl, rfl⟩
  by_cases c5 : cmd = c!"G91"
  · rw [if_neg c4, if_pos c5] at h; simp only [Except.ok.injEq, Prod.mk.injEq] at h; rw [← h.1]; subst c5; exact ⟨rfl, rfl⟩
  by_cases c7 : cmd = c!"M82"
  · rw [if_neg c4, if_neg c5, if_pos c7] at h; simp only [Except.ok.injEq, Prod.mk.injEq] at h; rw [← h.1]; subst c7; exact ⟨rfl, rfl⟩
  by_cases c8 : cmd = c!"M83"
  · rw [if_neg c4, if_neg c5, if_neg c7, if_pos c8] at h; simp only [Except.ok.injEq, Prod.mk.injEq] at h; rw [← h.1]; subst c8; exact ⟨rfl, rfl⟩
  rw [if_neg c4, if_neg c5, if_neg c7, if_neg c8] at h
  simp only [if_neg c4, if_neg c5, if_neg c7, if_neg c8]
  by_cases c9 : cmd.head? = some 'T'
  · rw [if_pos c9] at h
    cases hp : parseInt cmd.tail with
    | none => rw [hp] at h; cases h
    | some t => rw [hp] at h; simp only [Except.ok.injEq, Prod.mk.injEq] at h; rw [← h.1]; exact ⟨rfl, rfl⟩
  · rw [if_neg c9] at h; simp only [Except.ok.injEq, Prod.mk.injEq] at h; rw [← h.1]; exact ⟨rfl, rfl⟩

theorem stepPos_modes (home : Home α) (m : Machine α) (l : PyLine α) (cmd : Str) :
    (stepPos home m l cmd).relative = m.relative ∧ (stepPos home m l cmd).relativeE = m.relativeE := by
  unfold stepPos
  split_ifs
  · exact ⟨rfl, rfl⟩
  · simp only
    split_ifs <;> exact ⟨rfl, rfl⟩
  · simp only
    cases l.x <;> cases l.y <;> cases l.z <;> exact ⟨rfl, rfl⟩
  · exact ⟨rfl, rfl⟩

/-- The modes of the loader are those of the printer, and moves record them. -/
theorem process_modes {home : Home α} {m m' : Machine α} {r : Str} {l : PyLine α} (hp : processLine home m { raw := r } = .ok (m', l))
    (hm' : Pos3 α) (p : Printer α) (h1 : m.relative = p.rel) (h2 : m.relativeE = p.relE) :
    m'.relative = (p.exec hm' l).rel ∧ m'.relativeE = (p.exec hm' l).relE ∧ (IsMove l → l.relative = some p.rel ∧ l.relativeE = some p.relE) := by
  obtain ⟨_, hcmd, him⟩ := processLine_keeps hp
  have himv : (split ({ raw := r } : PyLine α)).1.isMove = true ↔ IsMove l := by
    rw [split_isMove, inMoves_iff, isMove_congr hcmd]
  clear him
  rcases processLine_ok hp with ⟨hc, rfl, rfl⟩ | ⟨cmd, hc, hne, m1, l1, l2, m3, l3, g1, g2, g3, rfl, rfl⟩
  · have hn : ¬ IsMove (split ({ raw := r } : PyLine α)).1 := by
      rintro ⟨c, hm, h⟩
      rcases hc with hc | hc
      · rw [hc] at h; simp at h
      · rw [hc] at h
        obtain rfl := Option.some.inj h
        simp at hm
    refine ⟨?_, ?_, fun h => absurd h hn⟩
    · rcases hc with hc | hc
      · simp only [Printer.exec, hc]; exact h1
      · rw [(exec_modes hm' p hc hn).1]; exact h1
    · rcases hc with hc | hc
      · simp only [Printer.exec, hc]; exact h2
      · rw [(exec_modes hm' p hc hn).2]; exact h2
  · obtain ⟨te, ce, me, oe, ex, h4⟩ := stepExtrusion_shape (stepPos home m1 l2 cmd) (stamp (stepPos home m1 l2 cmd) l2) cmd
    rw [h4] at g3
    simp only [Prod.mk.injEq] at g3
    obtain ⟨rfl, rfl⟩ := g3
    obtain ⟨s1, s2⟩ := stepPos_modes home m1 l2 cmd
    obtain ⟨x, y, z, e, f, i, j, h5⟩ := ite_coords_argsOnly g2
    rw [hc] at hcmd
    rcases stepModes_shape g1 with ⟨mv, rfl, e2⟩ | ⟨mv, e2, _⟩
    · have hM := himv.1 mv
      rw [exec_moves hM]
      refine ⟨s1.trans ?_, s2.trans ?_, ?_⟩
      rotate_left 2
      · intro _
        simp only [stamp]
        rw [h5, e2]
        exact ⟨congrArg some h1, congrArg some h2⟩
      · exact h1
      · exact h2
    · have hn := mt himv.2 (by rw [mv]; decide)
      obtain ⟨a1, a2⟩ := exec_modes hm' p hcmd hn
      obtain ⟨b1, b2⟩ := stepModes_modes g1 mv
      rw [a1, a2, ← h1, ← h2]
      exact ⟨s1.trans b1, s2.trans b2, fun h => absurd h hn⟩

/-! ### height and filament -/

/-- The estimate knows the height and the filament. -/
structure FollowsZE (p : Printer α) (d : DurSt α) : Prop where
  orgz : p.org.z = 0
  eOrg : p.eOrg = 0
  z : d.lastz = p.pos.z
  e : p.relE = false → d.laste = p.e

theorem moveTravel_length {env : Env α} {home : Pos3 α} {p : Printer α} {d : DurSt α} {l : PyLine α} (hm : IsMove l) (hF : Follows p d) (hZ : FollowsZE p d)
    (h1 : l.relative = some p.rel) (h2 : l.relativeE = some p.relE)
    (hlen : lengthXY env.hypot home p l = env.hypot (l.x.getD d.lastx - d.lastx) (l.y.getD d.lasty - d.lasty)) :
    moveTravel env d l (l.x.getD d.lastx - d.lastx) (l.y.getD d.lasty - d.lasty) = lengthXYZE env.hypot home p l := by
  unfold lengthXYZE moveTravel
  rw [if_pos hm, hlen, h1, h2, hF.abs, exec_moves hm]
  generalize env.hypot (l.x.getD d.lastx - d.lastx) (l.y.getD d.lasty - d.lasty) = t
  simp only
  by_cases ht : t = 0
  · rw [if_pos ht, if_neg (not_not.2 ht)]
    cases hz : l.z with
    | some z =>
      rw [if_pos (by simp)]
      simp [Printer.moveTo, hF.abs, axis, hZ.orgz, hZ.z]
    | none =>
      rw [if_neg (by simp)]
      cases he : l.e with
      | none => simp [Printer.moveTo, Printer.push, ht]
      | some e =>
        cases hr : p.relE with
        | true => simp [Printer.moveTo, Printer.push, axis, hr]
        | false => simp [Printer.moveTo, Printer.push, axis, hr, hZ.eOrg, hZ.e hr]
  · rw [if_neg ht, if_pos ht]

theorem stepDur_last {env : Env α} {d d' : DurSt α} {l : PyLine α} (h : stepDur env d l = .ok d') :
    ((HasCmd l c!"G0" ∨ HasCmd l c!"G1") → d'.lastz = l.z.getD d.lastz ∧ d'.laste = l.e.getD d.laste) ∧
    (¬ (HasCmd l c!"G0" ∨ HasCmd l c!"G1") → d'.lastz = d.lastz ∧ d'.laste = d.laste) := by
  unfold stepDur at h
  constructor
  · intro hm
    rw [if_pos (by simpa [isCmd_iff] using hm)] at h
    simp only at h
    split at h
    · cases h
    · obtain rfl := Except.ok.inj h
      exact ⟨rfl, rfl⟩
  · intro hm
    rw [if_neg (by simpa [isCmd_iff] using hm)] at h
    split_ifs at h
    · split at h
      · cases h
      · obtain rfl := Except.ok.inj h
        exact ⟨rfl, rfl⟩
      · obtain rfl := Except.ok.inj h
        split_ifs <;> exact ⟨rfl, rfl⟩
    · obtain rfl := Except.ok.inj h
      exact ⟨rfl, rfl⟩

theorem followsZE_still {home : Pos3 α} {p : Printer α} {l : PyLine α} {d : DurSt α} (hm : ¬ IsMove l) (hz : SteadyZE home p l) (h : FollowsZE p d) :
    FollowsZE (p.exec home l) d := by
  obtain ⟨n92, n28, nE⟩ := hz
  unfold Printer.exec
  cases hc : l.command with
  | none => exact h
  | some cmd =>
    have hm' : cmd ∉ [c!"G0", c!"G1", c!"G2", c!"G3"] := fun h => hm ⟨cmd, h, hc⟩
    simp only
    rw [if_neg hm']
    by_cases c1 : cmd = c!"G20"
    · rw [if_pos c1]; exact ⟨h.orgz, h.eOrg, h.z, h.e⟩
    rw [if_neg c1]
    by_cases c2 : cmd = c!"G21"
    · rw [if_pos c2]; exact ⟨h.orgz, h.eOrg, h.z, h.e⟩
    rw [if_neg c2]
    by_cases c3 : cmd = c!"G28"
    · rw [if_pos c3]
      have e1 := n28 (by rw [HasCmd, hc, c3])
      refine ⟨?_, h.eOrg, ?_, h.e⟩ <;> simp only [Printer.homeAxes] <;> split
      · rfl
      · exact h.orgz
      · rw [h.z, e1]
      · exact h.z
    rw [if_neg c3]
    by_cases c4 : cmd = c!"G90"
    · rw [if_pos c4]; exact ⟨h.orgz, h.eOrg, h.z, fun _ => h.e (nE (.inr (by rw [HasCmd, hc, c4])))⟩
    rw [if_neg c4]
    by_cases c5 : cmd = c!"G91"
    · rw [if_pos c5]; exact ⟨h.orgz, h.eOrg, h.z, fun k => absurd k (by simp)⟩
    rw [if_neg c5, if_neg (fun h => n92 (by rw [HasCmd, hc, h]))]
    by_cases c6 : cmd = c!"M82"
    · rw [if_pos c6]; exact ⟨h.orgz, h.eOrg, h.z, fun _ => h.e (nE (.inl (by rw [HasCmd, hc, c6])))⟩
    rw [if_neg c6]
    by_cases c7 : cmd = c!"M83"
    · rw [if_pos c7]; exact ⟨h.orgz, h.eOrg, h.z, fun k => absurd k (by simp)⟩
    rw [if_neg c7]
    split <;> exact ⟨h.orgz, h.eOrg, h.z, h.e⟩

theorem stepDur_followsZE {env : Env α} {home : Pos3 α} {p : Printer α} {d d' : DurSt α} {l : PyLine α}
    (hF : Follows p d) (hZ : FollowsZE p d) (n2 : ¬ HasCmd l c!"G2") (n3 : ¬ HasCmd l c!"G3") (hz : SteadyZE home p l)
    (h : stepDur env d l = .ok d') : FollowsZE (p.exec home l) d' := by
  obtain ⟨h1, h2⟩ := stepDur_last h
  have hiff : IsMove l ↔ (HasCmd l c!"G0" ∨ HasCmd l c!"G1") := by
    constructor
    · rintro ⟨c, hc, hl⟩
      simp only [List.mem_cons, List.not_mem_nil, or_false] at hc
      rcases hc with rfl | rfl | rfl | rfl
      · exact .inl hl
      · exact .inr hl
      · exact absurd hl n2
      · exact absurd hl n3
    · rintro (k | k)
      · exact ⟨_, by decide, k⟩
      · exact ⟨_, by decide, k⟩
  by_cases hm : IsMove l
  · obtain ⟨a, b⟩ := h1 (hiff.1 hm)
    rw [exec_moves hm]
    refine ⟨hZ.orgz, hZ.eOrg, ?_, fun hr => ?_⟩
    · rw [a, hZ.z]
      simp only [Printer.moveTo]
      rw [hF.abs, axis_abs hZ.orgz]
    · have hr' : p.relE = false := hr
      rw [b, hZ.e hr']
      simp only [Printer.moveTo]
      cases l.e with
      | none => simp [Printer.push]
      | some e => simp [Printer.push, axis, hr', hZ.eOrg]
  · obtain ⟨a, b⟩ := h2 (mt hiff.2 hm)
    have := followsZE_still hm hz hZ
    exact ⟨this.orgz, this.eOrg, by rw [a]; exact this.z, fun k => by rw [b]; exact this.e k⟩

/-! ### the whole program -/

/-- Total of the dwells. -/
theorem along_dwell (home : Pos3 α) (ls : List (PyLine α)) : ∀ p : Printer α, along (fun _ l => dwell l) home p ls = (ls.map dwell).sum := by
  induction ls with
  | nil => intro p; rfl
  | cons l ls ih => intro p; simp [along, ih]

/-- What the estimate knows after the lines `done`. -/
structure DurInv (env : Env α) (home : Pos3 α) (fmin fmax : α) (ze : Bool) (s : BuildSt α) : Prop where
  xy : Follows (Printer.start.run home s.done) s.ds
  lo : 0 ≤ s.ds.lastf
  hi : s.ds.lastf * 60 ≤ fmax
  lower : 60 * along (lengthXY env.hypot home) home Printer.start s.done / fmax + (s.done.map dwell).sum ≤ s.ds.total
  rel : s.m.relative = (Printer.start.run home s.done).rel
  relE : s.m.relativeE = (Printer.start.run home s.done).relE
  z : ze = true → FollowsZE (Printer.start.run home s.done) s.ds
  upper : ze = true → s.ds.total ≤ 2 * (60 * along (lengthXYZE env.hypot home) home Printer.start s.done) / fmin + (s.done.map dwell).sum

theorem Follows.total {p : Printer α} {d : DurSt α} (h : Follows p d) (q : α) : Follows p { d with layerBegin := q } :=
  ⟨h.abs, h.orgx, h.orgy, h.x, h.y, h.f⟩

theorem run_snoc (home : Pos3 α) (p : Printer α) (a : List (PyLine α)) (l : PyLine α) : p.run home (a ++ [l]) = (p.run home a).exec home l := by
  simp [Printer.run]

theorem durInv_step {env : Env α} (henv : ∀ a b, 0 ≤ env.hypot a b) {hm : Home α} {home : Pos3 α} {fmin fmax : α} (h0 : 0 < fmin) {ze : Bool}
    {s s' : BuildSt α} {r : Str} (hI : DurInv env home fmin fmax ze s) (h : buildStep env false hm s { raw := r } = .ok s')
    (hs : throughout (Steady home fmin fmax) home Printer.start s'.done) (hz : ze = true → throughout (SteadyZE home) home Printer.start s'.done) :
    DurInv env home fmin fmax ze s' := by
  obtain ⟨m, l, hp, hcase⟩ := buildStep_ok h
  obtain ⟨q1, q2, q3⟩ := process_modes hp home _ hI.rel hI.relE
  have hdone : s'.done = s.done ++ [l] := by
    rcases hcase with ⟨_, rfl⟩ | ⟨_, _, _, _, _, rfl⟩ <;> rfl
  rw [hdone, throughout_append] at hs
  rw [hdone] at hz
  obtain ⟨_, hst, _⟩ := hs
  have hzt : ze = true → SteadyZE home (Printer.start.run home s.done) l := fun k => ((throughout_append _ _ _ _ _).1 (hz k)).2.1
  have hlenL : ∀ len : Printer α → PyLine α → α, along len home Printer.start (s.done ++ [l]) =
      along len home Printer.start s.done + len (Printer.start.run home s.done) l := by
    intro len; rw [along_append]; simp [along]
  have hdw : ((s.done ++ [l]).map dwell).sum = (s.done.map dwell).sum + dwell l := by simp
  have hmr : s'.m = m := by
    rcases hcase with ⟨_, rfl⟩ | ⟨_, _, _, _, _, rfl⟩ <;> rfl
  -- the duration state after the line
  have hds : ∃ d', (stepDur env s.ds l = .ok d') ∧ ∃ q, s'.ds = { d' with layerBegin := q } := by
    rcases hcase with ⟨hc, rfl⟩ | ⟨cmd, ds, hc, _, hd, rfl⟩
    · refine ⟨s.ds, ?_, s.ds.layerBegin, rfl⟩
      unfold stepDur
      have nc : ∀ c : Str, c ≠ [] → ¬ (l.isCmd c = true) := by
        intro c hne k
        rw [isCmd_iff] at k
        rcases hc with hc | hc <;> rw [HasCmd, hc] at k
        · cases k
        · exact hne (Option.some.inj k).symm
      have n0 := nc c!"G0" (by decide)
      have n1 := nc c!"G1" (by decide)
      have n4 := nc c!"G4" (by decide)
      rw [if_neg (by simp only [Bool.or_eq_true]; rintro (k | k); exacts [n0 k, n1 k]), if_neg n4]
    · refine ⟨ds, hd, ?_⟩
      dsimp only
      split_ifs
      · exact ⟨_, rfl⟩
      · exact ⟨_, rfl⟩
  obtain ⟨d', hd, q, hq⟩ := hds
  obtain ⟨k1, k2, k3, k4, k5, k6, k7⟩ := stepDur_follows henv h0 hI.xy hI.lo hI.hi hst hd
  refine ⟨?_, ?_, ?_, ?_, ?_, ?_, fun hze => ?_, fun hze => ?_⟩
  · rw [hdone, run_snoc, hq]; exact k1.total q
  · rw [hq]; exact k2
  · rw [hq]; exact k3
  · rw [hdone, hlenL, hdw, hq]
    refine le_trans (le_of_eq ?_) (le_trans (add_le_add hI.lower (le_refl _)) k4)
    rw [mul_add, add_div]; ring
  · rw [hdone, run_snoc, hmr]; exact q1
  · rw [hdone, run_snoc, hmr]; exact q2
  · rw [hdone, run_snoc, hq]
    have := stepDur_followsZE hI.xy (hI.z hze) hst.1 hst.2.1 (hzt hze) hd
    exact ⟨this.orgz, this.eOrg, this.z, this.e⟩
  · rw [hdone, hlenL, hdw, hq]
    have hu := hI.upper hze
    show d'.total ≤ _
    by_cases hmv : IsMove l
    · have e0 : dwell l = 0 := by
        unfold dwell; rw [if_neg (fun h => not_move_cmd (by decide) h hmv)]
      have e1 := moveTravel_length hmv hI.xy (hI.z hze) (q3 hmv).1 (q3 hmv).2 (k7 hmv)
      have := k5 hmv
      rw [e1] at this
      refine le_trans this (le_trans (add_le_add hu (le_refl _)) (le_of_eq ?_))
      rw [e0, mul_add, mul_add, add_div]; ring
    · have e2 : lengthXYZE env.hypot home (Printer.start.run home s.done) l = 0 := by unfold lengthXYZE; rw [if_neg hmv]
      rw [k6 hmv, e2, add_zero]
      linarith

theorem durInv_start (env : Env α) (home : Pos3 α) {fmin fmax : α} (hM : 0 ≤ fmax) (ze : Bool) (hm : Home α) :
    DurInv env home fmin fmax ze (BuildSt.start (GCode.blank false hm)) := by
  refine ⟨⟨rfl, rfl, rfl, rfl, rfl, ?_⟩, le_refl _, ?_, ?_, rfl, rfl, fun _ => ⟨rfl, rfl, rfl, fun _ => rfl⟩, fun _ => ?_⟩
  · show (0 : α) * 60 = 0
    simp
  · show (0 : α) * 60 ≤ fmax
    simpa using hM
  · show 60 * along _ home Printer.start [] / fmax + (List.map dwell []).sum ≤ (0 : α)
    simp [along]
  · show (0 : α) ≤ 2 * (60 * along _ home Printer.start []) / fmin + (List.map dwell []).sum
    simp [along]

theorem foldDur {env : Env α} (henv : ∀ a b, 0 ≤ env.hypot a b) {hm : Home α} {home : Pos3 α} {fmin fmax : α} (h0 : 0 < fmin) {ze : Bool}
    (ls : List Str) : ∀ s s' : BuildSt α, DurInv env home fmin fmax ze s → (ls.map fun r => ({ raw := r } : PyLine α)).foldlM (buildStep env false hm) s = .ok s' →
    throughout (Steady home fmin fmax) home Printer.start s'.done → (ze = true → throughout (SteadyZE home) home Printer.start s'.done) →
    DurInv env home fmin fmax ze s' := by
  have grow : ∀ (ls : List (PyLine α)) (s s' : BuildSt α), ls.foldlM (buildStep env false hm) s = .ok s' → ∃ t, s'.done = s.done ++ t := by
    intro ls
    induction ls with
    | nil => intro s s' h; obtain rfl := Except.ok.inj h; exact ⟨[], by simp⟩
    | cons b ls ih =>
      intro s s' h
      rw [List.foldlM_cons] at h
      cases hb : buildStep env false hm s b with
      | error e => rw [hb] at h; simp [bind, Except.bind] at h
      | ok t =>
        rw [hb] at h
        obtain ⟨u, hu⟩ := ih t s' h
        obtain ⟨m, l, hp, hcase⟩ := buildStep_ok hb
        rcases hcase with ⟨_, rfl⟩ | ⟨_, _, _, _, _, rfl⟩
        · exact ⟨_ :: u, by rw [hu]; simp; rfl⟩
        · exact ⟨_ :: u, by rw [hu]; simp; rfl⟩
  induction ls with
  | nil => intro s s' hI h _ _; obtain rfl := Except.ok.inj h; exact hI
  | cons b ls ih =>
    intro s s' hI h hs hz
    rw [List.map_cons, List.foldlM_cons] at h
    cases hb : buildStep env false hm s { raw := b } with
    | error e => rw [hb] at h; simp [bind, Except.bind] at h
    | ok t =>
      rw [hb] at h
      obtain ⟨u, hu⟩ := grow _ t s' h
      refine ih t s' (durInv_step henv h0 hI hb ?_ ?_) h hs hz
      · rw [hu, throughout_append] at hs; exact hs.1
      · intro k
        have := hz k
        rw [hu, throughout_append] at this; exact this.1

end GCodeUtils
