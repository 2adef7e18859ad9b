import Verif.Lemmas.Simulate
import Verif.Spec.Analysis

set_option linter.unusedSectionVars false

namespace GCodeUtils

open Spec

variable {α : Type} [Field α] [LinearOrder α] [IsStrictOrderedRing α] [FloorRing α]

/-! ### bounding box -/

/-- Running minimum. -/
def Lo (S : Set α) (o : Option α) : Prop := (o = none ∧ S = ∅) ∨ ∃ x, o = some x ∧ IsLeast S x
/-- Running maximum. -/
def Hi (S : Set α) (o : Option α) : Prop := (o = none ∧ S = ∅) ∨ ∃ x, o = some x ∧ IsGreatest S x

theorem Lo.step {S : Set α} {o : Option α} (h : Lo S o) (v : α) : Lo (insert v S) (lowerTo o (some v)) := by
  rcases h with ⟨rfl, rfl⟩ | ⟨x, rfl, hx⟩
  · exact Or.inr ⟨v, rfl, by simp [IsLeast, lowerBounds]⟩
  · refine Or.inr ⟨min x v, rfl, ?_⟩
    rw [min_comm]
    exact hx.insert v

theorem Hi.step {S : Set α} {o : Option α} (h : Hi S o) (v : α) : Hi (insert v S) (raiseTo o (some v)) := by
  rcases h with ⟨rfl, rfl⟩ | ⟨x, rfl, hx⟩
  · exact Or.inr ⟨v, rfl, by simp [IsGreatest, upperBounds]⟩
  · refine Or.inr ⟨max x v, rfl, ?_⟩
    rw [max_comm]
    exact hx.insert v

theorem bounds_of {S : Set α} {a b : Option α} (h1 : Lo S a) (h2 : Hi S b) : Bounds S (a.getD 0) (b.getD 0) := by
  rcases h1 with ⟨rfl, hS⟩ | ⟨x, rfl, hx⟩
  · rcases h2 with ⟨rfl, _⟩ | ⟨y, rfl, hy⟩
    · exact Or.inl ⟨hS, rfl, rfl⟩
    · rw [hS] at hy; exact absurd hy.1 (by simp)
  · rcases h2 with ⟨rfl, hS⟩ | ⟨y, rfl, hy⟩
    · rw [hS] at hx; exact absurd hx.1 (by simp)
    · exact Or.inr ⟨hx, hy⟩

/-- The four running bounds over the lines satisfying `P`. -/
structure Box (P : PyLine α → Prop) (ls : List (PyLine α)) (x0 x1 y0 y1 : Option α) : Prop where
  a : Lo (endX P ls) x0
  b : Hi (endX P ls) x1
  c : Lo (endY P ls) y0
  d : Hi (endY P ls) y1

theorem endX_add {P : PyLine α → Prop} {ls : List (PyLine α)} {l : PyLine α} {x : α} (hp : P l)
    (hx : l.currentX = some x) : endX P (ls ++ [l]) = insert x (endX P ls) := by
  ext v
  simp only [endX, List.mem_append, List.mem_singleton, Set.mem_ofPred_eq, Set.mem_insert_iff]
  constructor
  · rintro ⟨l', h | rfl, hp', hx'⟩
    · exact Or.inr ⟨l', h, hp', hx'⟩
    · rw [hx] at hx'; simp only [Option.some.injEq] at hx'; exact Or.inl hx'.symm
  · rintro (rfl | ⟨l', h, hp', hx'⟩)
    · exact ⟨l, Or.inr rfl, hp, hx⟩
    · exact ⟨l', Or.inl h, hp', hx'⟩

theorem endY_add {P : PyLine α → Prop} {ls : List (PyLine α)} {l : PyLine α} {x : α} (hp : P l)
    (hx : l.currentY = some x) : endY P (ls ++ [l]) = insert x (endY P ls) := by
  ext v
  simp only [endY, List.mem_append, List.mem_singleton, Set.mem_ofPred_eq, Set.mem_insert_iff]
  constructor
  · rintro ⟨l', h | rfl, hp', hx'⟩
    · exact Or.inr ⟨l', h, hp', hx'⟩
    · rw [hx] at hx'; simp only [Option.some.injEq] at hx'; exact Or.inl hx'.symm
  · rintro (rfl | ⟨l', h, hp', hx'⟩)
    · exact ⟨l, Or.inr rfl, hp, hx⟩
    · exact ⟨l', Or.inl h, hp', hx'⟩

theorem Box.add {P : PyLine α → Prop} {ls : List (PyLine α)} {x0 x1 y0 y1 : Option α} (h : Box P ls x0 x1 y0 y1)
    {l : PyLine α} {x y : α} (hp : P l) (hx : l.currentX = some x) (hy : l.currentY = some y) :
    Box P (ls ++ [l]) (lowerTo x0 l.currentX) (raiseTo x1 l.currentX) (lowerTo y0 l.currentY) (raiseTo y1 l.currentY) := by
  constructor
  · rw [endX_add hp hx, hx]; exact h.a.step x
  · rw [endX_add hp hx, hx]; exact h.b.step x
  · rw [endY_add hp hy, hy]; exact h.c.step y
  · rw [endY_add hp hy, hy]; exact h.d.step y

theorem Box.skip {P : PyLine α → Prop} {ls : List (PyLine α)} {x0 x1 y0 y1 : Option α} (h : Box P ls x0 x1 y0 y1)
    {l : PyLine α} (hp : ¬ P l) : Box P (ls ++ [l]) x0 x1 y0 y1 := by
  have hX : endX P (ls ++ [l]) = endX P ls := by
    ext v; simp only [endX, List.mem_append, List.mem_singleton, Set.mem_ofPred_eq]
    constructor
    · rintro ⟨l', h | rfl, hp', hx'⟩
      · exact ⟨l', h, hp', hx'⟩
      · exact absurd hp' hp
    · rintro ⟨l', h, r⟩; exact ⟨l', Or.inl h, r⟩
  have hY : endY P (ls ++ [l]) = endY P ls := by
    ext v; simp only [endY, List.mem_append, List.mem_singleton, Set.mem_ofPred_eq]
    constructor
    · rintro ⟨l', h | rfl, hp', hx'⟩
      · exact ⟨l', h, hp', hx'⟩
      · exact absurd hp' hp
    · rintro ⟨l', h, r⟩; exact ⟨l', Or.inl h, r⟩
  exact ⟨hX ▸ h.a, hX ▸ h.b, hY ▸ h.c, hY ▸ h.d⟩

/-- A move line. -/
def IsMoveLine (l : PyLine α) : Prop := l.isMove = true
/-- An extruding move line. -/
def IsExtrMove (l : PyLine α) : Prop := l.isMove = true ∧ l.extruding = some true

theorem move_stamped {home : Home α} {m m' : Machine α} {l0 l : PyLine α}
    (h : processLine home m l0 = .ok (m', l)) (hm : l.isMove = true) :
    ∃ x y, l.currentX = some x ∧ l.currentY = some y ∧ ∃ cmd, l.command = some cmd ∧ cmd ≠ [] := by
  have hk := processLine_keeps h
  rcases processLine_ok h with ⟨hc, _, rfl⟩ | ⟨cmd, hc, hne, m1, l1, l2, m3, l3, h1, h2, h3, rfl, rfl⟩
  · rw [split_isMove] at hm
    unfold PyLine.inMoves at hm
    rcases hc with hc | hc <;> rw [hc] at hm <;> simp [moveGcodes] at hm
  · obtain ⟨k1, k2, _⟩ := stamp_keeps (stepPos home m1 l2 cmd) l2 cmd
    rw [h3] at k1 k2
    exact ⟨_, _, k1, k2, cmd, by rw [hk.2.1]; exact hc, hne⟩

theorem stepExtrusion_maxE (m : Machine α) (l : PyLine α) (cmd : Str) : m.maxE ≤ (stepExtrusion m l cmd).1.maxE := by
  unfold stepExtrusion
  cases l.e with
  | none => exact le_refl _
  | some e =>
    simp only
    split_ifs
    · exact le_max_left _ _
    · exact le_max_left _ _
    · exact le_refl _
    · exact le_refl _

theorem process_maxE {home : Home α} {m m' : Machine α} {l0 l : PyLine α}
    (h : processLine home m l0 = .ok (m', l)) : m.maxE ≤ m'.maxE := by
  rcases processLine_ok h with ⟨_, rfl, _⟩ | ⟨cmd, hc, hne, m1, l1, l2, m3, l3, h1, h2, h3, rfl, rfl⟩
  · exact le_refl _
  · have e1 : m1.maxE = m.maxE := by
      rcases stepModes_shape h1 with ⟨_, rfl, _⟩ | ⟨_, _, i, r, re, t, rfl⟩ <;> rfl
    have e2 := (stepPos_e home m1 l2 cmd).2.2.1
    have e3 := stepExtrusion_maxE (stepPos home m1 l2 cmd) (stamp (stepPos home m1 l2 cmd) l2) cmd
    rw [h3, e2, e1] at e3
    exact e3

/-- Loop invariant of the bounding box. -/
structure BBoxInv (s : BuildSt α) : Prop where
  ext : Box IsExtrMove s.done s.bb.xminE s.bb.xmaxE s.bb.yminE s.bb.ymaxE
  all : s.m.maxE ≤ 0 → Box IsMoveLine s.done s.bb.xmin s.bb.xmax s.bb.ymin s.bb.ymax
  stamped : ∀ l ∈ s.done, l.isMove = true → ∃ x y, l.currentX = some x ∧ l.currentY = some y

theorem bbox_step {env : Env α} {home : Home α} {s s' : BuildSt α} {l0 : PyLine α} (hi : BBoxInv s)
    (h : buildStep env false home s l0 = .ok s') : BBoxInv s' := by
  obtain ⟨m, l, hp, h⟩ := buildStep_ok h
  have hmono := process_maxE hp
  have hstored : storedLine false l0 l = l := rfl
  rw [hstored] at h
  have hst : ∀ l' ∈ s.done ++ [l], l'.isMove = true → ∃ x y, l'.currentX = some x ∧ l'.currentY = some y := by
    intro l' hl' hm'
    rcases List.mem_append.1 hl' with h' | h'
    · exact hi.stamped l' h' hm'
    · rw [List.mem_singleton] at h'; subst h'
      obtain ⟨x, y, h1, h2, _⟩ := move_stamped hp hm'
      exact ⟨x, y, h1, h2⟩
  by_cases hm : l.isMove = true
  · obtain ⟨x, y, hx, hy, cmd', hc', hne'⟩ := move_stamped hp hm
    rcases h with ⟨hc, h⟩ | ⟨cmd, ds, hc, hne, hd, h⟩
    · exfalso
      rw [hc'] at hc
      simp only [reduceCtorEq, Option.some.injEq, false_or] at hc
      exact hne' hc
    · rw [h]
      constructor
      · show Box IsExtrMove (s.done ++ [l]) (stepBBox m.maxE s.bb l).xminE (stepBBox m.maxE s.bb l).xmaxE
          (stepBBox m.maxE s.bb l).yminE (stepBBox m.maxE s.bb l).ymaxE
        unfold stepBBox
        rw [if_pos hm]
        by_cases he : l.extruding.getD false = true
        · have he' : l.extruding = some true := by
            cases hx : l.extruding with
            | none => rw [hx] at he; simp at he
            | some b => rw [hx] at he; simpa using he
          rw [if_pos he]
          have := hi.ext.add (l := l) ⟨hm, he'⟩ hx hy
          split_ifs <;> exact this
        · rw [if_neg he]
          have := hi.ext.skip (l := l) (fun hc => he (by rw [hc.2]; rfl))
          split_ifs <;> exact this
      · intro hle
        simp only at hle
        show Box IsMoveLine (s.done ++ [l]) (stepBBox m.maxE s.bb l).xmin (stepBBox m.maxE s.bb l).xmax
          (stepBBox m.maxE s.bb l).ymin (stepBBox m.maxE s.bb l).ymax
        have := (hi.all (le_trans hmono hle)).add (l := l) hm hx hy
        unfold stepBBox
        rw [if_pos hm]
        rw [if_pos hle]
        split_ifs <;> exact this
      · exact hst
  · have hbb : stepBBox m.maxE s.bb l = s.bb := by unfold stepBBox; rw [if_neg hm]
    have k1 := hi.ext.skip (l := l) (fun hc => hm hc.1)
    have k2 : m.maxE ≤ 0 → Box IsMoveLine (s.done ++ [l]) s.bb.xmin s.bb.xmax s.bb.ymin s.bb.ymax :=
      fun hle => (hi.all (le_trans hmono hle)).skip (l := l) hm
    rcases h with ⟨hc, h⟩ | ⟨cmd, ds, hc, hne, hd, h⟩
    · rw [h]; exact ⟨k1, k2, hst⟩
    · rw [h, hbb]; exact ⟨k1, k2, hst⟩

theorem empty_box (P : PyLine α → Prop) : Box P ([] : List (PyLine α)) none none none none := by
  have hX : endX P ([] : List (PyLine α)) = ∅ := by ext; simp [endX]
  have hY : endY P ([] : List (PyLine α)) = ∅ := by ext; simp [endY]
  exact ⟨Or.inl ⟨rfl, hX⟩, Or.inl ⟨rfl, hX⟩, Or.inl ⟨rfl, hY⟩, Or.inl ⟨rfl, hY⟩⟩

theorem bbox_fold {env : Env α} {home : Home α} {g : GCode α} {s' : BuildSt α} {ls : List (PyLine α)}
    (h : ls.foldlM (buildStep env false home) (BuildSt.start g) = .ok s') : BBoxInv s' :=
  foldlM_inv (buildStep env false home) (fun _ s => BBoxInv s)
    (fun _ _ _ _ hp hs => bbox_step hp hs) ls [] _ s'
    ⟨empty_box _, fun _ => empty_box _, fun l hl => by simp [BuildSt.start] at hl⟩ h

/-! ### heights -/

theorem minL_least (a : α) (l : List α) : IsLeast ({a} ∪ {x | x ∈ l}) (minL a l) := by
  unfold minL
  induction l generalizing a with
  | nil => simp [IsLeast, lowerBounds]
  | cons b l ih =>
    have := ih (min a b)
    rw [List.foldl_cons]
    constructor
    · rcases this.1 with h | h
      · rcases min_choice a b with h' | h'
        · left; rw [Set.mem_singleton_iff] at h ⊢; rw [h, h']
        · right; rw [Set.mem_singleton_iff] at h; show _ ∈ b :: l; rw [h, h']; simp
      · right; simp only [Set.mem_ofPred_eq] at h ⊢; exact List.mem_cons_of_mem _ h
    · rintro x (hx | hx)
      · rw [Set.mem_singleton_iff] at hx; subst hx
        exact le_trans (this.2 (Or.inl rfl)) (min_le_left _ _)
      · simp only [Set.mem_ofPred_eq] at hx
        rcases List.mem_cons.1 hx with rfl | hx
        · exact le_trans (this.2 (Or.inl rfl)) (min_le_right _ _)
        · exact this.2 (Or.inr hx)

theorem maxL_greatest (a : α) (l : List α) : IsGreatest ({a} ∪ {x | x ∈ l}) (maxL a l) := by
  unfold maxL
  induction l generalizing a with
  | nil => simp [IsGreatest, upperBounds]
  | cons b l ih =>
    have := ih (max a b)
    rw [List.foldl_cons]
    constructor
    · rcases this.1 with h | h
      · rcases max_choice a b with h' | h'
        · left; rw [Set.mem_singleton_iff] at h ⊢; rw [h, h']
        · right; rw [Set.mem_singleton_iff] at h; show _ ∈ b :: l; rw [h, h']; simp
      · right; simp only [Set.mem_ofPred_eq] at h ⊢; exact List.mem_cons_of_mem _ h
    · rintro x (hx | hx)
      · rw [Set.mem_singleton_iff] at hx; subst hx
        exact le_trans (le_max_left _ _) (this.2 (Or.inl rfl))
      · simp only [Set.mem_ofPred_eq] at hx
        rcases List.mem_cons.1 hx with rfl | hx
        · exact le_trans (le_max_right _ _) (this.2 (Or.inl rfl))
        · exact this.2 (Or.inr hx)

/-! ### durations -/

theorem moveDuration_ok {lastf f travel : α} (h1 : 0 ≤ lastf) (h2 : 0 ≤ f) (h3 : 0 ≤ travel) :
    ∃ t, moveDuration lastf f travel = .ok t ∧ 0 ≤ t := by
  unfold moveDuration
  by_cases he : f = lastf
  · rw [if_pos he]
    refine ⟨_, rfl, ?_⟩
    split_ifs
    · exact div_nonneg h3 h2
    · exact le_refl _
  · rw [if_neg he]
    have hs : lastf + f ≠ 0 := by
      intro h
      have a1 : lastf = 0 := by linarith
      have a2 : f = 0 := by linarith
      exact he (by rw [a1, a2])
    have hs' : 0 ≤ lastf + f := by linarith
    simp only
    by_cases hc : 2 * |((lastf + f) * (f - lastf) * (1 / 2)) / (acceleration : α)| ≤ travel ∧ lastf + f ≠ 0 ∧ f ≠ 0
    · rw [if_pos hc]
      refine ⟨_, rfl, ?_⟩
      refine add_nonneg (div_nonneg (mul_nonneg (by norm_num) (mul_nonneg (by norm_num) (abs_nonneg _))) hs') ?_
      exact div_nonneg (by linarith [hc.1]) h2
    · rw [if_neg hc, if_neg hs]
      exact ⟨_, rfl, div_nonneg (mul_nonneg (by norm_num) h3) hs'⟩

theorem moveTravel_nonneg {env : Env α} (henv : ∀ a b, 0 ≤ env.hypot a b) (d : DurSt α) (l : PyLine α) (dx dy : α) :
    0 ≤ moveTravel env d l dx dy := by
  unfold moveTravel
  simp only
  by_cases h0 : env.hypot dx dy = 0
  · rw [if_pos h0]
    cases l.z with
    | some z => simp only; split_ifs <;> exact abs_nonneg _
    | none =>
      cases l.e with
      | some e => simp only; split_ifs <;> exact abs_nonneg _
      | none => exact henv _ _
  · rw [if_neg h0]; exact henv _ _

/-- One line of the duration estimate with non-negative feed rates. -/
theorem stepDur_nonneg {env : Env α} (henv : ∀ a b, 0 ≤ env.hypot a b) {d : DurSt α} {l : PyLine α}
    (hd : 0 ≤ d.lastf) (hf : l.isCmd c!"G0" = true ∨ l.isCmd c!"G1" = true → ∀ f, l.f = some f → 0 ≤ f)
    (hp : l.isCmd c!"G4" = true → ∀ p : α, (findSpecificCode l.raw 'P' : Except Err (Option α)) = .ok (some p) → 0 ≤ p) :
    (∀ e, stepDur env d l = .error e → e = .valueError) ∧
    (∀ d', stepDur env d l = .ok d' → 0 ≤ d'.lastf ∧ d.total ≤ d'.total ∧ d'.layerBegin = d.layerBegin) := by
  unfold stepDur
  by_cases h1 : (l.isCmd c!"G0" || l.isCmd c!"G1") = true
  · rw [if_pos h1]
    have hf' := hf (by simpa using h1)
    have hfn : 0 ≤ (match l.f with | some f => f / 60 | none => d.lastf) := by
      cases hlf : l.f with
      | none => exact hd
      | some f => exact div_nonneg (hf' f hlf) (by norm_num)
    have hlf : 0 ≤ (if (l.x.getD d.lastx - d.lastx) * d.lastdx + (l.y.getD d.lasty - d.lasty) * d.lastdy ≤ 0 then 0 else d.lastf) := by
      split_ifs
      · exact le_refl _
      · exact hd
    obtain ⟨t, ht, ht0⟩ := moveDuration_ok hlf hfn (moveTravel_nonneg henv d l (l.x.getD d.lastx - d.lastx) (l.y.getD d.lasty - d.lasty))
    simp only
    split
    · rename_i er heq
      exact absurd (heq.symm.trans ht) (by simp)
    · rename_i t' heq
      have htt : t' = t := by
        have := heq.symm.trans ht
        simpa using this
      refine ⟨fun e he => by simp at he, ?_⟩
      intro d' he
      simp only [Except.ok.injEq] at he
      subst he
      exact ⟨hfn, by simp only; linarith, rfl⟩
  · rw [if_neg h1]
    by_cases h2 : l.isCmd c!"G4" = true
    · rw [if_pos h2]
      cases hfs : (findSpecificCode l.raw 'P' : Except Err (Option α)) with
      | error er =>
        refine ⟨?_, fun d' he => by simp at he⟩
        intro e he
        simp only [Except.error.injEq] at he
        subst he
        unfold findSpecificCode at hfs
        split at hfs
        · simp at hfs
        · split at hfs
          · simp at hfs
          · simpa using hfs.symm
      | ok o =>
        cases o with
        | none =>
          refine ⟨fun e he => by simp at he, ?_⟩
          intro d' he
          simp only [Except.ok.injEq] at he
          subst he
          exact ⟨hd, le_refl _, rfl⟩
        | some p =>
          have hp0 := hp h2 p hfs
          refine ⟨fun e he => by simp at he, ?_⟩
          intro d' he
          simp only [Except.ok.injEq] at he
          subst he
          split_ifs
          · refine ⟨hd, ?_, rfl⟩
            simp only
            have : 0 ≤ p / 1000 := div_nonneg hp0 (by norm_num)
            linarith
          · exact ⟨hd, le_refl _, rfl⟩
    · rw [if_neg h2]
      refine ⟨fun e he => by simp at he, ?_⟩
      intro d' he
      simp only [Except.ok.injEq] at he
      subst he
      exact ⟨hd, le_refl _, rfl⟩

theorem stepDur_begin {env : Env α} {d d' : DurSt α} {l : PyLine α} (h : stepDur env d l = .ok d') :
    d'.layerBegin = d.layerBegin := by
  unfold stepDur at h
  by_cases h1 : (l.isCmd c!"G0" || l.isCmd c!"G1") = true
  · rw [if_pos h1] at h
    simp only at h
    split at h
    · simp at h
    · simp only [Except.ok.injEq] at h; subst h; rfl
  · rw [if_neg h1] at h
    by_cases h2 : l.isCmd c!"G4" = true
    · rw [if_pos h2] at h
      split at h
      · simp at h
      · simp only [Except.ok.injEq] at h; subst h; rfl
      · simp only [Except.ok.injEq] at h; subst h; split_ifs <;> rfl
    · rw [if_neg h2] at h
      simp only [Except.ok.injEq] at h; subst h; rfl

/-- The closed layers carry durations that add up to the time at which the current layer began. -/
def DurSum (s : BuildSt α) : Prop :=
  ∃ ds : List α, s.ls.allLayers.map (·.duration) = ds.map some ∧ ds.sum = s.ds.layerBegin

theorem stepLayer_dur (mode : RoundMode) (s : LayerSt α) (l : PyLine α) (t b : α) :
    ((stepLayer mode s l t b).2 = false ∧ (stepLayer mode s l t b).1.allLayers = s.allLayers) ∨
    ((stepLayer mode s l t b).2 = true ∧ ∃ z ls, (stepLayer mode s l t b).1.allLayers =
      s.allLayers ++ [{ lines := ls, z := z, duration := some (t - b) }]) := by
  rcases stepLayer_cases mode s l t b with ⟨p, est, he⟩ | ⟨bz, est, _, he⟩
  · rw [he]; exact Or.inl ⟨rfl, rfl⟩
  · rw [he]; exact Or.inr ⟨rfl, _, _, rfl⟩

theorem durSum_step {env : Env α} {light : Bool} {home : Home α} {s s' : BuildSt α} {l0 : PyLine α} (hi : DurSum s)
    (h : buildStep env light home s l0 = .ok s') : DurSum s' := by
  obtain ⟨m, l, hp, ⟨hc, rfl⟩ | ⟨cmd, ds, hc, hne, hd, rfl⟩⟩ := buildStep_ok h
  · exact hi
  · obtain ⟨durs, h1, h2⟩ := hi
    have hb := stepDur_begin hd
    rcases stepLayer_dur env.mode { s.ls with hasExtrusion := s.ls.hasExtrusion || l.extruding.getD false } l ds.total ds.layerBegin with
      ⟨e1, e2⟩ | ⟨e1, z, ls, e2⟩
    · refine ⟨durs, ?_, ?_⟩
      · simp only [recordLine, e2]; exact h1
      · simp only [e1]; rw [h2, ← hb]; rfl
    · refine ⟨durs ++ [ds.total - ds.layerBegin], ?_, ?_⟩
      · simp only [recordLine, e2, List.map_append, h1]; rfl
      · simp only [e1, if_true]
        simp only [List.sum_append, List.sum_cons, List.sum_nil, h2]
        rw [hb]; ring

/-- Durations so far are non-negative. -/
structure DurPos (s : BuildSt α) : Prop where
  f : 0 ≤ s.ds.lastf
  b : s.ds.layerBegin ≤ s.ds.total
  d : ∀ L ∈ s.ls.allLayers, ∀ d, L.duration = some d → 0 ≤ d

/-- What one line must satisfy for the estimate to stay non-negative. -/
def DurLine (α : Type) [Field α] [LinearOrder α] [IsStrictOrderedRing α] [FloorRing α] (r : Str) : Prop :=
  FeedNonneg α r ∧ DwellNonneg α r

theorem findSpecific_nonneg {r : Str} (h : DwellNonneg α r) (p : α)
    (hp : (findSpecificCode r 'P' : Except Err (Option α)) = .ok (some p)) : 0 ≤ p := by
  unfold findSpecificCode at hp
  cases hw : findSpecificAux 'P' 0 r with
  | nil => rw [hw] at hp; simp at hp
  | cons v vs =>
    rw [hw] at hp
    simp only at hp
    cases hv : (parseFloat v : Option α) with
    | none => rw [hv] at hp; simp at hp
    | some a =>
      rw [hv] at hp
      simp only [Except.ok.injEq, Option.some.injEq] at hp
      subst hp
      exact h v vs hw a hv

theorem process_feed {home : Home α} {m m' : Machine α} {r : Str} {l : PyLine α}
    (hp : processLine home m { raw := r } = .ok (m', l)) (h : FeedNonneg α r)
    (hc : l.isCmd c!"G0" = true ∨ l.isCmd c!"G1" = true) (f : α) (hf : l.f = some f) : 0 ≤ f := by
  have hcm : ∃ cmd, l.command = some cmd ∧ cmd.head? = some 'G' := by
    rcases hc with hc | hc <;> (simp only [PyLine.isCmd, beq_iff_eq] at hc; exact ⟨_, hc, rfl⟩)
  obtain ⟨cmd, h1, h2⟩ := hcm
  have hv := (process_imperial hp).2 cmd h1 h2 'f' (by decide)
  rw [arg_f, hf, value_scale] at hv
  cases hv1 : value (1 : α) (words r) 'f' with
  | none => rw [hv1] at hv; simp at hv
  | some v =>
    rw [hv1] at hv
    simp only [Option.map_some, Option.some.injEq] at hv
    rw [hv]
    refine mul_nonneg ?_ (h v hv1)
    split_ifs <;> norm_num

theorem process_error_value {home : Home α} {m : Machine α} {r : Str} {e : Err}
    (h : processLine home m ({ raw := r } : PyLine α) = .error e) : e = .valueError := by
  have hmodes : ∀ (m : Machine α) (l : PyLine α) (cmd : Str) er, stepModes m l cmd = .error er → er = .valueError := by
    intro m l cmd er he
    unfold stepModes at he
    split_ifs at he
    split at he
    · simp at he
    · simpa using he.symm
  have hfold : ∀ (u : α) (ts : List Tok) (l : PyLine α) er, ts.foldlM (parseTok u) l = .error er → er = .valueError := by
    intro u ts
    induction ts with
    | nil => intro l er he; simp [pure, Except.pure] at he
    | cons t ts ih =>
      intro l er he
      rw [List.foldlM_cons] at he
      cases ht : parseTok u l t with
      | error e1 =>
        rw [ht] at he
        simp only [bind, Except.bind, Except.error.injEq] at he
        subst he
        unfold parseTok at ht
        cases t with
        | none => simp at ht
        | some q =>
          obtain ⟨c, v⟩ := q
          simp only at ht
          split_ifs at ht
          split at ht
          · simp at ht
          · simpa using ht.symm
      | ok l1 => rw [ht] at he; exact ih l1 er he
  have hcoord : ∀ (l : PyLine α) ts imp er, parseCoordinates l ts imp = .error er → er = .valueError := by
    intro l ts imp er he
    unfold parseCoordinates at he
    split at he
    · simp at he
    · split_ifs at he
      all_goals exact hfold _ _ _ _ he
  rw [processLine_eq_core] at h
  unfold processCore at h
  split at h
  · simp at h
  · split_ifs at h
    all_goals
      split at h
      · rename_i heq
        simp only [Except.error.injEq] at h
        subst h
        exact hmodes _ _ _ _ heq
      · split at h
        · rename_i heq
          simp only [Except.error.injEq] at h
          subst h
          first | exact hcoord _ _ _ _ heq | (simp at heq)
        · simp at h

/-! ### well-formed texts -/

theorem instr_of_dropN {r : Str} {c : Char} {v : Str} {ts : List Tok}
    (h : dropN (findall (lower r)) = some (c, v) :: ts) :
    instr r = some (c.toUpper :: v, (c, v) :: ts.filterMap id) ∧ ∀ w ∈ (c, v) :: ts.filterMap id, w ∈ words r := by
  unfold instr
  cases hf : findall (lower r) with
  | nil => rw [hf] at h; simp [dropN] at h
  | cons t ts' =>
    rw [hf] at h
    cases t with
    | none => simp [dropN] at h
    | some q =>
      obtain ⟨d, u⟩ := q
      have hw : words r = (d, u) :: ts'.filterMap id := by simp [words, hf]
      by_cases hd : d = 'n'
      · subst hd
        simp only [dropN, if_true] at h
        rw [h] at hw
        have hw' : words r = ('n', u) :: (c, v) :: ts.filterMap id := by rw [hw]; simp
        rw [hw']
        exact ⟨rfl, fun w hw => List.mem_cons_of_mem _ hw⟩
      · simp only [dropN, hd, if_false, List.cons.injEq, Option.some.injEq, Prod.mk.injEq] at h
        obtain ⟨⟨rfl, rfl⟩, rfl⟩ := h
        rw [hw]
        refine ⟨?_, fun w hw => hw⟩
        split
        · rename_i heq; simp at heq; exact absurd heq.1.1 hd
        · rename_i heq; simp at heq; exact absurd heq.1.1 hd
        · rename_i heq; simp only [List.cons.injEq, Prod.mk.injEq] at heq; obtain ⟨⟨rfl, rfl⟩, rfl⟩ := heq; rfl
        · rename_i heq; simp at heq

theorem findallAux_num (s : Str) : ∀ (st : Bool) (k : ℕ) (c : Char) (v : Str), some (c, v) ∈ findallAux st k s →
    ∃ cs : Str, v = cs.take (numLen cs) := by
  induction s with
  | nil => intro st k c v h; simp [findallAux] at h
  | cons d s ih =>
    intro st k c v h
    cases k with
    | succ k => exact ih false k c v (by simpa [findallAux] using h)
    | zero =>
      simp only [findallAux] at h
      split at h
      · rename_i t n hm
        rcases List.mem_cons.1 h with h | h
        · subst h
          unfold matchTok at hm
          split_ifs at hm
          · split at hm
            · simp at hm
            · simp at hm
          · split at hm
            · simp at hm
            · simp at hm
          · simp at hm
          · simp at hm
          · simp only [Option.some.injEq, Prod.mk.injEq] at hm
            exact ⟨s, hm.1.2.symm⟩
        · exact ih false n c v h
      · exact ih false 0 c v h

theorem findSpecificAux_num (code : Char) (s : Str) : ∀ (k : ℕ) (v : Str), v ∈ findSpecificAux code k s →
    ∃ cs : Str, v = cs.take (numLen cs) := by
  induction s with
  | nil => intro k v h; simp [findSpecificAux] at h
  | cons d s ih =>
    intro k v h
    cases k with
    | succ k => exact ih k v (by simpa [findSpecificAux] using h)
    | zero =>
      simp only [findSpecificAux] at h
      split at h
      · rename_i t n hm
        rcases List.mem_cons.1 h with h | h
        · subst h
          unfold matchSpecific at hm
          split_ifs at hm
          · simp at hm
          · simp at hm
          · simp at hm
          · simp only [Option.some.injEq, Prod.mk.injEq] at hm
            exact ⟨s, hm.1.symm⟩
        · exact ih n v h
      · rename_i n hm
        exact ih n v h
      · exact ih 0 v h

theorem take_digLen (u : Str) : u.take (digLen u) = u.takeWhile isDig :=
  (List.prefix_iff_eq_take.1 (List.takeWhile_prefix isDig)).symm

/-- The unsigned part of a matched number. -/
theorem uNum_shape (u : Str) : ∃ ip rest, u.take (uNumLen u) = ip ++ rest ∧ (∀ c ∈ ip, isDig c = true) ∧
    (rest = [] ∨ ∃ fr, rest = '.' :: fr ∧ ∀ c ∈ fr, isDig c = true) := by
  unfold uNumLen
  simp only
  split
  · rename_i t heq
    refine ⟨u.takeWhile isDig, '.' :: t.takeWhile isDig, ?_, fun c hc => List.mem_takeWhile_imp hc,
      Or.inr ⟨_, rfl, fun c hc => List.mem_takeWhile_imp hc⟩⟩
    have hsp : u = u.take (digLen u) ++ '.' :: t := by rw [← heq, List.take_append_drop]
    have hl : (u.take (digLen u)).length = digLen u := by
      rw [List.length_take]; exact Nat.min_eq_left (digLen_le u)
    rw [← take_digLen, ← take_digLen]
    generalize hn : digLen u = n at *
    rw [hsp, List.take_append, hl, show n + 1 + digLen t - n = digLen t + 1 by omega, List.take_succ_cons]
    congr 1
    · rw [List.take_of_length_le (by rw [hl]; omega)]
      rw [List.take_append, hl]; simp
  · exact ⟨u.takeWhile isDig, [], by rw [take_digLen]; simp, fun c hc => List.mem_takeWhile_imp hc, Or.inl rfl⟩

theorem takeWhile_dropWhile_digits (ip rest : Str) (h1 : ∀ c ∈ ip, isDig c = true)
    (h2 : ∀ c, rest.head? = some c → isDig c = false) :
    (ip ++ rest).takeWhile isDig = ip ∧ (ip ++ rest).dropWhile isDig = rest := by
  induction ip with
  | nil =>
    cases rest with
    | nil => exact ⟨rfl, rfl⟩
    | cons c r =>
      have := h2 c rfl
      simp [this]
  | cons c ip ih =>
    have hc := h1 c (by simp)
    obtain ⟨a, b⟩ := ih (fun d hd => h1 d (by simp [hd]))
    simp [hc, a, b]

theorem parseUFloat_some {u : Str} (h : ∃ ip rest, u = ip ++ rest ∧ (∀ c ∈ ip, isDig c = true) ∧
    (rest = [] ∨ ∃ fr, rest = '.' :: fr ∧ ∀ c ∈ fr, isDig c = true)) (hd : ∃ c ∈ u, isDig c = true) :
    ∃ a : α, parseUFloat u = some a := by
  obtain ⟨ip, rest, rfl, h1, h2⟩ := h
  have hh : ∀ c, rest.head? = some c → isDig c = false := by
    intro c hc
    rcases h2 with rfl | ⟨fr, rfl, _⟩
    · simp at hc
    · simp only [List.head?_cons, Option.some.injEq] at hc; subst hc; decide
  obtain ⟨t1, t2⟩ := takeWhile_dropWhile_digits ip rest h1 hh
  unfold parseUFloat
  simp only [t1, t2]
  rcases h2 with rfl | ⟨fr, rfl, hfr⟩
  · have : ip ≠ [] := by
      rintro rfl
      obtain ⟨c, hc, _⟩ := hd
      simp at hc
    simp only
    rw [if_neg (by simpa [List.isEmpty_iff] using this)]
    exact ⟨_, rfl⟩
  · simp only
    rw [if_pos]
    · exact ⟨_, rfl⟩
    · have hall : fr.all isDig = true := by rw [List.all_eq_true]; exact hfr
      have hne : ¬ (ip = [] ∧ fr = []) := by
        rintro ⟨rfl, rfl⟩
        obtain ⟨c, hc, hcd⟩ := hd
        simp only [List.nil_append, List.mem_singleton] at hc
        subst hc
        revert hcd; decide
      simp only [decide_true, Bool.true_and, hall]
      have hne' : ¬ ip = [] ∨ ¬ fr = [] := not_and_or.1 hne
      simpa [List.isEmpty_iff] using hne'

theorem hasDigit_iff (v : Str) : HasDigit v ↔ ∃ c ∈ v, isDig c = true := by
  unfold HasDigit
  simp only [isDig_iff]

/-- A number matched by the tokenizer can be read if it has a digit. -/
theorem parseFloat_some {cs : Str} (hd : HasDigit (cs.take (numLen cs))) :
    ∃ a : α, parseFloat (cs.take (numLen cs)) = some a := by
  rw [hasDigit_iff] at hd
  unfold numLen at hd ⊢
  cases cs with
  | nil => simp at hd
  | cons c t =>
    simp only at hd ⊢
    by_cases hs : (decide (c = '-') || decide (c = '+')) = true
    · rw [if_pos hs] at hd ⊢
      rw [Nat.add_comm, List.take_succ_cons] at hd ⊢
      simp only [Bool.or_eq_true, decide_eq_true_eq] at hs
      have hd' : ∃ d ∈ t.take (uNumLen t), isDig d = true := by
        obtain ⟨d, hdm, hdd⟩ := hd
        rcases List.mem_cons.1 hdm with rfl | hdm
        · rcases hs with rfl | rfl <;> exact absurd hdd (by decide)
        · exact ⟨d, hdm, hdd⟩
      obtain ⟨a, ha⟩ := parseUFloat_some (α := α) (uNum_shape t) hd'
      rcases hs with rfl | rfl
      · exact ⟨-a, by simp [parseFloat, ha]⟩
      · exact ⟨a, by simp [parseFloat, ha]⟩
    · rw [if_neg hs] at hd ⊢
      obtain ⟨a, ha⟩ := parseUFloat_some (α := α) (uNum_shape (c :: t)) hd
      refine ⟨a, ?_⟩
      simp only [Bool.or_eq_true, decide_eq_true_eq, not_or] at hs
      unfold parseFloat
      split
      · rename_i u heq
        exfalso
        cases hn : uNumLen (c :: t) with
        | zero => rw [hn] at heq; simp at heq
        | succ n =>
          rw [hn, List.take_succ_cons] at heq
          simp only [List.cons.injEq] at heq
          exact hs.1 heq.1
      · rename_i u heq
        exfalso
        cases hn : uNumLen (c :: t) with
        | zero => rw [hn] at heq; simp at heq
        | succ n =>
          rw [hn, List.take_succ_cons] at heq
          simp only [List.cons.injEq] at heq
          exact hs.2 heq.1
      · exact ha

theorem parseInt_some {v : Str} (h : IsInteger v) : ∃ t, parseInt v = some t := by
  obtain ⟨sign, ds, rfl, hs, hne, hd⟩ := h
  have hall : ds.all isDig = true := by
    rw [List.all_eq_true]; intro c hc; rw [isDig_iff]; exact hd c hc
  have hu : (if (ds.isEmpty || !ds.all isDig) = true then none else some (digitsVal ds : ℤ)) = some (digitsVal ds : ℤ) := by
    rw [if_neg]
    rw [hall]; simp [List.isEmpty_iff, hne]
  simp only [List.mem_cons, List.not_mem_nil, or_false] at hs
  unfold parseInt
  rcases hs with rfl | rfl | rfl
  · simp only [List.nil_append]
    split
    · exfalso
      have := hd '-' (by simp)
      revert this; decide
    · exfalso
      have := hd '+' (by simp)
      revert this; decide
    · exact ⟨_, hu⟩
  · exact ⟨_, by simp only [List.cons_append, List.nil_append, hu]; rfl⟩
  · exact ⟨_, by simp only [List.cons_append, List.nil_append]; exact hu⟩

theorem words_num {r : Str} {w : Char × Str} (h : w ∈ words r) : ∃ cs : Str, w.2 = cs.take (numLen cs) := by
  unfold words at h
  rw [List.mem_filterMap] at h
  obtain ⟨t, ht, hw⟩ := h
  simp only [id] at hw
  subst hw
  exact findallAux_num _ _ _ _ _ ht

theorem fold_parse_ok {u : α} (ts : List Tok) (h : ∀ w ∈ ts.filterMap id, w.2 = [] ∨ ∃ a : α, parseFloat w.2 = some a) :
    ∀ l : PyLine α, ∃ l', ts.foldlM (parseTok u) l = .ok l' := by
  induction ts with
  | nil => intro l; exact ⟨l, rfl⟩
  | cons t ts ih =>
    intro l
    have : ∃ l1, parseTok u l t = .ok l1 := by
      cases t with
      | none => exact ⟨l, rfl⟩
      | some q =>
        obtain ⟨c, v⟩ := q
        simp only [parseTok]
        split_ifs with hc
        · rcases h (c, v) (by simp) with hv | ⟨a, ha⟩
          · simp only at hv; subst hv; simp at hc
          · simp only at ha; rw [ha]; exact ⟨_, rfl⟩
        · exact ⟨_, rfl⟩
    obtain ⟨l1, h1⟩ := this
    obtain ⟨l2, h2⟩ := ih (fun w hw => h w (by
      cases t with
      | none => simpa using hw
      | some q => simp only [List.filterMap_cons, id, List.mem_cons]; exact Or.inr hw)) l1
    exact ⟨l2, by rw [foldlM_cons_ok]; exact ⟨l1, h1, h2⟩⟩

/-- Well-formed texts are processed. -/
theorem process_wf {home : Home α} {m : Machine α} {r : Str} (h : WellFormed r) :
    ∃ m' l, processLine home m ({ raw := r } : PyLine α) = .ok (m', l) := by
  rw [processLine_eq_core]
  cases hd : dropN (findall (lower r)) with
  | nil =>
    have hs : split ({ raw := r } : PyLine α) = ({ raw := r, command := some r, isMove := false }, []) := by
      unfold split; simp only [hd]
    rw [hs]
    unfold processCore
    simp only
    obtain ⟨hG, hM, hT⟩ := not_hasCommand_inert hd
    split_ifs with he
    · exact ⟨_, _, rfl⟩
    · have hne : ∀ (d : Char) (n : Str), d ∈ c!"GMT" → r ≠ d :: n := by
        intro d n hd hr
        simp only [List.mem_cons, List.not_mem_nil, or_false] at hd
        rcases hd with rfl | rfl | rfl
        · exact hG (by rw [hr]; rfl)
        · exact hM (by rw [hr]; rfl)
        · exact hT (by rw [hr]; rfl)
      have hsm : stepModes m ({ raw := r, command := some r, isMove := false } : PyLine α) r =
          .ok (m, { raw := r, command := some r, isMove := false }) := by
        unfold stepModes
        simp only [Bool.false_eq_true, if_false]
        rw [if_neg (hne _ _ (by decide)), if_neg (hne _ _ (by decide)), if_neg (hne _ _ (by decide)),
          if_neg (hne _ _ (by decide)), if_neg (hne _ _ (by decide)), if_neg (hne _ _ (by decide)), if_neg hT]
      rw [hsm]
      exact ⟨_, _, rfl⟩
  | cons t ts =>
    cases t with
    | none =>
      have hs : split ({ raw := r } : PyLine α) = ({ raw := r }, none :: ts) := by
        unfold split; simp only [hd]; rfl
      rw [hs]
      exact ⟨_, _, rfl⟩
    | some q =>
      obtain ⟨c, v⟩ := q
      obtain ⟨hi, hmem⟩ := instr_of_dropN hd
      rw [split_eq ({ raw := r } : PyLine α) hd]
      unfold processCore
      simp only [List.isEmpty_cons, Bool.false_eq_true, if_false]
      have hmode : ∃ m1 l1, stepModes m ({ raw := r, command := some (c.toUpper :: v), isMove := moveGcodes.contains (c.toUpper :: v) } : PyLine α) (c.toUpper :: v) = .ok (m1, l1) ∧ l1.command = some (c.toUpper :: v) := by
        have hTi : ∀ n, c.toUpper :: v = 'T' :: n → ∃ t, parseInt n = some t := by
          intro n hn
          exact parseInt_some (h.2.1 n _ (by rw [hi, hn]))
        unfold stepModes
        simp only
        split_ifs with a1 a2 a3 a4 a5 a6 a7 a8
        · exact ⟨_, _, rfl, rfl⟩
        · exact ⟨_, _, rfl, rfl⟩
        · exact ⟨_, _, rfl, rfl⟩
        · exact ⟨_, _, rfl, rfl⟩
        · exact ⟨_, _, rfl, rfl⟩
        · exact ⟨_, _, rfl, rfl⟩
        · exact ⟨_, _, rfl, rfl⟩
        · simp only [List.head?_cons, Option.some.injEq] at a8
          obtain ⟨t, ht⟩ := hTi v (by rw [a8])
          simp only [List.tail_cons, ht]
          exact ⟨_, _, rfl, rfl⟩
        · exact ⟨_, _, rfl, rfl⟩
      obtain ⟨m1, l1, e1, e2⟩ := hmode
      rw [e1]
      simp only
      have hw : ∀ w ∈ (some (c, v) :: ts : List Tok).filterMap id, w.2 = [] ∨ ∃ a : α, parseFloat w.2 = some a := by
        intro w hw
        have hw' : w ∈ words r := hmem w (by simpa using hw)
        rcases h.1 w hw' with h0 | h0
        · exact Or.inl h0
        · right
          obtain ⟨cs, hcs⟩ := words_num hw'
          rw [hcs] at h0 ⊢
          exact parseFloat_some h0
      have hc : ∃ l2, (if (c.toUpper :: v).head? = some 'G' then parseCoordinates l1 (some (c, v) :: ts) m1.imperial else .ok l1) = .ok l2 := by
        split_ifs with hG
        · unfold parseCoordinates
          rw [e2]
          simp only
          rw [if_neg (by simpa using hG)]
          exact fold_parse_ok _ hw l1
        · exact ⟨_, rfl⟩
      obtain ⟨l2, e3⟩ := hc
      rw [e3]
      exact ⟨_, _, rfl⟩

/-- The dwell word of a well-formed line can be read. -/
theorem dwell_wf {home : Home α} {m m' : Machine α} {r : Str} {l : PyLine α} (h : WellFormed r)
    (hp : processLine home m ({ raw := r } : PyLine α) = .ok (m', l)) (hc : l.command = some c!"G4") :
    ∃ o : Option α, findSpecificCode r 'P' = .ok o := by
  have hcm : (split ({ raw := r } : PyLine α)).1.command = some c!"G4" := by rw [← hc]; exact (processLine_keeps hp).2.1.symm
  have hi : ∃ ws, instr r = some (c!"G4", ws) := by
    cases hd : dropN (findall (lower r)) with
    | nil =>
      have hs : split ({ raw := r } : PyLine α) = ({ raw := r, command := some r, isMove := false }, []) := by
        unfold split; simp only [hd]
      rw [hs] at hcm
      simp only [Option.some.injEq] at hcm
      exact absurd (by rw [hcm]; rfl) (not_hasCommand_inert hd).1
    | cons t ts =>
      cases t with
      | none =>
        have hs : split ({ raw := r } : PyLine α) = ({ raw := r }, none :: ts) := by
          unfold split; simp only [hd]; rfl
        rw [hs] at hcm
        simp at hcm
      | some q =>
        obtain ⟨c, v⟩ := q
        rw [split_eq ({ raw := r } : PyLine α) hd] at hcm
        simp only [Option.some.injEq] at hcm
        have := (instr_of_dropN hd).1
        rw [hcm] at this
        exact ⟨_, this⟩
  obtain ⟨ws, hi⟩ := hi
  have hdw := h.2.2 ws hi
  unfold findSpecificCode
  unfold dwellWords at hdw
  cases hw : findSpecificAux 'P' 0 r with
  | nil => exact ⟨none, rfl⟩
  | cons v vs =>
    have hv := hdw v (by rw [hw]; simp)
    obtain ⟨cs, hcs⟩ := findSpecificAux_num 'P' r 0 v (by rw [hw]; simp)
    rw [hcs] at hv
    obtain ⟨a, ha⟩ := parseFloat_some (α := α) hv
    rw [← hcs] at ha
    simp only [ha]
    exact ⟨_, rfl⟩

/-! ### the loop under the line conditions -/

theorem durPos_step {env : Env α} (henv : ∀ a b, 0 ≤ env.hypot a b) {light : Bool} {home : Home α} {s s' : BuildSt α}
    {r : Str} (hr : DurLine α r) (hi : DurPos s) (h : buildStep env light home s { raw := r } = .ok s') : DurPos s' := by
  obtain ⟨m, l, hp, ⟨hc, rfl⟩ | ⟨cmd, ds, hc, hne, hd, rfl⟩⟩ := buildStep_ok h
  · exact ⟨hi.f, hi.b, hi.d⟩
  · have hraw : l.raw = r := (processLine_keeps hp).1
    obtain ⟨k1, k2, k3⟩ := (stepDur_nonneg henv (d := s.ds) (l := l) hi.f (fun hg => process_feed hp hr.1 hg)
      (fun _ p hq => findSpecific_nonneg hr.2 p (by rw [← hraw]; exact hq))).2 ds hd
    rcases stepLayer_dur env.mode { s.ls with hasExtrusion := s.ls.hasExtrusion || l.extruding.getD false } l ds.total ds.layerBegin with
      ⟨e1, e2⟩ | ⟨e1, z, ls, e2⟩
    · refine ⟨?_, ?_, ?_⟩
      · simp only [e1]; exact k1
      · simp only [e1]
        have := hi.b
        simp only [Bool.false_eq_true, if_false]
        rw [k3]; linarith
      · simp only [recordLine, e2]; exact hi.d
    · refine ⟨?_, ?_, ?_⟩
      · simp only [e1, if_true]; exact k1
      · simp only [e1, if_true]; exact le_refl _
      · intro L hL d hd'
        simp only [recordLine, e2] at hL
        rcases List.mem_append.1 hL with hL | hL
        · exact hi.d L hL d hd'
        · rw [List.mem_singleton] at hL
          subst hL
          simp only [Option.some.injEq] at hd'
          subst hd'
          have := hi.b
          rw [k3]; linarith

theorem durPos_error {env : Env α} (henv : ∀ a b, 0 ≤ env.hypot a b) {light : Bool} {home : Home α} {s : BuildSt α}
    {r : Str} {e : Err} (hr : DurLine α r) (hi : DurPos s) (h : buildStep env light home s { raw := r } = .error e) :
    e = .valueError := by
  rcases buildStep_error h with h | ⟨m, l, hp, hd⟩
  · exact process_error_value h
  · have hraw : l.raw = r := (processLine_keeps hp).1
    exact (stepDur_nonneg henv (d := s.ds) (l := l) hi.f (fun hg => process_feed hp hr.1 hg)
      (fun _ p hq => findSpecific_nonneg hr.2 p (by rw [← hraw]; exact hq))).1 e hd

theorem start_durPos (g : GCode α) : DurPos (BuildSt.start g) :=
  ⟨le_refl _, le_refl _, fun L hL => by simp [BuildSt.start] at hL⟩

theorem mem_readLines {data : List Str} {l : PyLine α} (h : l ∈ readLines data) :
    ∃ t ∈ data, l = { raw := strip t } := by
  unfold readLines at h
  simp only [List.mem_map, List.mem_filter] at h
  obtain ⟨s, ⟨⟨t, ht, rfl⟩, _⟩, rfl⟩ := h
  exact ⟨t, ht, rfl⟩

/-- The loop keeps durations non-negative. -/
theorem fold_durPos {env : Env α} (henv : ∀ a b, 0 ≤ env.hypot a b) {light : Bool} {home : Home α}
    (ls : List (PyLine α)) (hls : ∀ l ∈ ls, ∃ r, l = { raw := r } ∧ DurLine α r) :
    ∀ {s s' : BuildSt α}, DurPos s → ls.foldlM (buildStep env light home) s = .ok s' → DurPos s' := by
  induction ls with
  | nil =>
    intro s s' hi h
    simp only [List.foldlM_nil, pure, Except.pure, Except.ok.injEq] at h
    subst h; exact hi
  | cons l ls ih =>
    intro s s' hi h
    rw [foldlM_cons_ok] at h
    obtain ⟨t, h1, h2⟩ := h
    obtain ⟨r, rfl, hr⟩ := hls l (by simp)
    exact ih (fun l' hl' => hls l' (by simp [hl'])) (durPos_step henv hr hi h1) h2

theorem buildStep_wf {env : Env α} {light : Bool} {home : Home α} {s : BuildSt α} {r : Str} (hw : WellFormed r)
    (hz : buildStep env light home s { raw := r } ≠ .error .zeroDivision) :
    ∃ s', buildStep env light home s { raw := r } = .ok s' := by
  cases hb : buildStep env light home s { raw := r } with
  | ok s' => exact ⟨s', rfl⟩
  | error e =>
    exfalso
    rcases buildStep_error hb with h | ⟨m, l, hp, hd⟩
    · obtain ⟨m', l', h'⟩ := process_wf (home := home) (m := s.m) hw
      rw [h] at h'; simp at h'
    · rcases stepDur_error hd with ⟨rfl, _⟩ | ⟨rfl, hc, hf⟩
      · exact hz hb
      · obtain ⟨o, ho⟩ := dwell_wf hw hp hc
        rw [(processLine_keeps hp).1] at hf
        rw [hf] at ho
        simp at ho

theorem empty_step {env : Env α} {light : Bool} {home : Home α} {s s' : BuildSt α} {l0 : PyLine α}
    (h : buildStep env light home s l0 = .ok s') : s'.ls.curLines ≠ [] := by
  obtain ⟨m, l, hp, ⟨hc, rfl⟩ | ⟨cmd, ds, hc, hne, hd, rfl⟩⟩ := buildStep_ok h <;> simp [recordLine]

theorem empty_fold {env : Env α} {light : Bool} {home : Home α} {g : GCode α} {ls : List (PyLine α)} {s : BuildSt α}
    (h : ls.foldlM (buildStep env light home) (BuildSt.start g) = .ok s) :
    s.ls.curLines = [] → s.ds.total = s.ds.layerBegin :=
  foldlM_inv (buildStep env light home) (fun _ (s : BuildSt α) => s.ls.curLines = [] → s.ds.total = s.ds.layerBegin)
    (fun _ _ _ _ _ hs he => absurd he (empty_step hs)) _ [] _ s (fun _ => rfl) h

theorem load_error {env : Env α} {data : List Str} {light : Bool} {home : Home α} {e : Err}
    (h : GCode.load env data light home = .error e) :
    data ≠ [] ∧ (readLines data).foldlM (buildStep env light home) (BuildSt.start (GCode.blank light home)) = .error e := by
  unfold GCode.load prepare at h
  by_cases hd : data.isEmpty = true
  · rw [if_pos hd] at h
    simp at h
  · rw [if_neg hd] at h
    refine ⟨by simpa [List.isEmpty_iff] using hd, ?_⟩
    unfold preprocessAll at h
    have hl : (GCode.blank light home).light = light := rfl
    have hh : (GCode.blank light home).home = home := rfl
    rw [hl, hh] at h
    cases hf : (readLines data).foldlM (buildStep env light home)
        (BuildSt.start (GCode.blank light home)) with
    | error er =>
      rw [hf] at h
      simp only [Except.error.injEq] at h
      rw [h]
    | ok s => rw [hf] at h; simp at h

theorem sum_nonneg_list {l : List α} (h : ∀ d ∈ l, 0 ≤ d) : 0 ≤ l.sum := by
  induction l with
  | nil => simp
  | cons a l ih =>
    rw [List.sum_cons]
    exact add_nonneg (h a (by simp)) (ih (fun d hd => h d (by simp [hd])))

end GCodeUtils
