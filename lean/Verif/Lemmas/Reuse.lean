import Verif.Model.Reuse
import Verif.Spec.Reuse
import Verif.Props.Filter
import Verif.Props.RelExt
import Verif.Props.Arc

/-
  One filter object for several programs.
-/

set_option linter.unusedSectionVars false

namespace GCodeUtils

open Spec

variable {α : Type} [Field α] [LinearOrder α] [IsStrictOrderedRing α] [FloorRing α]

/-- Programs that start alike from every state of a family, and programs that leave a state of the family. -/
theorem filterAll_each {σ : Type} {run : σ → GCode α → Except Err (σ × GCode α)} {s0 : σ} {I : σ → Prop} {Starts Leaves : GCode α → Prop}
    (hs : ∀ s g, I s → Starts g → (run s g).map (·.2) = (run s0 g).map (·.2))
    (hl : ∀ s g s' g', I s → Leaves g → run s g = .ok (s', g') → I s') (gs : List (GCode α)) :
    ∀ s, I s → (∀ g ∈ gs, Starts g) → (∀ g ∈ gs.dropLast, Leaves g) → filterAll run s gs = eachOf (fun g => (run s0 g).map (·.2)) gs := by
  induction gs with
  | nil => intro s _ _ _; rfl
  | cons g gs ih =>
    intro s hi h1 h2
    have e := hs s g hi (h1 g (by simp))
    rw [filterAll, eachOf]
    rw [← e]
    cases hr : run s g with
    | error er => rfl
    | ok p =>
      obtain ⟨s', g'⟩ := p
      simp only [Except.map]
      cases gs with
      | nil => rfl
      | cons a gs =>
        rw [ih s' (hl s g s' g' hi (h2 g (by simp)) hr) (fun g hg => h1 g (by simp [hg])) (fun g hg => h2 g (by simp [List.dropLast, hg]))]
        rfl

/-- The first program starts in the state of a new object. -/
theorem filterAll_tail {σ : Type} {run : σ → GCode α → Except Err (σ × GCode α)} {s0 : σ} {I : σ → Prop} {Starts Leaves : GCode α → Prop}
    (hi : I s0) (hs : ∀ s g, I s → Starts g → (run s g).map (·.2) = (run s0 g).map (·.2))
    (hl : ∀ s g s' g', I s → Leaves g → run s g = .ok (s', g') → I s') (gs : List (GCode α))
    (h1 : ∀ g ∈ gs.tail, Starts g) (h2 : ∀ g ∈ gs.dropLast, Leaves g) : filterAll run s0 gs = eachOf (fun g => (run s0 g).map (·.2)) gs := by
  cases gs with
  | nil => rfl
  | cons g gs =>
    rw [filterAll, eachOf]
    cases hr : run s0 g with
    | error er => rfl
    | ok p =>
      obtain ⟨s', g'⟩ := p
      simp only [Except.map]
      cases gs with
      | nil => rfl
      | cons a gs =>
        rw [filterAll_each hs hl (a :: gs) s' (hl s0 g s' g' hi (h2 g (by simp)) hr) h1 (fun g hg => h2 g (by simp [List.dropLast, hg]))]
        rfl

theorem runFilter_state {σ : Type} {P : σ → Prop} {F : OpFilter σ α} {f : σ → PyLine α → σ × PyLine α}
    (h : OneToOne P F f) (s : σ) (hs : P s) (g : GCode α) :
    runFilter F s g = .ok ((scanLayers f s g.allLayers).1, { g with allLayers := (scanLayers f s g.allLayers).2 }) := by
  unfold runFilter
  rw [parseLayers_eq, filterLayers_scan h _ _ hs]

theorem scanLayers_state {σ : Type} (f : σ → PyLine α → σ × PyLine α) (Ls : List (Layer α)) :
    ∀ s, (scanLayers f s Ls).1 = (scan f s (Ls.flatMap (·.lines))).1 := by
  induction Ls with
  | nil => intro s; rfl
  | cons L Ls ih => intro s; simp only [scanLayers, List.flatMap_cons, scan_append, ih]

/-- Scans from two states that agree on every line, until the states are the same. -/
theorem scanLayers_same {σ : Type} (f : σ → PyLine α → σ × PyLine α) {R : σ → σ → List (PyLine α) → Prop}
    (hR : ∀ s s' l ls, R s s' (l :: ls) → (f s l).2 = (f s' l).2 ∧ R (f s l).1 (f s' l).1 ls) (Ls : List (Layer α)) :
    ∀ s s', R s s' (Ls.flatMap (·.lines)) → (scanLayers f s Ls).2 = (scanLayers f s' Ls).2 := by
  have hlines : ∀ (ls rest : List (PyLine α)) s s', R s s' (ls ++ rest) → (scan f s ls).2 = (scan f s' ls).2 ∧ R (scan f s ls).1 (scan f s' ls).1 rest := by
    intro ls
    induction ls with
    | nil => intro rest s s' h; exact ⟨rfl, h⟩
    | cons l ls ih =>
      intro rest s s' h
      obtain ⟨h1, h2⟩ := hR s s' l _ h
      obtain ⟨h3, h4⟩ := ih rest _ _ h2
      exact ⟨by simp only [scan, h1, h3], by simpa only [scan] using h4⟩
  induction Ls with
  | nil => intro s s' _; rfl
  | cons L Ls ih =>
    intro s s' h
    rw [List.flatMap_cons] at h
    obtain ⟨h1, h2⟩ := hlines _ _ s s' h
    simp only [scanLayers, h1, ih _ _ h2]

/-! ### translation -/

/-- Two states of the translation filter that differ in the mode at most, the rest of the program saying the mode. -/
def TransAlike (s s' : TransSt α) (ls : List (PyLine α)) : Prop :=
  s.tx = s'.tx ∧ s.ty = s'.ty ∧ s.firstMoveAfterHome = s'.firstMoveAfterHome ∧ (s.absMode = s'.absMode ∨ SaysDistances ls)

theorem saysDistances_cons {l : PyLine α} {ls : List (PyLine α)} (h : SaysDistances (l :: ls)) (h1 : ¬ HasCmd l c!"G90") (h2 : ¬ HasCmd l c!"G91") :
    SaysDistances ls := by
  intro pre k post he hk
  obtain ⟨x, hx, hc⟩ := h (l :: pre) k post (by rw [he]; rfl) hk
  rcases List.mem_cons.1 hx with rfl | hx
  · rcases hc with hc | hc
    · exact absurd hc h1
    · exact absurd hc h2
  · exact ⟨x, hx, hc⟩

theorem transAlike_step (s s' : TransSt α) (l : PyLine α) (ls : List (PyLine α)) (h : TransAlike s s' (l :: ls)) :
    (transLine s l).2 = (transLine s' l).2 ∧ TransAlike (transLine s l).1 (transLine s' l).1 ls := by
  obtain ⟨tx, ty, fm, am⟩ := s
  obtain ⟨tx', ty', fm', am'⟩ := s'
  obtain ⟨h1, h2, h3, h4⟩ := h
  simp only at h1 h2 h3 h4
  subst h1 h2 h3
  rcases h4 with rfl | h4
  · exact ⟨rfl, rfl, rfl, rfl, .inl rfl⟩
  unfold transLine
  by_cases hm : IsMove l
  · obtain ⟨k, hk, _⟩ := h4 [] l ls rfl hm
    cases hk
  rw [if_neg hm, if_neg hm]
  by_cases h90 : HasCmd l c!"G90"
  · rw [if_pos h90, if_pos h90]; exact ⟨rfl, rfl, rfl, rfl, .inl rfl⟩
  rw [if_neg h90, if_neg h90]
  by_cases h91 : HasCmd l c!"G91"
  · rw [if_pos h91, if_pos h91]; exact ⟨rfl, rfl, rfl, rfl, .inl rfl⟩
  rw [if_neg h91, if_neg h91]
  have hrest := saysDistances_cons h4 h90 h91
  by_cases h92 : HasCmd l c!"G92"
  · rw [if_pos h92, if_pos h92]
    obtain ⟨raw, command, x, y, z, e, f, i, j, im, rel, relE, cx, cy, cz, ce, cf, ct, ex⟩ := l
    unfold translateG92
    simp only
    split_ifs
    · exact ⟨rfl, rfl, rfl, rfl, .inr hrest⟩
    · cases x <;> cases y <;> exact ⟨rfl, rfl, rfl, rfl, .inr hrest⟩
  · rw [if_neg h92, if_neg h92]; exact ⟨rfl, rfl, rfl, rfl, .inr hrest⟩

theorem trans_leaves (s : TransSt α) (ls : List (PyLine α)) (h : ∀ l ∈ ls, ¬ HasCmd l c!"G92") :
    (scan transLine s ls).1.tx = s.tx ∧ (scan transLine s ls).1.ty = s.ty ∧ (scan transLine s ls).1.firstMoveAfterHome = s.firstMoveAfterHome := by
  induction ls generalizing s with
  | nil => exact ⟨rfl, rfl, rfl⟩
  | cons l ls ih =>
    obtain ⟨i1, i2, i3⟩ := ih (transLine s l).1 (fun k hk => h k (by simp [hk]))
    simp only [scan, i1, i2, i3]
    unfold transLine
    rw [if_neg (h l (by simp))]
    split_ifs <;> exact ⟨rfl, rfl, rfl⟩

theorem translateAll_each (x y : Option α) (gs : List (GCode α)) (h1 : ∀ g ∈ gs.tail, SaysDistances (program g))
    (h2 : ∀ g ∈ gs.dropLast, ∀ l ∈ program g, ¬ HasCmd l c!"G92") : translateAll x y gs = eachOf (fun g => g.translate x y) gs := by
  refine filterAll_tail (I := fun s : TransSt α => s.tx = x.getD 0 ∧ s.ty = y.getD 0 ∧ s.firstMoveAfterHome = false)
    (Starts := fun g => SaysDistances (program g)) (Leaves := fun g => ∀ l ∈ program g, ¬ HasCmd l c!"G92") ⟨rfl, rfl, rfl⟩ ?_ ?_ gs h1 h2
  · intro s g hs hg
    rw [runFilter_state translate_oneToOne s hs.2.2, runFilter_state translate_oneToOne _ rfl]
    simp only [Except.map, Except.ok.injEq]
    rw [scanLayers_same transLine (R := TransAlike) transAlike_step g.allLayers s (TransSt.init x y) ⟨hs.1, hs.2.1, hs.2.2, .inr (by rw [← program_def]; exact hg)⟩]
  · intro s g s' g' hs hg hr
    rw [runFilter_state translate_oneToOne s hs.2.2] at hr
    obtain ⟨rfl, _⟩ := Prod.mk.inj (Except.ok.inj hr)
    have := trans_leaves s _ hg
    rw [program_def, ← scanLayers_state] at this
    rw [this.1, this.2.1, this.2.2]
    exact hs

/-! ### relative extrusion -/

/-- Two states of the conversion with what the rest of the program still has to say. -/
def RelAlike (s s' : RelSt α) (ls : List (PyLine α)) : Prop :=
  ∀ pre l post, ls = pre ++ l :: post → IsMove l → l.e ≠ none →
    (s.relative = s'.relative ∨ ∃ k ∈ pre, HasCmd k c!"M82" ∨ HasCmd k c!"M83") ∧
    (s.current = s'.current ∨ ∃ k ∈ pre, HasCmd k c!"G92" ∧ (k.e ≠ none ∨ (k.x = none ∧ k.y = none ∧ k.z = none)))

theorem relAlike_refl (s : RelSt α) (ls : List (PyLine α)) : RelAlike s s ls := fun _ _ _ _ _ _ => ⟨.inl rfl, .inl rfl⟩

theorem relAlike_step (s s' : RelSt α) (l : PyLine α) (ls : List (PyLine α)) (h : RelAlike s s' (l :: ls)) :
    (relLine s l).2 = (relLine s' l).2 ∧ RelAlike (relLine s l).1 (relLine s' l).1 ls := by
  unfold relLine
  have d : ∀ a b : Str, a ≠ b → HasCmd l a → ¬ HasCmd l b := by
    intro a b hab h1 h2
    unfold HasCmd at h1 h2
    rw [h1] at h2
    exact hab (Option.some.inj h2)
  by_cases h83 : HasCmd l c!"M83"
  · rw [if_pos h83, if_pos h83]
    refine ⟨rfl, fun pre k post he hk hne => ⟨.inl rfl, ?_⟩⟩
    rcases (h (l :: pre) k post (by rw [he]; rfl) hk hne).2 with h2 | ⟨w, hw, hw2⟩
    · exact .inl h2
    · rcases List.mem_cons.1 hw with rfl | hw
      · exact absurd hw2.1 (d _ _ (by decide) h83)
      · exact .inr ⟨w, hw, hw2⟩
  rw [if_neg h83, if_neg h83]
  by_cases h82 : HasCmd l c!"M82"
  · rw [if_pos h82, if_pos h82]
    refine ⟨rfl, fun pre k post he hk hne => ⟨.inl rfl, ?_⟩⟩
    rcases (h (l :: pre) k post (by rw [he]; rfl) hk hne).2 with h2 | ⟨w, hw, hw2⟩
    · exact .inl h2
    · rcases List.mem_cons.1 hw with rfl | hw
      · exact absurd hw2.1 (d _ _ (by decide) h82)
      · exact .inr ⟨w, hw, hw2⟩
  rw [if_neg h82, if_neg h82]
  have mode : ∀ pre k post, ls = pre ++ k :: post → IsMove k → k.e ≠ none → s.relative = s'.relative ∨ ∃ k ∈ pre, HasCmd k c!"M82" ∨ HasCmd k c!"M83" := by
    intro pre k post he hk hne
    rcases (h (l :: pre) k post (by rw [he]; rfl) hk hne).1 with h2 | ⟨w, hw, hw2⟩
    · exact .inl h2
    · rcases List.mem_cons.1 hw with rfl | hw
      · exact absurd hw2 (by rintro (hc | hc); exacts [h82 hc, h83 hc])
      · exact .inr ⟨w, hw, hw2⟩
  have keep : ¬ (HasCmd l c!"G92" ∧ (l.e ≠ none ∨ (l.x = none ∧ l.y = none ∧ l.z = none))) → RelAlike s s' ls := by
    intro hn pre k post he hk hne
    refine ⟨mode pre k post he hk hne, ?_⟩
    rcases (h (l :: pre) k post (by rw [he]; rfl) hk hne).2 with h2 | ⟨w, hw, hw2⟩
    · exact .inl h2
    · rcases List.mem_cons.1 hw with rfl | hw
      · exact absurd hw2 hn
      · exact .inr ⟨w, hw, hw2⟩
  by_cases h92 : HasCmd l c!"G92"
  · rw [if_pos h92, if_pos h92]
    cases he : l.e with
    | some e => exact ⟨rfl, fun pre k post hp hk hne => ⟨mode pre k post hp hk hne, .inl rfl⟩⟩
    | none =>
      simp only
      by_cases hb : l.x = none ∧ l.y = none ∧ l.z = none
      · rw [if_pos hb, if_pos hb]
        exact ⟨rfl, fun pre k post hp hk hne => ⟨mode pre k post hp hk hne, .inl rfl⟩⟩
      · rw [if_neg hb, if_neg hb]
        exact ⟨rfl, keep (by rintro ⟨_, hc | hc⟩; exacts [hc he, hb hc])⟩
  rw [if_neg h92, if_neg h92]
  have hk := keep (fun hc => h92 hc.1)
  by_cases hm : IsMove l
  · cases he : l.e with
    | none =>
      refine ⟨?_, ?_⟩ <;> split_ifs <;> simp only <;> first | rfl | exact hk
    | some e =>
      obtain ⟨a, b⟩ := h [] l ls rfl hm (by rw [he]; simp)
      simp only [List.not_mem_nil, false_and, exists_false, or_false] at a b
      obtain ⟨r, c⟩ := s
      obtain ⟨r', c'⟩ := s'
      simp only at a b
      subst a b
      exact ⟨rfl, relAlike_refl _ _⟩
  · rw [if_neg (fun hc => hm hc.1), if_neg (fun hc => hm hc.1)]
    exact ⟨rfl, hk⟩

theorem toRelativeEAll_each (gs : List (GCode α)) (h : ∀ g ∈ gs.tail, SaysExtrusion (program g)) :
    toRelativeEAll gs = eachOf (fun g => g.toRelativeE) gs := by
  refine filterAll_tail (I := fun _ : RelSt α => True) (Starts := fun g => SaysExtrusion (program g)) (Leaves := fun _ => True) trivial ?_ ?_ gs h
    (fun _ _ => trivial)
  · intro s g _ hg
    rw [runFilter_state rel_oneToOne s trivial, runFilter_state rel_oneToOne _ trivial]
    simp only [Except.map, Except.ok.injEq]
    rw [scanLayers_same relLine (R := RelAlike) relAlike_step g.allLayers s RelSt.init (fun pre l post he hm hne => by
      rw [← program_def] at he
      exact ⟨.inr (hg pre l post he hm hne).1, .inr (hg pre l post he hm hne).2⟩)]
  · intro _ _ _ _ _ _ _; trivial

/-! ### arcs -/

theorem inheritPos_command (q : List (PyLine α)) (l : PyLine α) : (inheritPos q l).command = l.command := by
  unfold inheritPos
  cases hc : l.command with
  | some c => rw [hc]
  | none =>
    cases hq : q.getLast? with
    | none => rw [hc]
    | some k => rfl

theorem arcFilter_command (ops : ArcOps α) (s s' : ArcSt α) (l : PyLine α) (r : FResult α) (hc : l.command ≠ none) (hm : ¬ IsMove l)
    (h : arcFilter ops s l = .ok (s', r)) : s' = {} := by
  have hi := inheritPos_command s.queue l
  unfold arcFilter at h
  simp only at h
  generalize inheritPos s.queue l = k at h hi
  have hk : k.inMoves = false := by
    have : k.inMoves = l.inMoves := by unfold PyLine.inMoves; rw [hi]
    rw [this, Bool.eq_false_iff]
    intro hx; exact hm ((inMoves_iff l).1 hx)
  rw [hk] at h
  simp only [Bool.not_false, if_true, Bool.false_or, decide_eq_true_eq] at h
  have hkc : ¬ k.command = none := by rw [hi]; exact hc
  by_cases hlen : minSegments < (s.queue ++ [k]).length
  · rw [if_pos hlen] at h
    by_cases hv : s.validCircle = true
    · rw [if_pos hv] at h
      cases he : ops.emit s.queue k with
      | error er => rw [he] at h; simp at h
      | ok r' =>
        rw [he] at h
        exact (Prod.mk.inj (Except.ok.inj h)).1.symm
    · rw [if_neg hv] at h
      have := (Prod.mk.inj (Except.ok.inj h)).1.symm
      rw [this]
      rw [Bool.not_eq_true] at hv
      rw [hv]
  · rw [if_neg hlen, if_neg hkc] at h
    exact (Prod.mk.inj (Except.ok.inj h)).1.symm

theorem filterLines_last {σ : Type} (f : OpFilter σ α) (pre : List (PyLine α)) (l : PyLine α) : ∀ {s s' : σ} {out : List (PyLine α)},
    filterLines f s (pre ++ [l]) = .ok (s', out) → ∃ s1 r, f s1 l = .ok (s', r) := by
  induction pre with
  | nil =>
    intro s s' out h
    simp only [List.nil_append, filterLines] at h
    cases hf : f s l with
    | error e => rw [hf] at h; simp at h
    | ok p =>
      obtain ⟨s1, r⟩ := p
      rw [hf] at h
      simp only [Except.ok.injEq, Prod.mk.injEq] at h
      exact ⟨s, r, by rw [hf, h.1]⟩
  | cons a pre ih =>
    intro s s' out h
    rw [List.cons_append, filterLines] at h
    cases hf : f s a with
    | error e => rw [hf] at h; simp at h
    | ok p =>
      obtain ⟨s1, r⟩ := p
      rw [hf] at h
      simp only at h
      cases hg : filterLines f s1 (pre ++ [l]) with
      | error e => rw [hg] at h; simp at h
      | ok q =>
        obtain ⟨s2, o2⟩ := q
        rw [hg] at h
        simp only [Except.ok.injEq, Prod.mk.injEq] at h
        rw [h.1] at hg
        exact ih hg

theorem arcRun_leaves (ops : ArcOps α) {s s' : ArcSt α} {g g' : GCode α} (he : EndsInCommand (program g)) (h : arcRun ops s g = .ok (s', g')) : s' = {} := by
  obtain ⟨pre, l, hp, hc, hm⟩ := he
  unfold arcRun runFilter at h
  rw [parseLayers_eq] at h
  cases hf : filterLayers (arcFilter ops) s g.allLayers with
  | error e => rw [hf] at h; simp at h
  | ok p =>
    obtain ⟨s1, Ls⟩ := p
    rw [hf] at h
    simp only [Except.ok.injEq, Prod.mk.injEq] at h
    obtain ⟨rfl, _⟩ := h
    obtain ⟨f1, _⟩ := filterLayers_flat _ _ _ _ _ hf
    rw [← program_def, hp] at f1
    obtain ⟨s2, r, hr⟩ := filterLines_last _ _ _ f1
    exact arcFilter_command ops s2 s1 l r hc hm hr

theorem optimizeArcsAll_each (t : Trig α) (gs : List (GCode α)) (h : ∀ g ∈ gs.dropLast, EndsInCommand (program g)) :
    optimizeArcsAll t gs = eachOf (fun g => g.optimizeArcs t) gs := by
  refine filterAll_tail (I := fun s : ArcSt α => s = {}) (Starts := fun _ => True) (Leaves := fun g => EndsInCommand (program g)) rfl ?_ ?_ gs
    (fun _ _ => trivial) h
  · rintro s g rfl _; rfl
  · rintro s g s' g' _ hg hr
    exact arcRun_leaves _ hg hr

end GCodeUtils
