import Verif.Lemmas.Arc
import Verif.Lemmas.Simulate
import Mathlib.Data.List.Chain

/-
  The windows that are replaced consist of extruding moves.
-/

set_option linter.unusedSectionVars false

namespace GCodeUtils

open Spec

variable {α : Type} [Field α] [LinearOrder α] [IsStrictOrderedRing α] [FloorRing α]

/-- The filament coordinate along the lines of a loaded program, starting at `e`. -/
inductive ETrace : α → List (PyLine α) → Prop where
  | nil (e) : ETrace e []
  | cons {e e' l ls} : (l.command = none → l.e = none ∧ l.currentE = none) → (IsMove l → l.currentE = some e') →
      (l.e = none → e' = e) → ETrace e' ls → ETrace e (l :: ls)

theorem run_etrace {home : Home α} {m m' : Machine α} {raws : List Str} {out : List (PyLine α)} (h : Run home m (bare raws) m' out) :
    ETrace m.currentE out := by
  generalize hb : bare raws = ls at h
  induction h generalizing raws with
  | nil m => exact .nil _
  | cons hp _ ih =>
    rename_i m m1 m' l l' ls out _
    cases raws with
    | nil => simp [bare] at hb
    | cons r raws =>
      simp only [bare, List.map_cons, List.cons.injEq] at hb
      obtain ⟨rfl, hb⟩ := hb
      have ih := ih hb
      have hsplit : ∀ (x : PyLine α), (split x).1.e = x.e ∧ (split x).1.currentE = x.currentE := by
        intro x
        unfold split
        split
        · exact ⟨rfl, rfl⟩
        · simp only
          split <;> exact ⟨rfl, rfl⟩
      obtain ⟨s1, s2⟩ := hsplit ({ raw := r } : PyLine α)
      rcases processLine_ok hp with ⟨hc, rfl, rfl⟩ | ⟨cmd, hc, hne, m1, l1, l2, m3, l3, h1, h2, h3, rfl, rfl⟩
      · refine .cons (fun _ => ⟨s1, s2⟩) ?_ (fun _ => rfl) ih
        rintro ⟨c, hm, h⟩
        rcases hc with hc | hc
        · rw [hc] at h; simp at h
        · rw [hc] at h
          obtain rfl := Option.some.inj h
          simp at hm
      · have hk := (processLine_keeps hp).2.1
        refine .cons (fun h => ?_) (fun _ => rfl) ?_ ih
        · rw [hk, hc] at h; simp at h
        · intro he
          have hm1 : m1.currentE = m.currentE := by
            rcases stepModes_shape h1 with ⟨_, rfl, _⟩ | ⟨_, _, i, r, re, t, rfl⟩ <;> rfl
          unfold stepExtrusion at h3
          cases h2e : l2.e with
          | none =>
            simp only [stamp, h2e, Prod.mk.injEq] at h3
            rw [← h3.1, (stepPos_e home m1 l2 cmd).1, hm1]
          | some v =>
            exfalso
            obtain ⟨te, ce, me, oe, ex, h4⟩ := stepExtrusion_shape (stepPos home m1 l2 cmd) (stamp (stepPos home m1 l2 cmd) l2) cmd
            unfold stepExtrusion at h4
            rw [h3] at h4
            have := (Prod.mk.inj h4).2
            rw [this] at he
            simp [stamp, h2e] at he

/-- What the filament coordinates of neighbours in the queue have to do with each other. -/
def EStep (a b : PyLine α) : Prop := b.e = none → a.currentE = none ∨ b.currentE = a.currentE

/-- Invariant of queue and remaining input. -/
def EInv (q ls : List (PyLine α)) : Prop :=
  List.IsChain EStep q ∧ ∃ e, ETrace e ls ∧ ∀ a, q.getLast? = some a → a.currentE = none ∨ a.currentE = some e

theorem einv_suffix {q q' ls : List (PyLine α)} (h : EInv q ls) (hs : q' <:+ q) : EInv q' ls := by
  obtain ⟨h1, e, h2, h3⟩ := h
  refine ⟨h1.suffix hs, e, h2, ?_⟩
  intro a ha
  apply h3
  obtain ⟨pre, rfl⟩ := hs
  rw [List.getLast?_append, ha]; rfl

theorem einv_skip {q ls : List (PyLine α)} {l : PyLine α} (h : EInv q (l :: ls)) : EInv [] ls := by
  obtain ⟨_, e, h2, _⟩ := h
  cases h2 with
  | cons _ _ _ h => exact ⟨List.IsChain.nil, _, h, by simp⟩

theorem einv_push {q ls : List (PyLine α)} {l : PyLine α} (h : EInv q (l :: ls)) (hl : MoveOrComment l) : EInv (q ++ [inheritPos q l]) ls := by
  obtain ⟨h1, e, h2, h3⟩ := h
  cases h2 with
  | cons hc hm he ht =>
    rename_i e'
    have key : (∀ a, q.getLast? = some a → EStep a (inheritPos q l)) ∧ ((inheritPos q l).currentE = none ∨ (inheritPos q l).currentE = some e') := by
      unfold inheritPos
      cases hcmd : l.command with
      | some c =>
        have hmv : IsMove l := by
          rcases hl with h | h
          · exact h
          · rw [hcmd] at h; simp at h
        simp only
        refine ⟨fun a ha hn => ?_, Or.inr (hm hmv)⟩
        rw [hm hmv, he hn]
        rcases h3 a ha with h | h
        · exact Or.inl h
        · exact Or.inr h.symm
      | none =>
        obtain ⟨k1, k2⟩ := hc hcmd
        cases hq : q.getLast? with
        | none => exact ⟨by simp, Or.inl k2⟩
        | some x =>
          refine ⟨fun a ha hn => ?_, ?_⟩
          · obtain rfl := Option.some.inj ha
            exact Or.inr rfl
          · rw [he k1]
            exact h3 x hq
    refine ⟨?_, e', ht, ?_⟩
    · rw [List.isChain_append]
      refine ⟨h1, List.isChain_singleton _, ?_⟩
      intro x hx y hy
      simp only [List.head?_cons, Option.mem_def, Option.some.injEq] at hy
      subst hy
      exact key.1 x hx
    · intro a ha
      rw [List.getLast?_append] at ha
      simp only [List.getLast?_singleton, Option.some_or, Option.some.injEq] at ha
      subst ha
      exact key.2

open Classical in
/-- The same decisions, refusing to emit for windows that do not satisfy `G`. -/
noncomputable def guardOps (ops : ArcOps α) (G : List (PyLine α) → Prop) : ArcOps α where
  valid := ops.valid
  emit := fun q l => if G q then ops.emit q l else .error .valueError

/-- On loaded programs the guard makes no difference. -/
theorem arcFilter_guard {ops : ArcOps α} (hlast : ∀ q l r, ops.emit q l = .ok r → r.getLast? = some l) (ls : List (PyLine α)) : ∀ s : ArcSt α,
    EInv s.queue ls → filterLines (arcFilter (guardOps ops (List.IsChain EStep))) s ls = filterLines (arcFilter ops) s ls := by
  induction ls with
  | nil => intro s _; rfl
  | cons l ls ih =>
    intro s hi
    have hemit : (guardOps ops (List.IsChain EStep)).emit s.queue = ops.emit s.queue := by
      funext x
      simp only [guardOps, if_pos hi.1]
    have hstep : arcFilter (guardOps ops (List.IsChain EStep)) s l = arcFilter ops s l := by
      unfold arcFilter
      rw [hemit]
      rfl
    have hnext : ∀ s' o, arcFilter ops s l = .ok (s', o) → EInv s'.queue ls := by
      intro s' o h
      have hcom := kept_command (inheritPos_kept s.queue l)
      have push : (inheritPos s.queue l).inMoves = true → EInv (s.queue ++ [inheritPos s.queue l]) ls := by
        intro hm
        refine einv_push hi ((moveOrComment_of l).1 ?_)
        rw [← show (inheritPos s.queue l).inMoves = l.inMoves by unfold PyLine.inMoves; rw [hcom], hm]; rfl
      unfold arcFilter at h
      simp only at h
      by_cases hlen : minSegments < (s.queue ++ [inheritPos s.queue l]).length
      · rw [if_pos hlen] at h
        by_cases hm : (inheritPos s.queue l).inMoves = true
        · rw [hm] at h
          simp only [Bool.not_true, Bool.false_eq_true, if_false] at h
          cases hv : ops.valid (s.queue ++ [inheritPos s.queue l]) with
          | error e => rw [hv] at h; simp at h
          | ok b =>
            rw [hv] at h
            cases b with
            | true =>
              simp only [Except.ok.injEq, Prod.mk.injEq] at h
              rw [← h.1]; exact push hm
            | false =>
              simp only at h
              by_cases hc : s.validCircle = true
              · rw [if_pos hc] at h
                cases he : ops.emit s.queue (inheritPos s.queue l) with
                | error e => rw [he] at h; simp at h
                | ok r =>
                  rw [he] at h
                  simp only [hlast _ _ _ he, Except.ok.injEq, Prod.mk.injEq] at h
                  rw [← h.1]
                  exact einv_suffix (push hm) ⟨s.queue, rfl⟩
              · rw [if_neg hc] at h
                cases hq : s.queue ++ [inheritPos s.queue l] with
                | nil => simp at hq
                | cons x tl =>
                  rw [hq] at h
                  simp only [Except.ok.injEq, Prod.mk.injEq] at h
                  rw [← h.1]
                  exact einv_suffix (push hm) (by rw [hq]; exact List.suffix_cons _ _)
        · rw [show (inheritPos s.queue l).inMoves = false by simpa using hm] at h
          simp only [Bool.not_false, if_true] at h
          by_cases hc : s.validCircle = true
          · rw [if_pos hc] at h
            cases he : ops.emit s.queue (inheritPos s.queue l) with
            | error e => rw [he] at h; simp at h
            | ok r =>
              rw [he] at h
              simp only [Except.ok.injEq, Prod.mk.injEq] at h
              rw [← h.1]; exact einv_skip hi
          · rw [if_neg hc] at h
            simp only [Except.ok.injEq, Prod.mk.injEq] at h
            rw [← h.1]; exact einv_skip hi
      · rw [if_neg hlen] at h
        by_cases hm : ((inheritPos s.queue l).inMoves || (inheritPos s.queue l).command = none) = true
        · rw [if_pos hm] at h
          simp only [Except.ok.injEq, Prod.mk.injEq] at h
          rw [← h.1]
          refine einv_push hi ((moveOrComment_of l).1 ?_)
          rw [← show (inheritPos s.queue l).inMoves = l.inMoves by unfold PyLine.inMoves; rw [hcom], ← hcom, hm]
        · rw [if_neg hm] at h
          simp only [Except.ok.injEq, Prod.mk.injEq] at h
          rw [← h.1]; exact einv_skip hi
    unfold filterLines
    rw [hstep]
    cases hf : arcFilter ops s l with
    | error e => rfl
    | ok p =>
      obtain ⟨s', o⟩ := p
      simp only
      rw [ih s' (hnext s' o hf)]

/-- The run of the optimiser on the flat program. -/
theorem arcRun_flat {ops : ArcOps α} {s s' : ArcSt α} {g g' : GCode α} (hne : g.allLayers ≠ []) (h : arcRun ops s g = .ok (s', g')) :
    ∃ out, filterLines (arcFilter ops) s (program g) = .ok (s', out) ∧ program g' = out ++ s'.queue := by
  unfold arcRun runFilter at h
  rw [parseLayers_eq] at h
  cases hf : filterLayers (arcFilter ops) s g.allLayers with
  | error e => rw [hf] at h; simp at h
  | ok p =>
    obtain ⟨s1, Ls⟩ := p
    rw [hf] at h
    simp only [Except.ok.injEq, Prod.mk.injEq] at h
    obtain ⟨rfl, rfl⟩ := h
    obtain ⟨f1, f2, _⟩ := filterLayers_flat _ _ _ _ _ hf
    have e1 : program g = g.allLayers.flatMap (·.lines) := by
      unfold program layerLines; rw [List.flatMap_def]
    rw [e1]
    have hLs : Ls ≠ [] := by
      intro hc
      rw [hc] at f2
      exact hne (by simpa using f2.symm)
    refine ⟨_, f1, ?_⟩
    by_cases hq : s1.queue.isEmpty = true
    · rw [if_pos hq]
      rw [List.isEmpty_iff] at hq
      rw [hq, List.append_nil]
      unfold program layerLines; rw [List.flatMap_def]
    · rw [if_neg hq]
      unfold program layerLines
      rw [← List.flatMap_def, modifyLast_flat _ _ hLs]

/-- A chain without E words pushes nothing. -/
theorem chain_pushes (q : List (PyLine α)) : ∀ fils, List.IsChain EStep q → (∀ l ∈ q.tail, l.e = none) →
    List.Forall₂ (fun (s : PyLine α × PyLine α) v => Pushes s.1 s.2 v) (steps q) fils → fils.sum = 0 := by
  induction q with
  | nil => intro fils _ _ h; simp only [steps, List.tail_nil, List.zip_nil_right] at h; cases h; rfl
  | cons a q ih =>
    intro fils hc he h
    cases q with
    | nil => simp only [steps, List.tail_cons, List.zip_nil_right] at h; cases h; rfl
    | cons b q =>
      rw [steps_cons] at h
      cases h with
      | cons h1 h2 =>
        rename_i v vs
        rw [List.isChain_cons_cons] at hc
        have hb : b.e = none := he b (by simp)
        have hz : v = 0 := by
          unfold Pushes at h1
          simp only at h1
          by_cases hr : b.relativeE = some true
          · rw [if_pos hr, hb] at h1; simp at h1
          · rw [if_neg hr] at h1
            obtain ⟨x, y, hx, hy, rfl⟩ := h1
            rcases hc.1 hb with hn | hn
            · rw [hn] at hy; simp at hy
            · rw [hx, hy] at hn
              rw [Option.some.inj hn, sub_self]
        rw [List.sum_cons, hz, zero_add]
        exact ih vs hc.2 (fun l hl => he l (by simp only [List.tail_cons] at hl ⊢; exact List.mem_cons_of_mem _ hl)) h2

/-- A replaced window whose lines are chained has an E word on every line. -/
theorem replacement_words {t : Trig α} {start : PyLine α} {w gen : List (PyLine α)} (h : ArcReplacement t start w gen)
    (hc : List.IsChain EStep (start :: w)) : ∀ l ∈ w, l.e ≠ none := by
  obtain ⟨_, pts, c, r, paths, fils, arc, rest, ho, ha, _, _⟩ := h
  rcases ho.words with hw | hw
  · exact hw
  · exfalso
    have hz := chain_pushes _ _ hc (by simpa using hw) ho.fils_eq
    obtain ⟨last, hl, h1, h2⟩ := ha.filament
    by_cases hr : last.relativeE = some true
    · have hm : ∃ x, (x, last) ∈ steps (start :: w) := by
        obtain ⟨ys, rfl⟩ := List.getLast?_eq_some_iff.1 hl
        unfold steps
        rw [List.tail_cons, show start :: (ys ++ [last]) = (start :: ys) ++ [last] by simp]
        cases hys : (start :: ys).getLast? with
        | none => simp at hys
        | some x =>
          obtain ⟨zs, hzs⟩ := List.getLast?_eq_some_iff.1 hys
          refine ⟨x, ?_⟩
          rw [hzs]
          have hlen : ys.length = zs.length := by
            have := congrArg List.length hzs
            simpa using this
          rw [show zs ++ [x] ++ [last] = zs ++ [x, last] by simp, List.zip_append hlen.symm]
          simp
      obtain ⟨x, hm⟩ := hm
      obtain ⟨i, hi, he⟩ := List.getElem_of_mem hm
      have hl2 := ho.fils_eq.length_eq
      have := List.forall₂_iff_get.1 ho.fils_eq |>.2 i hi (by omega)
      simp only [List.get_eq_getElem] at this
      rw [he] at this
      unfold Pushes at this
      simp only at this
      rw [if_pos hr, hw last (List.mem_of_getLast? hl)] at this
      simp at this
    · exact (h2 hr).1 hz

theorem arcOps_last {t : Trig α} : ∀ (q : List (PyLine α)) (l : PyLine α) (r : List (PyLine α)), (arcOps t).emit q l = .ok r → r.getLast? = some l := by
  intro q l r he
  simp only [arcOps] at he
  unfold toGcode at he
  split at he
  · split at he
    · simp at he
    · split at he
      · simp at he
      · split at he
        · simp at he
        · split at he
          · simp at he
          · rename_i c _
            simp only at he
            generalize (if 0 < c.direction then c!"G3" else c!"G2") = cmd at he
            split at he
            · split at he
              · simp at he
              · simp only [Except.ok.injEq] at he
                rw [← he]; rfl
            · split at he
              · split at he
                all_goals
                  simp only [Except.ok.injEq] at he
                  rw [← he]; rfl
              · simp at he
              · simp at he
  · simp at he

/-- The optimiser on a loaded program, with the guard. -/
theorem arcRun_guarded {t : Trig α} {env : Env α} {data : List Str} {home : Home α} {g g' : GCode α} (h : GCode.load env data false home = .ok g)
    (hne : g.allLayers ≠ []) {s : ArcSt α} (hr : arcRun (arcOps t) {} g = .ok (s, g')) :
    ∃ out, filterLines (arcFilter (guardOps (arcOps t) (List.IsChain EStep))) {} (program g) = .ok (s, out) ∧ program g' = out ++ s.queue := by
  obtain ⟨out, h1, h2⟩ := arcRun_flat hne hr
  obtain ⟨ls, hrun, hl⟩ := load_run' h
  have htr := run_etrace hrun
  rw [← hl rfl, (load_indexed h).flat] at htr
  have hg := arcFilter_guard (arcOps_last (t := t)) (program g) {} ⟨List.IsChain.nil, _, htr, by simp⟩
  rw [h1] at hg
  exact ⟨out, hg, h2⟩

theorem guard_replaces {t : Trig α} : ∀ first w last r, (guardOps (arcOps t) (List.IsChain EStep)).valid (first :: w) = .ok true → 8 ≤ w.length →
    (∀ l ∈ first :: w, MoveOrComment l) → (guardOps (arcOps t) (List.IsChain EStep)).emit (first :: w) last = .ok r →
    ∃ gen, r = first :: (gen ++ [last]) ∧ (ArcReplacement t first w gen ∧ ∀ l ∈ w, l.e ≠ none) := by
  intro first w last r hv hlen hm he
  simp only [guardOps] at he
  by_cases hc : List.IsChain EStep (first :: w)
  · rw [if_pos hc] at he
    obtain ⟨gen, hg1, hg2⟩ := toGcode_spec hv hlen hm he
    exact ⟨gen, hg1, hg2, replacement_words hg2 hc⟩
  · rw [if_neg hc] at he; simp at he

/-- The optimiser on a loaded program only replaces windows whose lines all carry an E word. -/
theorem arcRun_extruding {t : Trig α} {env : Env α} {data : List Str} {home : Home α} {g g' : GCode α} (h : GCode.load env data false home = .ok g)
    (hne : g.allLayers ≠ []) {s : ArcSt α} (hr : arcRun (arcOps t) {} g = .ok (s, g')) :
    Rewrites (fun start w gen => ArcReplacement t start w gen ∧ ∀ l ∈ w, l.e ≠ none) (program g) (program g') := by
  obtain ⟨out, hg, h2⟩ := arcRun_guarded h hne hr
  have hrw := arcFilter_rewrites (ops := guardOps (arcOps t) (List.IsChain EStep)) (R := fun start w gen => ArcReplacement t start w gen ∧ ∀ l ∈ w, l.e ≠ none)
    guard_replaces (program g) (queueInv_fresh _) List.Forall₂.nil hg
  rw [h2]
  simpa using hrw.2

theorem guard_last {t : Trig α} : ∀ (q : List (PyLine α)) (l : PyLine α) (r : List (PyLine α)), (guardOps (arcOps t) (List.IsChain EStep)).emit q l = .ok r → r.getLast? = some l := by
  intro q l r he
  simp only [guardOps] at he
  by_cases hc : List.IsChain EStep q
  · rw [if_pos hc] at he; exact arcOps_last q l r he
  · rw [if_neg hc] at he; simp at he

end GCodeUtils
