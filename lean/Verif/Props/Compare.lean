import Verif.Lemmas.Meaning
import Verif.Model.Compare
import Verif.Spec.CommentLine
import Verif.Props.Format
import Verif.Props.Common

/-
  C15–C18: program comparison.
-/

set_option linter.unusedSectionVars false

namespace GCodeUtils

open Spec

variable {α : Type} [Field α] [LinearOrder α] [IsStrictOrderedRing α] [FloorRing α]

theorem meaningful_eq (g : GCode α) : g.meaningful = commandLines g := by
  unfold GCode.meaningful commandLines GCode.allLines layerLines
  rw [List.flatMap_def]
  apply List.filter_congr
  intro l _
  cases l.command <;> simp

theorem eqLoop_iff (as bs : List (PyLine α)) :
    eqLoop as bs = true ↔ ∃ xs ys, as = xs ++ ys ∧ ys.length ≤ 1 ∧ List.Forall₂ (fun a b => a.eq b = true) xs bs := by
  induction as generalizing bs with
  | nil =>
    simp only [eqLoop, List.isEmpty_iff]
    constructor
    · rintro rfl; exact ⟨[], [], rfl, by simp, List.Forall₂.nil⟩
    · rintro ⟨xs, ys, h, _, hf⟩
      have : xs = [] := by
        have := congrArg List.length h; simp at this; exact List.length_eq_zero_iff.1 (by omega)
      subst this
      cases hf; rfl
  | cons a as ih =>
    cases bs with
    | nil =>
      simp only [eqLoop, List.isEmpty_iff]
      constructor
      · rintro rfl; exact ⟨[], [a], rfl, by simp, List.Forall₂.nil⟩
      · rintro ⟨xs, ys, h, hl, hf⟩
        cases hf
        simp only [List.nil_append] at h
        subst h
        simpa using hl
    | cons b bs =>
      simp only [eqLoop]
      by_cases hab : a.eq b = true
      · rw [if_neg (by simp [PyLine.ne, hab]), ih]
        constructor
        · rintro ⟨xs, ys, rfl, hl, hf⟩
          exact ⟨a :: xs, ys, rfl, hl, List.Forall₂.cons hab hf⟩
        · rintro ⟨xs, ys, h, hl, hf⟩
          cases hf with
          | @cons x _ xs _ hx hf =>
            simp only [List.cons_append, List.cons.injEq] at h
            exact ⟨xs, ys, h.2, hl, hf⟩
      · rw [if_pos (by simpa [PyLine.ne] using hab)]
        simp only [Bool.false_eq_true, false_iff, not_exists]
        rintro xs ys ⟨h, _, hf⟩
        cases hf with
        | cons hx hf =>
          simp only [List.cons_append, List.cons.injEq] at h
          rw [h.1] at hab
          exact hab hx

/-- C15 as far as it holds: `g == h` exactly when the command-bearing lines of `h` are pairwise equal to those of
`g`, except that `g` may have one more at its end.  Missing: the surplus line should make them unequal (see
`C15_refuted`). -/
theorem C15_eq_iff_partial (g h : GCode α) :
    g.eq h = true ↔ ∃ xs ys, commandLines g = xs ++ ys ∧ ys.length ≤ 1 ∧
      List.Forall₂ (fun a b => a.eq b = true) xs (commandLines h) := by
  rw [← meaningful_eq, ← meaningful_eq]
  exact eqLoop_iff _ _

/-- C15, the exact claim for programs with equally many command-bearing lines. -/
theorem C15_same_length_partial (g h : GCode α) (hl : (commandLines g).length = (commandLines h).length) :
    g.eq h = true ↔ List.Forall₂ (fun a b => a.eq b = true) (commandLines g) (commandLines h) := by
  rw [C15_eq_iff_partial]
  constructor
  · rintro ⟨xs, ys, h1, h2, h3⟩
    have := h3.length_eq
    have hys : ys = [] := by
      apply List.length_eq_zero_iff.1
      rw [h1, List.length_append] at hl
      omega
    rw [hys, List.append_nil] at h1
    rwa [h1]
  · intro h
    exact ⟨_, [], by simp, by simp, h⟩

/-- C15: comparing in both directions is exact. -/
theorem C15_both_directions (g h : GCode α) :
    (g.eq h = true ∧ h.eq g = true) ↔ List.Forall₂ (fun a b => a.eq b = true) (commandLines g) (commandLines h) := by
  constructor
  · rintro ⟨h1, h2⟩
    have e1 := (C15_eq_iff_partial g h).1 h1
    have e2 := (C15_eq_iff_partial h g).1 h2
    obtain ⟨xs, ys, a1, a2, a3⟩ := e1
    obtain ⟨us, vs, b1, b2, b3⟩ := e2
    have l1 := a3.length_eq
    have l2 := b3.length_eq
    refine (C15_same_length_partial g h ?_).1 h1
    rw [a1] at l2 ⊢
    rw [b1] at l1 ⊢
    simp only [List.length_append] at *
    omega
  · intro hf
    have hl := hf.length_eq
    refine ⟨(C15_same_length_partial g h hl).2 hf, (C15_same_length_partial h g hl.symm).2 ?_⟩
    refine List.Forall₂.flip ?_
    refine hf.imp (fun a b hab => ?_)
    show b.eq a = true
    rw [← C13_symm]; exact hab

/-- C15 is false of the code: a program with one extra command at its end equals the shorter one, but not the
other way round, so `==` is neither exact nor symmetric. -/
theorem C15_refuted :
    (GCode.load qEnv [c!"G28", c!"G1 X1"]).bind (fun g => (GCode.load qEnv [c!"G28"]).map (fun h => (g.eq h, h.eq g))) =
      .ok (true, false) := by decide +kernel

example : (GCode.load qEnv sample).map (fun g => (g.eq g, (commandLines g).length)) = .ok (true, 11) := by decide +kernel

/-- C15: `==` is reflexive. -/
theorem C15_refl (g : GCode α) : g.eq g = true := by
  rw [C15_same_length_partial g g rfl]
  exact List.forall₂_same.2 (fun l _ => C13_refl l)

/-! ### C16 -/

theorem rstrip_append (w t : Str) (hw : ∀ c, w.getLast? = some c → isSpace c = false) :
    ∃ t', ((w ++ t).reverse.dropWhile isSpace).reverse = w ++ t' := by
  rw [List.reverse_append, List.dropWhile_append]
  split_ifs with h
  · refine ⟨[], ?_⟩
    rw [dropWhile_eq_self_of_head (by intro c hc; rw [List.head?_reverse] at hc; exact hw c hc), List.reverse_reverse,
      List.append_nil]
  · exact ⟨(t.reverse.dropWhile isSpace).reverse, by simp⟩

theorem isComment_strip {s : Str} (h : IsComment s) :
    strip s ≠ [] ∧ ((∃ t, strip s = ';' :: t) ∨ ∃ u t, (∀ c ∈ u, c ≠ '(' ∧ c ≠ ')') ∧ strip s = paren u ++ t) := by
  obtain ⟨a, t, ha, h⟩ := h
  have ha' : ∀ c ∈ a, isSpace c = true := fun c hc => (isSpace_iff c).2 (ha c hc)
  rcases h with rfl | ⟨u, hu, rfl⟩
  · have : strip (a ++ ';' :: t) = (([';'] ++ t).reverse.dropWhile isSpace).reverse := by
      unfold strip
      rw [List.dropWhile_append_of_pos ha', dropWhile_eq_self_of_head (s := ';' :: t) (by intro c hc; simp at hc; subst hc; decide)]
      rfl
    obtain ⟨t', ht'⟩ := rstrip_append [';'] t (by intro c hc; simp at hc; subst hc; decide)
    rw [this, ht']
    exact ⟨by simp, .inl ⟨t', rfl⟩⟩
  · have : strip (a ++ (paren u ++ t)) = ((paren u ++ t).reverse.dropWhile isSpace).reverse := by
      unfold strip
      rw [List.dropWhile_append_of_pos ha', dropWhile_eq_self_of_head (s := paren u ++ t) (by intro c hc; simp [paren] at hc; subst hc; decide)]
    obtain ⟨t', ht'⟩ := rstrip_append (paren u) t (by intro c hc; simp [paren, List.getLast?_cons] at hc; subst hc; decide)
    rw [this, ht']
    exact ⟨by simp [paren], .inr ⟨u, t', hu, rfl⟩⟩

theorem isComment_process {s : Str} (h : IsComment s) (home : Home α) (m : Machine α) :
    processLine home m { raw := strip s } = .ok (m, { raw := strip s }) := by
  obtain ⟨_, h⟩ := isComment_strip h
  have hsplit : (split ({ raw := strip s } : PyLine α)).1 = { raw := strip s } := by
    have hd : ∃ ts, dropN (findall (lower (strip s))) = none :: ts := by
      rcases h with ⟨t, ht⟩ | ⟨u, t, hu, ht⟩
      · rw [ht]
        exact ⟨_, rfl⟩
      · rw [ht, lower_append, lower_paren]
        unfold findall paren
        simp only [List.cons_append, List.append_assoc, List.nil_append, findallAux, matchTok, if_true,
          parenLen_closed _ _ (lower_noParen hu)]
        exact ⟨_, rfl⟩
    obtain ⟨ts, hd⟩ := hd
    unfold split
    simp only [hd]
    rfl
  rw [processLine_eq_core, hsplit]
  rfl

theorem run_comments {home : Home α} {data data' : List Str} (h : CommentsAdded data data') :
    ∀ {m m' : Machine α} {out : List (PyLine α)}, Run home m (readLines data') m' out →
    ∃ out', Run home m (readLines data) m' out' ∧
      out'.filter (fun l => decide (l.command ≠ none)) = out.filter (fun l => decide (l.command ≠ none)) := by
  induction h with
  | nil => intro m m' out hr; exact ⟨out, hr, rfl⟩
  | @same s a b _ ih =>
    intro m m' out hr
    rw [readLines_cons] at hr ⊢
    split_ifs at hr ⊢ with hs
    · exact ih hr
    · cases hr with
      | cons hp hr =>
        obtain ⟨out', h1, h2⟩ := ih hr
        refine ⟨_, Run.cons hp h1, ?_⟩
        simp only [List.filter_cons, h2]
  | @comment s a b hc _ ih =>
    intro m m' out hr
    rw [readLines_cons, if_neg (isComment_strip hc).1] at hr
    cases hr with
    | cons hp hr =>
      rw [isComment_process hc] at hp
      simp only [Except.ok.injEq, Prod.mk.injEq] at hp
      obtain ⟨rfl, rfl⟩ := hp
      obtain ⟨out', h1, h2⟩ := ih hr
      exact ⟨out', h1, by rw [h2]; simp⟩

theorem commandLines_load {env : Env α} {data : List Str} {home : Home α} {g : GCode α}
    (h : GCode.load env data false home = .ok g) :
    ∃ out, Run home Machine.init (readLines data) g.m out ∧
      commandLines g = out.filter (fun l => decide (l.command ≠ none)) := by
  obtain ⟨out, hr, ho⟩ := load_run h
  refine ⟨out, hr, ?_⟩
  have := (load_indexed h).flat
  unfold commandLines
  rw [← this, ho]
  rfl

/-- C16. Adding comment-only lines to a program changes neither operand's side of a comparison: the lines compared
are the same, so the result against any other program is the same. -/
theorem C16_comments_ignored (env : Env α) (home : Home α) (data data' : List Str) (g g' : GCode α)
    (h : CommentsAdded data data') (hg : GCode.load env data false home = .ok g)
    (hg' : GCode.load env data' false home = .ok g') :
    commandLines g = commandLines g' ∧
    ∀ k : GCode α, g.eq k = g'.eq k ∧ k.eq g = k.eq g' ∧ g.diff k = g'.diff k ∧ k.diff g = k.diff g' := by
  obtain ⟨out, hr, ho⟩ := commandLines_load hg
  obtain ⟨out', hr', ho'⟩ := commandLines_load hg'
  obtain ⟨out2, h1, h2⟩ := run_comments h hr'
  obtain ⟨_, rfl⟩ := Run.det hr h1
  have : commandLines g = commandLines g' := by rw [ho, ho', h2]
  refine ⟨this, fun k => ?_⟩
  unfold GCode.eq GCode.diff
  simp only [meaningful_eq, this, and_self]

/-- C16, layer boundaries: two programs whose layers hold the same lines in the same order, however divided, are
interchangeable in comparisons. -/
theorem C16_layers_ignored (g g' : GCode α) (h : (layerLines g).flatten = (layerLines g').flatten) (k : GCode α) :
    g.eq k = g'.eq k ∧ k.eq g = k.eq g' ∧ g.diff k = g'.diff k ∧ k.diff g = k.diff g' := by
  have : commandLines g = commandLines g' := by unfold commandLines; rw [h]
  unfold GCode.eq GCode.diff
  simp only [meaningful_eq, this, and_self]

example : CommentsAdded [c!"G28", c!"G1 Z1"] [c!" ; a", c!"G28", c!"(b) c", c!"G1 Z1"] := by
  refine .comment _ ⟨c!" ", c!" a", by decide, .inl rfl⟩ (.same _ (.comment _ ⟨[], c!" c", by decide, .inr ⟨c!"b", by decide, rfl⟩⟩ (.same _ .nil)))
example : (GCode.load qEnv [c!" ; a", c!"G28", c!"(b) c", c!"G1 Z1"]).map (fun g => (commandLines g).map (·.raw)) =
    .ok [c!"G28", c!"G1 Z1"] := by decide +kernel

/-! ### C17 -/

theorem diffLoop_none_iff (n : ℕ) (as bs : List (PyLine α)) : diffLoop n as bs = none ↔ eqLoop as bs = true := by
  induction as generalizing n bs with
  | nil => cases bs <;> simp [diffLoop, eqLoop]
  | cons a as ih =>
    cases bs with
    | nil => cases as <;> simp [diffLoop, eqLoop]
    | cons b bs =>
      simp only [diffLoop, eqLoop]
      split_ifs
      · simp
      · exact ih _ _

/-- C17. `diff` returns `None` exactly when `==` holds. -/
theorem C17_diff_none_iff (g h : GCode α) : g.diff h = none ↔ g.eq h = true := diffLoop_none_iff _ _ _

theorem diffLoop_spec (n : ℕ) (as bs : List (PyLine α)) (r : DiffResult α) (h : diffLoop n as bs = some r) :
    match r with
    | .first k a b => ∃ j, k = n + j ∧ as[j]? = some a ∧ bs[j]? = some b ∧ a.eq b = false ∧
        List.Forall₂ (fun a b => a.eq b = true) (as.take j) (bs.take j)
    | .remainingSelf a => as[bs.length + 1]? = some a ∧
        List.Forall₂ (fun a b => a.eq b = true) (as.take bs.length) bs
    | .remainingOther b => bs[as.length]? = some b ∧
        List.Forall₂ (fun a b => a.eq b = true) as (bs.take as.length) := by
  induction as generalizing n bs with
  | nil =>
    cases bs with
    | nil => simp [diffLoop] at h
    | cons b bs =>
      simp only [diffLoop, Option.some.injEq] at h
      subst h
      exact ⟨rfl, List.Forall₂.nil⟩
  | cons a as ih =>
    cases bs with
    | nil =>
      cases as with
      | nil => simp [diffLoop] at h
      | cons a2 as =>
        simp only [diffLoop, Option.some.injEq] at h
        subst h
        exact ⟨rfl, by simp⟩
    | cons b bs =>
      simp only [diffLoop] at h
      by_cases hab : a.ne b = true
      · rw [if_pos hab] at h
        simp only [Option.some.injEq] at h
        subst h
        exact ⟨0, rfl, rfl, rfl, by simpa [PyLine.ne] using hab, by simp⟩
      · rw [if_neg hab] at h
        have heq : a.eq b = true := by simpa [PyLine.ne] using hab
        have := ih (n + 1) bs h
        cases r with
        | first k x y =>
          obtain ⟨j, h1, h2, h3, h4, h5⟩ := this
          exact ⟨j + 1, by omega, h2, h3, h4, List.Forall₂.cons heq h5⟩
        | remainingSelf x =>
          obtain ⟨h1, h2⟩ := this
          exact ⟨h1, List.Forall₂.cons heq h2⟩
        | remainingOther x =>
          obtain ⟨h1, h2⟩ := this
          exact ⟨h1, List.Forall₂.cons heq h2⟩

/-- C17. What a reported difference means: "first difference after `n`" names the first unequal pair, and the two
"remaining" messages name a line beyond the end of the other program, all earlier pairs being equal. -/
theorem C17_diff_meaning (g h : GCode α) (r : DiffResult α) (hr : g.diff h = some r) :
    match r with
    | .first n a b => (commandLines g)[n]? = some a ∧ (commandLines h)[n]? = some b ∧ a.eq b = false ∧
        List.Forall₂ (fun a b => a.eq b = true) ((commandLines g).take n) ((commandLines h).take n)
    | .remainingSelf a => (commandLines g)[(commandLines h).length + 1]? = some a ∧
        List.Forall₂ (fun a b => a.eq b = true) ((commandLines g).take (commandLines h).length) (commandLines h)
    | .remainingOther b => (commandLines h)[(commandLines g).length]? = some b ∧
        List.Forall₂ (fun a b => a.eq b = true) (commandLines g) ((commandLines h).take (commandLines g).length) := by
  unfold GCode.diff at hr
  rw [meaningful_eq, meaningful_eq] at hr
  have := diffLoop_spec 0 _ _ r hr
  cases r with
  | first k x y =>
    obtain ⟨j, h1, h2, h3, h4, h5⟩ := this
    rw [Nat.zero_add] at h1
    subst h1
    exact ⟨h2, h3, h4, h5⟩
  | remainingSelf x => exact this
  | remainingOther x => exact this

example : ((GCode.load qEnv [c!"G28", c!"; c", c!"G1 X1"]).bind (fun g => (GCode.load qEnv [c!"G28", c!"G1 X2"]).map
    (fun h => match g.diff h with | some (.first n _ _) => some n | _ => none))) = .ok (some 1) := by decide +kernel

/-! ### C18 -/

/-- C18 is false of the code: any two loaded light programs compare equal. -/
theorem C18_all_light_equal (env env' : Env α) (home home' : Home α) (data data' : List Str) (g h : GCode α)
    (hg : GCode.load env data true home = .ok g) (hh : GCode.load env' data' true home' = .ok h) :
    g.eq h = true := by
  have key : ∀ (env : Env α) (home : Home α) (data : List Str) (g : GCode α),
      GCode.load env data true home = .ok g → commandLines g = [] := by
    intro env home data g hg
    obtain ⟨out, _, ho⟩ := load_run hg
    have := (load_indexed hg).flat
    unfold commandLines
    rw [← this, ho, List.filter_eq_nil_iff]
    intro l hl
    simp only [if_true, readLines, List.mem_map] at hl
    obtain ⟨r, _, rfl⟩ := hl
    simp
  rw [C15_eq_iff_partial, key _ _ _ _ hg, key _ _ _ _ hh]
  exact ⟨[], [], rfl, by simp, List.Forall₂.nil⟩

/-- C18 refuted on a concrete pair. -/
theorem C18_refuted :
    (GCode.load qEnv [c!"G28"] true).bind (fun g => (GCode.load qEnv [c!"M104 S200", c!"G1 X5"] true).map (fun h => g.eq h)) =
      .ok true := by decide +kernel

end GCodeUtils
