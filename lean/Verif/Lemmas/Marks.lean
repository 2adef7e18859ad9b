import Verif.Lemmas.Meaning
import Verif.Spec.Stretch

set_option linter.unusedSectionVars false

namespace GCodeUtils

open Spec

variable {α : Type} [Field α] [LinearOrder α] [IsStrictOrderedRing α] [FloorRing α]

/-! ### substrings -/

theorem isPrefixOf_iff (p s : Str) : p.isPrefixOf s = true ↔ p <+: s := List.isPrefixOf_iff_prefix

theorem hasSub_iff (p s : Str) : hasSub p s = true ↔ p <:+: s := by
  induction s with
  | nil =>
    unfold hasSub
    rw [List.isEmpty_iff, List.infix_nil]
  | cons c s ih =>
    unfold hasSub
    rw [Bool.or_eq_true, isPrefixOf_iff, ih, List.infix_cons_iff]

/-! ### semicolon comments after any text -/

/-- A trailing semicolon comment without parentheses. -/
structure Trailing (r : Str) : Prop where
  form : ∃ sp t, r = sp ++ ';' :: t ∧ (∀ c ∈ sp, c ∈ blanks)
  clean : ∀ c ∈ r, c ≠ '(' ∧ c ≠ ')' ∧ c ≠ '\n'

theorem Trailing.notNumeric {r : Str} (h : Trailing r) : NotNumeric r := by
  obtain ⟨sp, t, rfl, hsp⟩ := h.form
  intro c hc
  cases sp with
  | nil => simp only [List.nil_append, List.head?_cons, Option.some.injEq] at hc; subst hc; decide
  | cons a sp =>
    simp only [List.cons_append, List.head?_cons, Option.some.injEq] at hc
    subst hc
    have := hsp a (by simp)
    revert this
    unfold blanks
    intro h
    simp only [List.mem_cons, List.not_mem_nil, or_false] at h
    rcases h with rfl | rfl | rfl | rfl | rfl | rfl <;> decide

theorem blank_matchTok (st : Bool) (c : Char) (cs : Str) (h : c ∈ blanks) : matchTok st c cs = none := by
  unfold blanks at h
  simp only [List.mem_cons, List.not_mem_nil, or_false] at h
  rcases h with rfl | rfl | rfl | rfl | rfl | rfl <;> (unfold matchTok; simp; decide)

theorem blank_matchSpecific (c : Char) (cs : Str) (h : c ∈ blanks) : matchSpecific 'P' c cs = none := by
  unfold blanks at h
  simp only [List.mem_cons, List.not_mem_nil, or_false] at h
  rcases h with rfl | rfl | rfl | rfl | rfl | rfl <;> (unfold matchSpecific; simp)

theorem findallAux_trailing {r : Str} (h : Trailing r) (st : Bool) : findallAux st 0 r = [none] := by
  obtain ⟨sp, t, hr, hsp⟩ := h.form
  have hn : '\n' ∉ t := fun hc => (h.clean '\n' (by rw [hr]; simp [hc])).2.2 rfl
  rw [hr]
  clear hr h
  induction sp generalizing st with
  | nil => exact findallAux_semicolon st t hn
  | cons c sp ih =>
    rw [List.cons_append, findallAux]
    simp only [blank_matchTok st c _ (hsp c (by simp))]
    exact ih false (fun d hd => hsp d (List.mem_cons_of_mem _ hd))

theorem findSpecificAux_trailing {r : Str} (h : Trailing r) : findSpecificAux 'P' 0 r = [] := by
  obtain ⟨sp, t, hr, hsp⟩ := h.form
  have hn : '\n' ∉ t := fun hc => (h.clean '\n' (by rw [hr]; simp [hc])).2.2 rfl
  rw [hr]
  clear hr h
  induction sp with
  | nil => exact findSpecificAux_semicolon 'P' t hn
  | cons c sp ih =>
    rw [List.cons_append, findSpecificAux]
    simp only [blank_matchSpecific c _ (hsp c (by simp))]
    exact ih (fun d hd => hsp d (List.mem_cons_of_mem _ hd))

theorem parenLen_append (cs r : Str) (h : ∀ c ∈ r, c ≠ '(' ∧ c ≠ ')') : parenLen (cs ++ r) = parenLen cs := by
  induction cs with
  | nil =>
    simp only [List.nil_append, parenLen]
    induction r with
    | nil => rfl
    | cons c r ih =>
      rw [parenLen, if_neg (h c (by simp)).2, if_neg (h c (by simp)).1, ih (fun d hd => h d (List.mem_cons_of_mem _ hd))]
      rfl
  | cons c cs ih =>
    rw [List.cons_append, parenLen, parenLen, ih]

theorem parenLen_le {cs : Str} {n : ℕ} (h : parenLen cs = some n) : n ≤ cs.length := by
  induction cs generalizing n with
  | nil => simp [parenLen] at h
  | cons c cs ih =>
    rw [parenLen] at h
    by_cases h1 : c = ')'
    · rw [if_pos h1] at h; cases h; simp
    · rw [if_neg h1] at h
      by_cases h2 : c = '('
      · rw [if_pos h2] at h; cases h
      · rw [if_neg h2] at h
        cases hp : parenLen cs with
        | none => rw [hp] at h; cases h
        | some k =>
          rw [hp] at h
          simp only [Option.map_some, Option.some.injEq] at h
          have := ih hp
          simp only [List.length_cons]; omega

theorem slashLen_none {cs : Str} (h : '\n' ∉ cs) : slashLen cs = none := by
  unfold slashLen
  rw [if_neg]
  simp only [List.any_eq_true, decide_eq_true_eq, not_exists, not_and]
  intro x hx hc; subst hc; exact h hx

theorem dotLen_all {cs : Str} (h : '\n' ∉ cs) : dotLen cs = cs.length := by
  unfold dotLen
  rw [List.takeWhile_eq_self_iff.2]
  intro x hx
  simp only [decide_eq_true_eq]
  intro hc; subst hc; exact h hx

theorem findallAux_skip_all (st : Bool) (cs : Str) (k : ℕ) (h : cs.length ≤ k) : findallAux st k cs = [] := by
  induction cs generalizing st k with
  | nil => rfl
  | cons c cs ih =>
    cases k with
    | zero => simp at h
    | succ k =>
      rw [findallAux]
      exact ih false k (by simpa using h)

theorem findSpecificAux_skip_all (code : Char) (cs : Str) (k : ℕ) (h : cs.length ≤ k) : findSpecificAux code k cs = [] := by
  induction cs generalizing k with
  | nil => rfl
  | cons c cs ih =>
    cases k with
    | zero => simp at h
    | succ k =>
      rw [findSpecificAux]
      exact ih k (by simpa using h)

/-- The first character is not an opening parenthesis that is only closed by the last character. -/
def NoOuter (s : Str) : Prop := ∀ cs, s = '(' :: cs → parenLen cs = none → outerParenLen cs = none

theorem outerParenLen_trailing {r : Str} (h : Trailing r) (cs : Str) : outerParenLen (cs ++ r) = none := by
  have hne : r ≠ [] := by obtain ⟨sp, t, rfl, _⟩ := h.form; simp
  have hl : (cs ++ r).getLast? = r.getLast? := by
    rw [List.getLast?_append_of_ne_nil _ hne]
  obtain ⟨d, hd⟩ : ∃ d, r.getLast? = some d := by
    cases hg : r.getLast? with
    | none => exact absurd (List.getLast?_eq_none_iff.1 hg) hne
    | some d => exact ⟨d, rfl⟩
  have hc := h.clean d (List.mem_of_getLast? hd)
  unfold outerParenLen
  simp only [hl, hd, Option.some.injEq, if_neg hc.2.2, decide_eq_true_eq, Bool.and_eq_true]
  rw [if_neg]
  rintro ⟨_, h2⟩
  exact hc.2.1 h2

theorem findallAux_append_trailing {r : Str} (h : Trailing r) (s : Str) : ∀ (st : Bool) (k : ℕ), k ≤ s.length → '\n' ∉ s →
    (st = true → NoOuter s) → ∃ j, findallAux st k (s ++ r) = findallAux st k s ++ List.replicate j none := by
  have hn : '\n' ∉ r := fun hc => (h.clean _ hc).2.2 rfl
  induction s with
  | nil =>
    intro st k hk _ _
    have : k = 0 := by simpa using hk
    subst this
    exact ⟨1, by rw [List.nil_append, findallAux_trailing h]; rfl⟩
  | cons c cs ih =>
    intro st k hk hns hst
    have hncs : '\n' ∉ cs := fun hc => hns (List.mem_cons_of_mem _ hc)
    rw [List.cons_append]
    cases k with
    | succ k => exact ih false k (by simpa using hk) hncs (by simp)
    | zero =>
      simp only [findallAux]
      have hpl := parenLen_append cs r (fun d hd => ⟨(h.clean d hd).1, (h.clean d hd).2.1⟩)
      unfold matchTok
      by_cases h1 : c = '('
      · subst h1
        simp only [if_true, hpl]
        cases hp : parenLen cs with
        | some n =>
          simp only
          obtain ⟨j, hj⟩ := ih false n (parenLen_le hp) hncs (by simp)
          exact ⟨j, by rw [hj]; rfl⟩
        | none =>
          simp only
          have e2 : (if st = true then (outerParenLen cs).map (fun n => ((none : Tok), n)) else none) = none := by
            cases st with
            | false => rfl
            | true => rw [if_pos rfl, hst rfl cs rfl hp]; rfl
          have e1 : (if st = true then (outerParenLen (cs ++ r)).map (fun n => ((none : Tok), n)) else none) = none := by
            rw [outerParenLen_trailing h]; simp
          rw [e1, e2]
          exact ih false 0 (by simp) hncs (by simp)
      · rw [if_neg h1, if_neg h1]
        by_cases h2 : c = ';'
        · rw [if_pos h2, if_pos h2]
          simp only
          rw [dotLen_all hncs, dotLen_all (by simp [hncs, hn]), findallAux_skip_all _ _ _ le_rfl, findallAux_skip_all _ _ _ le_rfl]
          exact ⟨0, rfl⟩
        · rw [if_neg h2, if_neg h2]
          by_cases h3 : (c = '/' || c = '*') = true
          · rw [if_pos h3, if_pos h3, slashLen_none hncs, slashLen_none (by simp [hncs, hn])]
            simp only [Option.map_none]
            exact ih false 0 (by simp) hncs (by simp)
          · rw [if_neg h3, if_neg h3]
            by_cases h4 : c ∈ wordLetters
            · rw [if_pos h4, if_pos h4]
              simp only
              rw [numLen_append cs r h.notNumeric]
              obtain ⟨j, hj⟩ := ih false (numLen cs) (numLen_le cs) hncs (by simp)
              refine ⟨j, ?_⟩
              rw [hj, List.take_append_of_le_length (numLen_le cs)]
              rfl
            · rw [if_neg h4, if_neg h4]
              exact ih false 0 (by simp) hncs (by simp)

theorem findSpecificAux_append_trailing {r : Str} (h : Trailing r) (s : Str) : ∀ k : ℕ, k ≤ s.length → '\n' ∉ s →
    findSpecificAux 'P' k (s ++ r) = findSpecificAux 'P' k s := by
  have hn : '\n' ∉ r := fun hc => (h.clean _ hc).2.2 rfl
  induction s with
  | nil =>
    intro k hk _
    have : k = 0 := by simpa using hk
    subst this
    rw [List.nil_append, findSpecificAux_trailing h]; rfl
  | cons c cs ih =>
    intro k hk hns
    have hncs : '\n' ∉ cs := fun hc => hns (List.mem_cons_of_mem _ hc)
    rw [List.cons_append]
    cases k with
    | succ k => exact ih k (by simpa using hk) hncs
    | zero =>
      simp only [findSpecificAux]
      have hpl := parenLen_append cs r (fun d hd => ⟨(h.clean d hd).1, (h.clean d hd).2.1⟩)
      unfold matchSpecific
      by_cases h1 : c = '('
      · subst h1
        simp only [if_true, hpl]
        cases hp : parenLen cs with
        | some n => exact ih n (parenLen_le hp) hncs
        | none => exact ih 0 (by simp) hncs
      · rw [if_neg h1, if_neg h1]
        by_cases h2 : c = ';'
        · rw [if_pos h2, if_pos h2]
          simp only
          rw [dotLen_all hncs, dotLen_all (by simp [hncs, hn]), findSpecificAux_skip_all _ _ _ le_rfl, findSpecificAux_skip_all _ _ _ le_rfl]
        · rw [if_neg h2, if_neg h2]
          by_cases h3 : (c = '/' || c = '*') = true
          · rw [if_pos h3, if_pos h3, slashLen_none hncs, slashLen_none (by simp [hncs, hn])]
            simp only [Option.map_none]
            exact ih 0 (by simp) hncs
          · rw [if_neg h3, if_neg h3]
            by_cases h4 : c = 'P'
            · rw [if_pos h4, if_pos h4]
              simp only
              rw [numLen_append cs r h.notNumeric, ih (numLen cs) (numLen_le cs) hncs, List.take_append_of_le_length (numLen_le cs)]
            · rw [if_neg h4, if_neg h4]
              exact ih 0 (by simp) hncs

theorem parenLen_first {cs : Str} {a b : Str} (h : cs = a ++ ')' :: b) (ha : ∀ c ∈ a, c ≠ '(' ∧ c ≠ ')') : parenLen cs = some (a.length + 1) := by
  subst h
  induction a with
  | nil => simp [parenLen]
  | cons c a ih =>
    rw [List.cons_append, parenLen, if_neg (ha c (by simp)).2, if_neg (ha c (by simp)).1, ih (fun d hd => ha d (List.mem_cons_of_mem _ hd))]
    rfl

theorem noOuter_of_not_nested {s : Str} (h : ¬ Nested s) (hn : '\n' ∉ s) : NoOuter s := by
  rintro cs rfl hp
  unfold outerParenLen
  simp only
  have hl : cs.getLast? ≠ some '\n' := fun hc => hn (List.mem_cons_of_mem _ (List.mem_of_getLast? hc))
  rw [if_neg hl, if_neg]
  intro hc
  simp only [Bool.and_eq_true, decide_eq_true_eq] at hc
  apply h
  refine ⟨rfl, ?_, ?_⟩
  · rw [List.getLast?_cons]
    rw [hc.2]; rfl
  · rintro ⟨a, b, hab, ha⟩
    unfold paren at hab
    simp only [List.cons_append, List.append_assoc, List.cons.injEq, true_and, List.nil_append] at hab
    rw [parenLen_first hab ha] at hp
    cases hp

theorem NoOuter.lower {s : Str} (h : NoOuter s) (hn : '\n' ∉ s) : NoOuter (lower s) := by
  rintro cs hcs hp
  cases s with
  | nil => simp [GCodeUtils.lower] at hcs
  | cons c s =>
    simp only [GCodeUtils.lower, List.map_cons, List.cons.injEq] at hcs
    obtain ⟨h1, rfl⟩ := hcs
    have h1' : c = '(' := (toLower_eq_iff c '(' (by decide)).1 h1
    subst h1'
    have key : ∀ s : Str, parenLen (s.map Char.toLower) = parenLen s := by
      intro s
      induction s with
      | nil => rfl
      | cons d s ih =>
        rw [List.map_cons, parenLen, parenLen, ih]
        simp only [toLower_eq_iff d ')' (by decide), toLower_eq_iff d '(' (by decide)]
    rw [key] at hp
    have hns : '\n' ∉ s := fun hc => hn (List.mem_cons_of_mem _ hc)
    have := h s rfl hp
    unfold outerParenLen at this ⊢
    simp only at this ⊢
    have hl : s.getLast? ≠ some '\n' := fun hc => hns (List.mem_of_getLast? hc)
    have hl' : (s.map Char.toLower).getLast? ≠ some '\n' := by
      rw [List.getLast?_map]
      intro hc
      cases hg : s.getLast? with
      | none => rw [hg] at hc; cases hc
      | some d =>
        rw [hg] at hc
        simp only [Option.map_some, Option.some.injEq] at hc
        rw [(toLower_eq_iff d '\n' (by decide)).1 hc] at hg
        exact hl hg
    rw [if_neg hl] at this
    rw [if_neg hl']
    rw [if_neg]
    intro hc
    simp only [Bool.and_eq_true, decide_eq_true_eq] at hc
    have hlast : s.getLast? = some ')' := by
      have h2 := hc.2
      rw [List.getLast?_map] at h2
      cases hg : s.getLast? with
      | none => rw [hg] at h2; cases h2
      | some d =>
        rw [hg] at h2
        simp only [Option.map_some, Option.some.injEq] at h2
        rw [(toLower_eq_iff d ')' (by decide)).1 h2]
    rw [if_pos] at this
    · cases this
    · simp only [Bool.and_eq_true, decide_eq_true_eq, List.all_eq_true]
      exact ⟨fun x hx hc => hns (hc ▸ hx), hlast⟩

theorem Trailing.lower {r : Str} (h : Trailing r) : Trailing (lower r) := by
  obtain ⟨sp, t, hr, hsp⟩ := h.form
  refine ⟨⟨GCodeUtils.lower sp, GCodeUtils.lower t, by rw [hr]; simp [GCodeUtils.lower], ?_⟩, ?_⟩
  · intro c hc
    obtain ⟨d, hd, rfl⟩ := List.mem_map.1 hc
    have := hsp d hd
    unfold blanks at this
    simp only [List.mem_cons, List.not_mem_nil, or_false] at this
    rcases this with rfl | rfl | rfl | rfl | rfl | rfl <;> decide
  · intro c hc
    obtain ⟨d, hd, rfl⟩ := List.mem_map.1 hc
    have := h.clean d hd
    refine ⟨?_, ?_, ?_⟩
    · intro hc; exact this.1 ((toLower_eq_iff d '(' (by decide)).1 hc)
    · intro hc; exact this.2.1 ((toLower_eq_iff d ')' (by decide)).1 hc)
    · intro hc; exact this.2.2 ((toLower_eq_iff d '\n' (by decide)).1 hc)

theorem findall_trailing {s r : Str} (h : Trailing r) (hs : ¬ Nested s) (hn : '\n' ∉ s) :
    ∃ j, findall (lower (s ++ r)) = findall (lower s) ++ List.replicate j none := by
  rw [lower_append]
  have hn' : '\n' ∉ lower s := by
    intro hc
    obtain ⟨d, hd, he⟩ := List.mem_map.1 hc
    rw [(toLower_eq_iff d '\n' (by decide)).1 he] at hd
    exact hn hd
  exact findallAux_append_trailing h.lower (lower s) true 0 (by simp) hn' (fun _ => (noOuter_of_not_nested hs hn).lower hn)

theorem dropN_append_none (toks : List Tok) (j : ℕ) (h : ∃ w rest, dropN toks = some w :: rest) :
    dropN (toks ++ List.replicate j none) = dropN toks ++ List.replicate j none := by
  obtain ⟨w, rest, hw⟩ := h
  cases toks with
  | nil => simp [dropN] at hw
  | cons t ts =>
    cases t with
    | none => rfl
    | some p =>
      obtain ⟨c, v⟩ := p
      simp only [List.cons_append, dropN]
      split_ifs <;> rfl

/-- A trailing comment does not change the meaning of a line that has a command. -/
theorem sameMeaning_trailing {s r : Str} (h : Trailing r) (hs : ¬ Nested s) (hn : '\n' ∉ s)
    (hc : ∃ w rest, dropN (findall (lower s)) = some w :: rest) : SameMeaning s (s ++ r) := by
  obtain ⟨j, hj⟩ := findall_trailing h hs hn
  obtain ⟨w, rest, hw⟩ := hc
  refine ⟨⟨w, rest, rest ++ List.replicate j none, hw, ?_, ?_⟩, ?_⟩
  · rw [hj, dropN_append_none _ _ ⟨w, rest, hw⟩, hw]; rfl
  · refine .of_eq ?_
    rw [List.filterMap_append]
    have : (List.replicate j (none : Tok)).filterMap id = [] := by
      rw [List.filterMap_replicate_of_none rfl]
    rw [this, List.append_nil]
  · exact (findSpecificAux_append_trailing h s 0 (by simp) hn).symm

/-- Marks are trailing comments. -/
theorem marks_trailing {s : Str} (h : Marks s) : s = [] ∨ Trailing s := by
  have hall : ∀ m ∈ markTexts, ∀ c ∈ m, c ≠ '(' ∧ c ≠ ')' ∧ c ≠ '\n' := by decide
  cases h with
  | nil => exact .inl rfl
  | cons sep m s hsep hm hs =>
    right
    refine ⟨?_, ?_⟩
    · rcases hsep with rfl | rfl
      · exact ⟨c!" ", c!" " ++ m ++ s, by simp, by decide⟩
      · exact ⟨[], c!" " ++ m ++ s, by simp, by simp⟩
    · have hsepc : ∀ c ∈ sep, c ≠ '(' ∧ c ≠ ')' ∧ c ≠ '\n' := by rcases hsep with rfl | rfl <;> decide
      intro c hc
      rw [List.mem_append, List.mem_append] at hc
      rcases hc with (hc | hc) | hc
      · exact hsepc c hc
      · exact hall m hm c hc
      · clear hsep hm hsepc
        induction hs with
        | nil => simp at hc
        | cons sep m s hsep hm hs ih =>
          have hsepc : ∀ c ∈ sep, c ≠ '(' ∧ c ≠ ')' ∧ c ≠ '\n' := by rcases hsep with rfl | rfl <;> decide
          rw [List.mem_append, List.mem_append] at hc
          rcases hc with (hc | hc) | hc
          · exact hsepc c hc
          · exact hall m hm c hc
          · exact ih hc

theorem marks_append {a b : Str} (ha : Marks a) (hb : Marks b) : Marks (a ++ b) := by
  induction ha with
  | nil => exact hb
  | cons sep m s h1 h2 _ ih =>
    rw [List.append_assoc]
    exact .cons sep m _ h1 h2 ih

theorem markedUp_refl (l : PyLine α) : MarkedUp l l := ⟨[], .nil, by simp⟩

theorem markedUp_trans {a b c : PyLine α} (h1 : MarkedUp a b) (h2 : MarkedUp b c) : MarkedUp a c := by
  obtain ⟨s, hs, rfl⟩ := h1
  obtain ⟨t, ht, rfl⟩ := h2
  exact ⟨s ++ t, marks_append hs ht, by simp⟩

theorem markedUp_add (l : PyLine α) {sep m : Str} (h : sep = c!" ; " ∨ sep = c!"; ") (hm : m ∈ markTexts) : MarkedUp l (addMark sep m l) :=
  ⟨sep ++ m, by have := Marks.cons sep m [] h hm .nil; rwa [List.append_nil] at this, by simp [addMark]⟩

end GCodeUtils
