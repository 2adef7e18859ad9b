import Mathlib.Data.List.TakeWhile
import Verif.Model.Lex
import Verif.Spec.Comment

namespace GCodeUtils

open Spec

/-! ### lower case -/

theorem toLower_cases (c : Char) : c.toLower = c ∨
    (65 ≤ c.toNat ∧ c.toNat ≤ 90 ∧ c.toLower.toNat = c.toNat + 32) := by
  unfold Char.toLower
  split_ifs with h
  · right
    obtain ⟨h1, h2⟩ := h
    have a1 : (65 : UInt32) ≤ c.val := h1
    have a2 : c.val ≤ (90 : UInt32) := h2
    have b1 : 65 ≤ c.val.toNat := by simpa using UInt32.le_iff_toNat_le.1 a1
    have b2 : c.val.toNat ≤ 90 := by simpa using UInt32.le_iff_toNat_le.1 a2
    refine ⟨b1, b2, ?_⟩
    show (c.val + ('a'.val - 'A'.val)).toNat = c.val.toNat + 32
    have : ('a'.val - 'A'.val) = (32 : UInt32) := by decide
    rw [this, UInt32.toNat_add]
    have : (32 : UInt32).toNat = 32 := rfl
    rw [this]
    omega
  · left; rfl

/-- Characters outside the letters are fixed and only hit by themselves. -/
theorem toLower_eq_iff (c d : Char) (hd : d.toNat < 65 ∨ 122 < d.toNat ∨ (90 < d.toNat ∧ d.toNat < 97)) :
    c.toLower = d ↔ c = d := by
  rcases toLower_cases c with h | ⟨h1, h2, h3⟩
  · rw [h]
  · constructor
    · intro he; rw [he] at h3; omega
    · intro he; rw [he] at h1 h2; omega

theorem mem_lower_special {c : Char} (L : Str)
    (hL : ∀ d ∈ L, d.toNat < 65 ∨ 122 < d.toNat ∨ (90 < d.toNat ∧ d.toNat < 97)) :
    c.toLower ∈ L ↔ c ∈ L := by
  constructor
  · intro h
    have := (toLower_eq_iff c c.toLower (hL _ h)).1 rfl
    rwa [this]
  · intro h
    rw [(toLower_eq_iff c c (hL _ h)).2 rfl]; exact h

theorem lower_append (a b : Str) : lower (a ++ b) = lower a ++ lower b := by simp [lower]

theorem Plain.lower {s : Str} (h : Plain s) : Plain (lower s) := by
  intro c hc
  unfold GCodeUtils.lower at hc
  rw [List.mem_map] at hc
  obtain ⟨d, hd, rfl⟩ := hc
  rw [mem_lower_special _ (by decide)]
  exact h d hd

theorem NotNumeric.lower {s : Str} (h : NotNumeric s) : NotNumeric (lower s) := by
  intro c hc
  unfold GCodeUtils.lower at hc
  rw [List.head?_map, Option.map_eq_some_iff] at hc
  obtain ⟨d, hd, rfl⟩ := hc
  rw [mem_lower_special _ (by decide)]
  exact h d hd

theorem Closed.append {a b : Str} (ha : Closed a) (hb : Closed b) : Closed (a ++ b) := by
  induction ha with
  | nil => exact hb
  | plain c s hc _ ih => exact Closed.plain c _ hc ih
  | paren t s ht _ ih => rw [List.append_assoc]; exact Closed.paren t _ ht ih

theorem Plain.closed {s : Str} (h : Plain s) : Closed s := by
  induction s with
  | nil => exact Closed.nil
  | cons c s ih =>
    exact Closed.plain c s (h c (by simp)) (ih (fun d hd => h d (by simp [hd])))

theorem lower_paren (t : Str) : lower (paren t) = paren (lower t) := by
  simp [lower, paren]

theorem Closed.lower {s : Str} (h : Closed s) : Closed (lower s) := by
  induction h with
  | nil => exact Closed.nil
  | plain c s hc _ ih =>
    exact Closed.plain _ _ (by rw [mem_lower_special _ (by decide)]; exact hc) ih
  | paren t s ht _ ih =>
    rw [lower_append, lower_paren]
    refine Closed.paren _ _ ?_ ih
    intro c hc
    unfold GCodeUtils.lower at hc
    rw [List.mem_map] at hc
    obtain ⟨d, hd, rfl⟩ := hc
    obtain ⟨h1, h2⟩ := ht d hd
    exact ⟨fun h => h1 ((toLower_eq_iff d '(' (by decide)).1 h),
      fun h => h2 ((toLower_eq_iff d ')' (by decide)).1 h)⟩

/-! ### number scanning -/

theorem isDig_iff (c : Char) : isDig c = true ↔ c ∈ c!"0123456789" := by
  constructor
  · intro h
    simp only [isDig, Bool.and_eq_true, decide_eq_true_eq] at h
    obtain ⟨h1, h2⟩ := h
    have b1 : 48 ≤ c.toNat := by simpa using UInt32.le_iff_toNat_le.1 h1
    have b2 : c.toNat ≤ 57 := by simpa using UInt32.le_iff_toNat_le.1 h2
    have hc : c = Char.ofNat c.toNat := (Char.ofNat_toNat c).symm
    have : c.toNat = 48 ∨ c.toNat = 49 ∨ c.toNat = 50 ∨ c.toNat = 51 ∨ c.toNat = 52 ∨ c.toNat = 53 ∨
        c.toNat = 54 ∨ c.toNat = 55 ∨ c.toNat = 56 ∨ c.toNat = 57 := by omega
    rw [hc]
    rcases this with h | h | h | h | h | h | h | h | h | h <;> rw [h] <;> decide
  · intro h
    simp only [List.mem_cons, List.not_mem_nil, or_false] at h
    rcases h with h | h | h | h | h | h | h | h | h | h <;> rw [h] <;> decide

theorem NotNumeric.head {r : Str} (h : NotNumeric r) :
    (∀ c t, r = c :: t → isDig c = false ∧ c ≠ '.' ∧ c ≠ '+' ∧ c ≠ '-') := by
  intro c t hr
  have := h c (by rw [hr]; rfl)
  refine ⟨?_, ?_, ?_, ?_⟩
  · rw [Bool.eq_false_iff]
    intro hd
    rw [isDig_iff] at hd
    apply this
    simp only [List.mem_cons, List.not_mem_nil, or_false] at hd ⊢
    tauto
  all_goals (rintro rfl; exact this (by decide))

theorem digLen_append (s r : Str) (h : ∀ c t, r = c :: t → isDig c = false) :
    digLen (s ++ r) = digLen s := by
  unfold digLen
  induction s with
  | nil =>
    cases r with
    | nil => rfl
    | cons c t => simp [h c t rfl]
  | cons c s ih =>
    simp only [List.cons_append, List.takeWhile_cons]
    split_ifs
    · simp [ih]
    · rfl

theorem digLen_le (s : Str) : digLen s ≤ s.length :=
  (List.takeWhile_prefix isDig).length_le

theorem uNumLen_append (s r : Str) (h : ∀ c t, r = c :: t → isDig c = false ∧ c ≠ '.') :
    uNumLen (s ++ r) = uNumLen s := by
  unfold uNumLen
  have hd := digLen_append s r (fun c t hr => (h c t hr).1)
  rw [hd]
  simp only
  rw [List.drop_append_of_le_length (digLen_le s)]
  cases hs : s.drop (digLen s) with
  | nil =>
    rw [List.nil_append]
    cases r with
    | nil => rfl
    | cons c t =>
      have := (h c t rfl).2
      split
      · rename_i heq
        simp only [List.cons.injEq] at heq
        exact absurd heq.1 this
      · rfl
  | cons c t =>
    rw [List.cons_append]
    by_cases hc : c = '.'
    · subst hc
      simp only
      rw [digLen_append t r (fun c t hr => (h c t hr).1)]
    · split
      · rename_i heq
        simp only [List.cons.injEq] at heq
        exact absurd heq.1 hc
      · split
        · rename_i heq
          simp only [List.cons.injEq] at heq
          exact absurd heq.1 hc
        · rfl

theorem uNumLen_le (s : Str) : uNumLen s ≤ s.length := by
  unfold uNumLen
  simp only
  split
  · rename_i t heq
    have h1 := digLen_le t
    have : (s.drop (digLen s)).length = t.length + 1 := by rw [heq]; rfl
    rw [List.length_drop] at this
    omega
  · exact digLen_le s

theorem numLen_le (s : Str) : numLen s ≤ s.length := by
  unfold numLen
  split
  · split_ifs
    · rename_i c t _
      have := uNumLen_le t
      simp only [List.length_cons]; omega
    · exact uNumLen_le _
  · simp

theorem numLen_append (s r : Str) (h : NotNumeric r) : numLen (s ++ r) = numLen s := by
  have hh := NotNumeric.head h
  have hu : ∀ s, uNumLen (s ++ r) = uNumLen s := fun s =>
    uNumLen_append s r (fun c t hr => ⟨(hh c t hr).1, (hh c t hr).2.1⟩)
  cases s with
  | nil =>
    rw [List.nil_append]
    cases r with
    | nil => rfl
    | cons c t =>
      obtain ⟨h1, h2, h3, h4⟩ := hh c t rfl
      have := hu []
      rw [List.nil_append] at this
      simp only [numLen]
      simp [h3, h4, this]
      rfl
  | cons c s =>
    simp only [List.cons_append, numLen]
    split_ifs
    · rw [hu]
    · exact hu (c :: s)

theorem take_numLen_append (s r : Str) (h : NotNumeric r) :
    (s ++ r).take (numLen (s ++ r)) = s.take (numLen s) := by
  rw [numLen_append s r h, List.take_append_of_le_length (numLen_le s)]

/-! ### the scanner on closed text -/

theorem matchTok_plain (st : Bool) (c : Char) (cs : Str) (h : c ∉ c!"();/*\n") :
    matchTok st c cs = if c ∈ wordLetters then some (some (c, cs.take (numLen cs)), numLen cs) else none := by
  simp only [List.mem_cons, List.not_mem_nil, or_false, not_or] at h
  obtain ⟨h1, h2, h3, h4, h5, h6⟩ := h
  unfold matchTok
  simp [h1, h3, h4, h5]

theorem parenLen_closed (t s : Str) (h : ∀ c ∈ t, c ≠ '(' ∧ c ≠ ')') :
    parenLen (t ++ ')' :: s) = some (t.length + 1) := by
  induction t with
  | nil => rfl
  | cons c t ih =>
    obtain ⟨h1, h2⟩ := h c (by simp)
    simp [parenLen, h1, h2, ih (fun d hd => h d (by simp [hd]))]

theorem findallAux_skip (a r : Str) : findallAux false a.length (a ++ r) = findallAux false 0 r := by
  induction a with
  | nil => rfl
  | cons c a ih => simpa [findallAux] using ih

theorem notNumeric_paren (t s : Str) : NotNumeric (paren t ++ s) := by
  intro c hc
  simp only [paren, List.cons_append, List.head?_cons, Option.some.injEq] at hc
  subst hc
  decide

/-- Skipping inside closed text that starts at the remainder of a number never happens past its plain prefix:
scanning closed text and then `r` gives the tokens of both. -/
theorem findallAux_closed {a : Str} (ha : Closed a) (r : Str) (hr : NotNumeric r) :
    ∀ (st : Bool) (k : ℕ), k ≤ (a.takeWhile (fun c => decide (c ∉ c!"();/*\n"))).length →
      a ≠ [] → findallAux st k (a ++ r) = findallAux st k a ++ findallAux false 0 r := by
  induction ha with
  | nil => intro st k _ h; exact absurd rfl h
  | plain c s hc hs ih =>
    intro st k hk _
    have hkey : ∀ n, n ≤ (s.takeWhile (fun c => decide (c ∉ c!"();/*\n"))).length →
        findallAux false n (s ++ r) = findallAux false n s ++ findallAux false 0 r := by
      intro n hn
      by_cases hnil : s = []
      · subst hnil
        simp only [List.takeWhile_nil, List.length_nil, Nat.le_zero_eq] at hn
        subst hn
        rfl
      · exact ih false n hn hnil
    rw [List.cons_append]
    cases k with
    | succ k =>
      simp only [findallAux]
      apply hkey
      rw [List.takeWhile_cons, if_pos (by simpa using hc)] at hk
      simp only [List.length_cons] at hk
      omega
    | zero =>
      simp only [findallAux]
      rw [matchTok_plain st c _ hc, matchTok_plain st c _ hc]
      by_cases hw : c ∈ wordLetters
      · simp only [if_pos hw, List.cons_append]
        rw [numLen_append s r hr, List.take_append_of_le_length (numLen_le s)]
        rw [hkey]
        -- the number ends inside the plain prefix
        have hsplit := List.takeWhile_append_dropWhile (p := fun c => decide (c ∉ c!"();/*\n")) (l := s)
        have hnn : NotNumeric (s.dropWhile (fun c => decide (c ∉ c!"();/*\n"))) := by
          intro d hd
          have : decide (d ∉ c!"();/*\n") = false := by
            have := List.head?_dropWhile_not (p := fun c => decide (c ∉ c!"();/*\n")) (l := s)
            rw [hd] at this
            simpa using this
          simp only [decide_eq_false_iff_not, not_not] at this
          simp only [List.mem_cons, List.not_mem_nil, or_false] at this ⊢
          rcases this with rfl | rfl | rfl | rfl | rfl | rfl <;> decide
        conv_lhs => rw [← hsplit]
        rw [numLen_append _ _ hnn]
        exact numLen_le _
      · simp only [if_neg hw]
        exact hkey 0 (Nat.zero_le _)
  | paren t s ht hs ih =>
    intro st k hk _
    have hk0 : k = 0 := by
      simp only [paren, List.cons_append, List.takeWhile_cons] at hk
      simpa using hk
    subst hk0
    have hskip : ∀ u : Str, findallAux false (t.length + 1) (t ++ ')' :: u) = findallAux false 0 u := by
      intro u
      have := findallAux_skip (t ++ [')']) u
      simpa using this
    have hstep : ∀ u : Str, findallAux st 0 (paren t ++ u) = none :: findallAux false 0 u := by
      intro u
      simp only [paren, List.cons_append, List.append_assoc, List.nil_append, findallAux, matchTok, if_true]
      rw [parenLen_closed t u ht]
      simp only
      rw [hskip u]
    rw [List.append_assoc, hstep, hstep, List.cons_append]
    by_cases hnil : s = []
    · subst hnil; rfl
    · rw [ih false 0 (Nat.zero_le _) hnil]

theorem findall_closed_append {a r : Str} (ha : Closed a) (hne : a ≠ []) (hr : NotNumeric r) :
    findall (a ++ r) = findall a ++ findallAux false 0 r :=
  findallAux_closed ha r hr true 0 (Nat.zero_le _) hne

/-- A comment after a semicolon is one token up to the end of the line. -/
theorem findallAux_semicolon (st : Bool) (t : Str) (h : '\n' ∉ t) : findallAux st 0 (';' :: t) = [none] := by
  have hd : dotLen t = t.length := by
    unfold dotLen
    rw [List.takeWhile_eq_self_iff.2]
    intro c hc
    simp only [ne_eq, decide_eq_true_eq]
    rintro rfl; exact h hc
  have := findallAux_skip t []
  simp only [List.append_nil] at this
  simp [findallAux, matchTok, hd, this]

/-- Plain text gives words only. -/
theorem findallAux_plain_words (s : Str) (h : Plain s) (st : Bool) (k : ℕ) :
    ∀ t ∈ findallAux st k s, ∃ w, t = some w := by
  induction s generalizing st k with
  | nil => simp [findallAux]
  | cons c s ih =>
    have ih' := ih (fun d hd => h d (by simp [hd]))
    cases k with
    | succ k => simpa [findallAux] using ih' false k
    | zero =>
      simp only [findallAux]
      rw [matchTok_plain st c s (h c (by simp))]
      by_cases hw : c ∈ wordLetters
      · simp only [if_pos hw]
        intro t ht
        rcases List.mem_cons.1 ht with rfl | ht
        · exact ⟨_, rfl⟩
        · exact ih' false _ t ht
      · simp only [if_neg hw]
        exact ih' false 0

/-- Characters consumed by a number are no word letters. -/
theorem numeric_of_lt_numLen (s : Str) : ∀ c ∈ s.take (numLen s), c ∈ c!"0123456789.+-" := by
  have hdig : ∀ (u : Str), ∀ c ∈ u.take (digLen u), isDig c = true := by
    intro u c hc
    unfold digLen at hc
    have : u.take (u.takeWhile isDig).length = u.takeWhile isDig := by
      exact (List.prefix_iff_eq_take.1 (List.takeWhile_prefix isDig)).symm
    rw [this] at hc
    exact List.mem_takeWhile_imp hc
  have hd2 : ∀ c, isDig c = true → c ∈ c!"0123456789.+-" := by
    intro c hc
    rw [isDig_iff] at hc
    simp only [List.mem_cons, List.not_mem_nil, or_false] at hc ⊢
    tauto
  have hu : ∀ (u : Str), ∀ c ∈ u.take (uNumLen u), c ∈ c!"0123456789.+-" := by
    intro u c hc
    unfold uNumLen at hc
    simp only at hc
    split at hc
    · rename_i t heq
      have hsp : u = u.take (digLen u) ++ '.' :: t := by rw [← heq, List.take_append_drop]
      have hl : (u.take (digLen u)).length = digLen u := by
        rw [List.length_take]; exact Nat.min_eq_left (digLen_le u)
      rw [hsp] at hc
      rw [List.take_append, hl] at hc
      rw [← hsp] at hc
      rcases List.mem_append.1 hc with hc | hc
      · have hc : c ∈ u.take (digLen u) := List.mem_of_mem_take hc
        exact hd2 c (hdig u c hc)
      · rw [show digLen u + 1 + digLen t - digLen u = digLen t + 1 by omega, List.take_succ_cons] at hc
        rcases List.mem_cons.1 hc with rfl | hc
        · decide
        · exact hd2 c (hdig t c hc)
    · exact hd2 c (hdig u c hc)
  intro c hc
  unfold numLen at hc
  split at hc
  · rename_i d t
    split_ifs at hc with hs
    · rw [Nat.add_comm, List.take_succ_cons] at hc
      rcases List.mem_cons.1 hc with rfl | hc
      · simp only [Bool.or_eq_true, decide_eq_true_eq] at hs
        rcases hs with rfl | rfl <;> decide
      · exact hu t c hc
    · exact hu _ c hc
  · simp at hc

/-- Every word letter in plain text that is not swallowed starts a word; numbers swallow no letters. -/
theorem findallAux_plain_mem (s : Str) (h : Plain s) (st : Bool) (k : ℕ) (d : Char) (hd : d ∈ wordLetters)
    (hmem : d ∈ s.drop k) : ∃ v, some (d, v) ∈ findallAux st k s := by
  induction s generalizing st k with
  | nil => simp at hmem
  | cons c s ih =>
    have ih' := ih (fun d hd => h d (by simp [hd]))
    cases k with
    | succ k =>
      simp only [findallAux]
      exact ih' false k (by simpa using hmem)
    | zero =>
      simp only [findallAux]
      rw [matchTok_plain st c s (h c (by simp))]
      simp only [List.drop_zero, List.mem_cons] at hmem
      by_cases hw : c ∈ wordLetters
      · simp only [if_pos hw]
        by_cases hdc : d = c
        · subst hdc
          exact ⟨_, List.mem_cons_self⟩
        · have hds : d ∈ s := hmem.resolve_left hdc
          have hdrop : d ∈ s.drop (numLen s) := by
            rw [← List.take_append_drop (numLen s) s] at hds
            rcases List.mem_append.1 hds with hds | hds
            · exfalso
              have := numeric_of_lt_numLen s d hds
              simp only [wordLetters, List.mem_cons, List.not_mem_nil, or_false] at hd this
              rcases hd with rfl | rfl | rfl | rfl | rfl | rfl | rfl | rfl | rfl | rfl | rfl <;>
                revert this <;> decide
            · exact hds
          obtain ⟨v, hv⟩ := ih' false _ hdrop
          exact ⟨v, List.mem_cons_of_mem _ hv⟩
      · simp only [if_neg hw]
        have hdc : d ≠ c := fun hc => hw (hc ▸ hd)
        exact ih' false 0 (by simpa using hmem.resolve_left hdc)

/-! ### single-letter search -/

theorem matchSpecific_plain (code c : Char) (cs : Str) (h : c ∉ c!"();/*\n") :
    matchSpecific code c cs = if c = code then some (some (cs.take (numLen cs)), numLen cs) else none := by
  simp only [List.mem_cons, List.not_mem_nil, or_false, not_or] at h
  obtain ⟨h1, h2, h3, h4, h5, h6⟩ := h
  unfold matchSpecific
  simp [h1, h3, h4, h5]

theorem findSpecificAux_skip (code : Char) (a r : Str) :
    findSpecificAux code a.length (a ++ r) = findSpecificAux code 0 r := by
  induction a with
  | nil => rfl
  | cons c a ih => simpa [findSpecificAux] using ih

theorem findSpecificAux_closed {a : Str} (code : Char) (ha : Closed a) (r : Str) (hr : NotNumeric r) :
    ∀ (k : ℕ), k ≤ (a.takeWhile (fun c => decide (c ∉ c!"();/*\n"))).length →
      findSpecificAux code k (a ++ r) = findSpecificAux code k a ++ findSpecificAux code 0 r := by
  induction ha with
  | nil =>
    intro k hk
    simp only [List.takeWhile_nil, List.length_nil, Nat.le_zero_eq] at hk
    subst hk
    rfl
  | plain c s hc hs ih =>
    intro k hk
    rw [List.cons_append]
    cases k with
    | succ k =>
      simp only [findSpecificAux]
      apply ih
      rw [List.takeWhile_cons, if_pos (by simpa using hc)] at hk
      simp only [List.length_cons] at hk
      omega
    | zero =>
      simp only [findSpecificAux]
      rw [matchSpecific_plain code c _ hc, matchSpecific_plain code c _ hc]
      by_cases hw : c = code
      · simp only [if_pos hw, List.cons_append]
        rw [numLen_append s r hr, List.take_append_of_le_length (numLen_le s)]
        rw [ih]
        have hsplit := List.takeWhile_append_dropWhile (p := fun c => decide (c ∉ c!"();/*\n")) (l := s)
        have hnn : NotNumeric (s.dropWhile (fun c => decide (c ∉ c!"();/*\n"))) := by
          intro d hd
          have : decide (d ∉ c!"();/*\n") = false := by
            have := List.head?_dropWhile_not (p := fun c => decide (c ∉ c!"();/*\n")) (l := s)
            rw [hd] at this
            simpa using this
          simp only [decide_eq_false_iff_not, not_not] at this
          simp only [List.mem_cons, List.not_mem_nil, or_false] at this ⊢
          rcases this with rfl | rfl | rfl | rfl | rfl | rfl <;> decide
        conv_lhs => rw [← hsplit]
        rw [numLen_append _ _ hnn]
        exact numLen_le _
      · simp only [if_neg hw]
        exact ih 0 (Nat.zero_le _)
  | paren t s ht hs ih =>
    intro k hk
    have hk0 : k = 0 := by
      simp only [paren, List.cons_append, List.takeWhile_cons] at hk
      simpa using hk
    subst hk0
    have hskip : ∀ u : Str, findSpecificAux code (t.length + 1) (t ++ ')' :: u) = findSpecificAux code 0 u := by
      intro u
      have := findSpecificAux_skip code (t ++ [')']) u
      simpa using this
    have hstep : ∀ u : Str, findSpecificAux code 0 (paren t ++ u) = findSpecificAux code 0 u := by
      intro u
      simp only [paren, List.cons_append, List.append_assoc, List.nil_append, findSpecificAux, matchSpecific, if_true]
      rw [parenLen_closed t u ht]
      simp only [Option.map_some]
      rw [hskip u]
    rw [List.append_assoc, hstep, hstep, ih 0 (Nat.zero_le _)]

theorem findSpecificAux_paren (code : Char) (t u : Str) (ht : ∀ c ∈ t, c ≠ '(' ∧ c ≠ ')') :
    findSpecificAux code 0 (paren t ++ u) = findSpecificAux code 0 u := by
  have hskip : findSpecificAux code (t.length + 1) (t ++ ')' :: u) = findSpecificAux code 0 u := by
    have := findSpecificAux_skip code (t ++ [')']) u
    simpa using this
  simp only [paren, List.cons_append, List.append_assoc, List.nil_append, findSpecificAux, matchSpecific, if_true]
  rw [parenLen_closed t u ht]
  simp only [Option.map_some]
  rw [hskip]

theorem findSpecificAux_semicolon (code : Char) (t : Str) (h : '\n' ∉ t) :
    findSpecificAux code 0 (';' :: t) = [] := by
  have hd : dotLen t = t.length := by
    unfold dotLen
    rw [List.takeWhile_eq_self_iff.2]
    intro c hc
    simp only [ne_eq, decide_eq_true_eq]
    rintro rfl; exact h hc
  have := findSpecificAux_skip code t []
  simp only [List.append_nil] at this
  simp [findSpecificAux, matchSpecific, hd, this]

end GCodeUtils
