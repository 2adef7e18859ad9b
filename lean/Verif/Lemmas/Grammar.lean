import Verif.Spec.Grammar
import Verif.Lemmas.Lex
import Verif.Lemmas.Marks
import Verif.Lemmas.Decimal

/-
  The matchers read lines as the grammar says.
-/

set_option linter.unusedSectionVars false

namespace GCodeUtils

open Spec

theorem isDigits_iff (s : Str) : IsDigits s ↔ ∀ c ∈ s, isDig c = true := by
  constructor
  · intro h c hc; exact (isDig_iff c).2 (h c hc)
  · intro h c hc; exact (isDig_iff c).1 (h c hc)

theorem wordLetters_iff (c : Char) : c ∈ wordLetters ↔ c ∈ letters := by
  unfold wordLetters letters
  simp only [List.mem_cons, List.not_mem_nil, or_false]
  tauto

theorem uNumLen_spec {a dot b rest : Str} (ha : IsDigits a) (hd : dot = [] ∨ dot = ['.']) (hb : IsDigits b) (hdb : dot = [] → b = [])
    (hr : ∀ c, rest.head? = some c → c ∉ digits ∧ (dot = [] → c ≠ '.')) : uNumLen (a ++ dot ++ b ++ rest) = (a ++ dot ++ b).length := by
  have hr' : ∀ c, rest.head? = some c → isDig c = false := fun c hc => by
    have := (hr c hc).1
    rw [← Bool.not_eq_true, isDig_iff]; exact this
  rw [isDigits_iff] at ha hb
  rcases hd with rfl | rfl
  · rw [hdb rfl]
    simp only [List.append_nil]
    unfold uNumLen
    have e : digLen (a ++ rest) = a.length := digLen_dig a rest ha hr'
    simp only [e, List.drop_left]
    cases rest with
    | nil => rfl
    | cons c r =>
      have := (hr c rfl).2 rfl
      split
      · rename_i h; simp only [List.cons.injEq] at h; exact absurd h.1 this
      · rfl
  · unfold uNumLen
    have e : digLen (a ++ ['.'] ++ b ++ rest) = a.length := by
      have : a ++ ['.'] ++ b ++ rest = a ++ ('.' :: (b ++ rest)) := by simp
      rw [this]
      exact digLen_dig a _ ha (by intro c hc; cases hc; rfl)
    have e2 : (a ++ ['.'] ++ b ++ rest).drop a.length = '.' :: (b ++ rest) := by
      have : a ++ ['.'] ++ b ++ rest = a ++ ('.' :: (b ++ rest)) := by simp
      rw [this, List.drop_left]
    simp only [e, e2]
    rw [digLen_dig b rest hb hr']
    simp; omega

theorem numLen_spec {n rest : Str} (h : NumberText n rest) : numLen (n ++ rest) = n.length := by
  obtain ⟨sign, a, dot, b, rfl, hs, ha, hd, hb, hdb, hr⟩ := h
  have hu := uNumLen_spec ha hd hb hdb (fun c hc => ⟨(hr c hc).1, (hr c hc).2.1⟩)
  rcases hs with rfl | rfl | rfl
  · simp only [List.nil_append] at *
    generalize hw : a ++ dot ++ b ++ rest = w at *
    unfold numLen
    cases w with
    | nil => simpa [uNumLen, digLen] using hu
    | cons c t =>
      simp only
      rw [if_neg, hu]
      intro hc
      simp only [Bool.or_eq_true, decide_eq_true_eq] at hc
      cases ha' : a with
      | cons x a' =>
        rw [ha'] at hw
        simp only [List.cons_append, List.cons.injEq] at hw
        have := ha x (by rw [ha']; exact List.mem_cons_self)
        rw [hw.1] at this
        rcases hc with rfl | rfl <;> revert this <;> decide
      | nil =>
        rcases hd with rfl | rfl
        · have hb' := hdb rfl
          subst hb'
          rw [ha'] at hw
          simp only [List.nil_append] at hw
          have := (hr c (by rw [hw]; rfl)).2.2 (by rw [ha']; rfl)
          rcases hc with rfl | rfl
          · exact this.1 rfl
          · exact this.2 rfl
        · rw [ha'] at hw
          simp only [List.nil_append, List.cons_append, List.cons.injEq] at hw
          rw [← hw.1] at hc
          revert hc; decide
  · have e : ['-'] ++ a ++ dot ++ b ++ rest = '-' :: (a ++ dot ++ b ++ rest) := by simp
    rw [e, numLen]
    simp only []
    rw [if_pos (by decide), hu]
    simp; omega
  · have e : ['+'] ++ a ++ dot ++ b ++ rest = '+' :: (a ++ dot ++ b ++ rest) := by simp
    rw [e, numLen]
    simp only []
    rw [if_pos (by decide), hu]
    simp; omega

/-- Every text has a number text at its head. -/
theorem numberText_exists (s : Str) : ∃ n rest, s = n ++ rest ∧ NumberText n rest := by
  have hU : ∀ u : Str, ∃ a dot b rest, u = a ++ dot ++ b ++ rest ∧ IsDigits a ∧ (dot = [] ∨ dot = ['.']) ∧ IsDigits b ∧ (dot = [] → b = []) ∧
      ∀ c, rest.head? = some c → c ∉ digits ∧ (dot = [] → c ≠ '.') := by
    intro u
    have hd : ∀ v : Str, IsDigits (v.takeWhile isDig) ∧ ∀ c, (v.dropWhile isDig).head? = some c → c ∉ digits := by
      intro v
      constructor
      · rw [isDigits_iff]
        intro c hc
        exact List.mem_takeWhile_imp hc
      · intro c hc hcd
        have := head?_dropWhile v c hc
        rw [(isDig_iff c).2 hcd] at this
        cases this
    cases hv : u.dropWhile isDig with
    | nil =>
      refine ⟨u.takeWhile isDig, [], [], [], ?_, (hd u).1, .inl rfl, by simp [IsDigits], fun _ => rfl, by simp⟩
      conv_lhs => rw [← List.takeWhile_append_dropWhile (p := isDig) (l := u), hv]
      simp
    | cons c w =>
      by_cases hc : c = '.'
      · subst hc
        refine ⟨u.takeWhile isDig, ['.'], w.takeWhile isDig, w.dropWhile isDig, ?_, (hd u).1, .inr rfl, (hd w).1, by simp, ?_⟩
        · conv_lhs => rw [← List.takeWhile_append_dropWhile (p := isDig) (l := u), hv, ← List.takeWhile_append_dropWhile (p := isDig) (l := w)]
          simp
        · intro c hc
          exact ⟨(hd w).2 c hc, by simp⟩
      · refine ⟨u.takeWhile isDig, [], [], c :: w, ?_, (hd u).1, .inl rfl, by simp [IsDigits], fun _ => rfl, ?_⟩
        · conv_lhs => rw [← List.takeWhile_append_dropWhile (p := isDig) (l := u), hv]
          simp
        · intro c' hc'
          refine ⟨(hd u).2 c' (by rw [hv]; exact hc'), ?_⟩
          simp only [List.head?_cons, Option.some.injEq] at hc'
          intro _ hx
          exact hc (hc'.trans hx)
  by_cases hs : ∃ c t, s = c :: t ∧ (c = '-' ∨ c = '+')
  · obtain ⟨c, t, rfl, hc⟩ := hs
    obtain ⟨a, dot, b, rest, rfl, h1, h2, h3, h4, h5⟩ := hU t
    refine ⟨[c] ++ a ++ dot ++ b, rest, by simp, [c], a, dot, b, rfl, ?_, h1, h2, h3, h4, ?_⟩
    · rcases hc with rfl | rfl
      · exact .inr (.inl rfl)
      · exact .inr (.inr rfl)
    · intro c' hc'
      exact ⟨(h5 c' hc').1, (h5 c' hc').2, by simp⟩
  · obtain ⟨a, dot, b, rest, hu, h1, h2, h3, h4, h5⟩ := hU s
    refine ⟨a ++ dot ++ b, rest, hu, [], a, dot, b, by simp, .inl rfl, h1, h2, h3, h4, ?_⟩
    intro c' hc'
    refine ⟨(h5 c' hc').1, (h5 c' hc').2, fun hn => ?_⟩
    rw [hn, List.nil_append] at hu
    cases rest with
    | nil => cases hc'
    | cons x r =>
      simp only [List.head?_cons, Option.some.injEq] at hc'
      subst hc'
      constructor
      · rintro rfl; exact hs ⟨_, r, hu, .inl rfl⟩
      · rintro rfl; exact hs ⟨_, r, hu, .inr rfl⟩

theorem parenLen_some {cs : Str} {n : ℕ} (h : parenLen cs = some n) : ∃ t r, cs = t ++ ')' :: r ∧ (∀ c ∈ t, c ≠ '(' ∧ c ≠ ')') ∧ n = t.length + 1 := by
  induction cs generalizing n with
  | nil => cases h
  | cons c cs ih =>
    rw [parenLen] at h
    by_cases h1 : c = ')'
    · rw [if_pos h1] at h
      cases h
      exact ⟨[], cs, by rw [h1]; rfl, by simp, rfl⟩
    · rw [if_neg h1] at h
      by_cases h2 : c = '('
      · rw [if_pos h2] at h; cases h
      · rw [if_neg h2] at h
        cases h3 : parenLen cs with
        | none => rw [h3] at h; cases h
        | some k =>
          rw [h3] at h
          simp only [Option.map_some, Option.some.injEq] at h
          obtain ⟨t, r, e, ht, hk⟩ := ih h3
          refine ⟨c :: t, r, by rw [e]; rfl, ?_, by simp; omega⟩
          intro x hx
          rcases List.mem_cons.1 hx with rfl | hx
          · exact ⟨h2, h1⟩
          · exact ht x hx

theorem parenLen_iff (c : Char) (cs : Str) : StartsParen (c :: cs) ↔ c = '(' ∧ parenLen cs ≠ none := by
  constructor
  · rintro ⟨t, r, e, ht⟩
    simp only [paren, List.cons_append, List.append_assoc, List.nil_append, List.cons.injEq] at e
    refine ⟨e.1, ?_⟩
    rw [parenLen_first e.2 ht]
    simp
  · rintro ⟨rfl, h⟩
    obtain ⟨n, hn⟩ := Option.ne_none_iff_exists'.1 h
    obtain ⟨t, r, e, ht, _⟩ := parenLen_some hn
    exact ⟨t, r, by rw [e]; simp [paren], ht⟩

theorem outerParen_iff (c : Char) (cs : Str) : WholeParen (c :: cs) ↔ c = '(' ∧ outerParenLen cs ≠ none := by
  unfold outerParenLen
  constructor
  · rintro ⟨t, nl, e, ht, hnl⟩
    simp only [paren, List.cons_append, List.append_assoc, List.nil_append, List.cons.injEq] at e
    refine ⟨e.1, ?_⟩
    obtain ⟨_, e⟩ := e
    have hb : (if cs.getLast? = some '\n' then cs.dropLast else cs) = t ++ [')'] := by
      rcases hnl with rfl | rfl
      · rw [if_neg (by rw [e]; simp), e]
      · have e' : cs = (t ++ [')']) ++ ['\n'] := by rw [e]; simp
        rw [if_pos (by rw [e']; simp), e']
        simp
    simp only [hb]
    rw [if_pos]
    · simp
    · simp only [List.all_append, Bool.and_eq_true, List.all_eq_true, decide_eq_true_eq]
      refine ⟨⟨fun x hx hn => ht (hn ▸ hx), ?_⟩, by simp⟩
      intro x hx
      simp only [List.mem_singleton] at hx
      subst hx; decide
  · rintro ⟨rfl, h⟩
    simp only at h
    generalize hb : (if cs.getLast? = some '\n' then cs.dropLast else cs) = body at h
    by_cases hc : (body.all (fun x => decide (x ≠ '\n')) && decide (body.getLast? = some ')')) = true
    · simp only [Bool.and_eq_true, List.all_eq_true, decide_eq_true_eq] at hc
      have hbody : body = body.dropLast ++ [')'] := by
        obtain ⟨y, e⟩ := List.getLast?_eq_some_iff.1 hc.2
        rw [e]; simp
      have hn : '\n' ∉ body.dropLast := fun hm => hc.1 _ (List.mem_of_mem_dropLast hm) rfl
      by_cases hl : cs.getLast? = some '\n'
      · rw [if_pos hl] at hb
        obtain ⟨y, e⟩ := List.getLast?_eq_some_iff.1 hl
        have : cs = body ++ ['\n'] := by
          rw [← hb, e]; simp
        exact ⟨body.dropLast, ['\n'], by rw [this]; conv_lhs => rw [hbody]
                                         simp [paren], hn, .inr rfl⟩
      · rw [if_neg hl] at hb
        exact ⟨body.dropLast, [], by rw [hb]; conv_lhs => rw [hbody]
                                     simp [paren], hn, .inl rfl⟩
    · rw [if_neg hc] at h
      exact absurd rfl h

theorem outerParenLen_rest {cs : Str} {n : ℕ} (h : outerParenLen cs = some n) : cs.drop n = [] ∨ cs.drop n = ['\n'] := by
  unfold outerParenLen at h
  simp only at h
  by_cases hl : cs.getLast? = some '\n'
  · rw [if_pos hl] at h
    split at h
    · simp only [Option.some.injEq] at h
      obtain ⟨y, e⟩ := List.getLast?_eq_some_iff.1 hl
      right
      rw [← h, e]
      simp
    · cases h
  · rw [if_neg hl] at h
    split at h
    · simp only [Option.some.injEq] at h
      left
      rw [← h]; simp
    · cases h

theorem dotLen_spec {t s : Str} (ht : '\n' ∉ t) (hs : ∀ c, s.head? = some c → c = '\n') : dotLen (t ++ s) = t.length := by
  unfold dotLen
  have h : (t ++ s).takeWhile (fun x => decide (x ≠ '\n')) = t := by
    rw [List.takeWhile_append_of_pos (by intro a ha; simp only [decide_eq_true_eq]; exact fun hx => ht (hx ▸ ha))]
    cases s with
    | nil => simp
    | cons c r =>
      rw [List.takeWhile_cons, if_neg (by rw [hs c rfl]; decide)]
      simp
  rw [h]

theorem findallAux_drop (cs : Str) (n : ℕ) : findallAux false n cs = findallAux false 0 (cs.drop n) := by
  induction cs generalizing n with
  | nil => cases n <;> simp [findallAux]
  | cons c cs ih =>
    cases n with
    | zero => rfl
    | succ n => rw [findallAux, ih]; rfl

theorem findallAux_match {b : Bool} {c : Char} {cs r : Str} {t : Tok} {n : ℕ} (h : matchTok b c cs = some (t, n)) (hr : cs.drop n = r) :
    findallAux b 0 (c :: cs) = t :: findallAux false 0 r := by
  rw [findallAux, h]
  simp only
  rw [findallAux_drop, hr]

theorem findallAux_none {b : Bool} {c : Char} {cs : Str} (h : matchTok b c cs = none) : findallAux b 0 (c :: cs) = findallAux false 0 cs := by
  rw [findallAux, h]

theorem letters_special {c : Char} (h : c ∈ letters) : c ≠ '(' ∧ c ≠ ';' ∧ c ≠ '/' ∧ c ≠ '*' := by
  revert h
  unfold letters
  simp only [List.mem_cons, List.not_mem_nil, or_false]
  rintro (rfl | rfl | rfl | rfl | rfl | rfl | rfl | rfl | rfl | rfl | rfl) <;> decide

theorem reads_findall {b : Bool} {s : Str} {ws : List Tok} (h : Reads letters b s ws) : findallAux b 0 s = ws := by
  induction h with
  | done => rfl
  | @paren b s ws t ht _ ih =>
    have e : paren t ++ s = '(' :: (t ++ ')' :: s) := by simp [Spec.paren]
    rw [e]
    rw [findallAux_match (t := none) (n := t.length + 1) (r := s) (by unfold matchTok; rw [if_pos rfl, parenLen_first rfl ht]) (by
      rw [← List.drop_drop, List.drop_left]; rfl), ih]
  | @whole s hw hn =>
    obtain ⟨t, nl, e, _, _⟩ := id hw
    have e' : s = '(' :: (t ++ ')' :: nl) := by rw [e]; simp [Spec.paren]
    rw [e'] at hw hn ⊢
    have h1 : parenLen (t ++ ')' :: nl) = none := by
      by_contra hx
      exact hn ((parenLen_iff _ _).2 ⟨rfl, hx⟩)
    obtain ⟨n, h2⟩ := Option.ne_none_iff_exists'.1 ((outerParen_iff _ _).1 hw).2
    rw [findallAux, matchTok, if_pos rfl, h1]
    simp only [if_true, h2, Option.map_some]
    rw [findallAux_drop]
    rcases outerParenLen_rest h2 with h3 | h3 <;> rw [h3] <;> rfl
  | @semicolon b s ws t ht hs _ ih =>
    rw [List.cons_append, findallAux_match (t := none) (n := t.length) (r := s) (by
      unfold matchTok; rw [if_neg (by decide), if_pos rfl, dotLen_spec ht hs]) (List.drop_left), ih]
  | @slash b s ws c t hc ht _ ih =>
    have hd : dotLen (t ++ '\n' :: s) = t.length := dotLen_spec ht (by intro c hc; cases hc; rfl)
    rw [List.cons_append, findallAux_match (t := none) (n := t.length + 1) (r := s) ?_ (by rw [← List.drop_drop, List.drop_left]; rfl), ih]
    unfold matchTok slashLen
    rw [if_neg (by rcases hc with rfl | rfl <;> decide), if_neg (by rcases hc with rfl | rfl <;> decide), if_pos (by rcases hc with rfl | rfl <;> decide),
      if_pos (by simp), hd]
    rfl
  | @word b s ws c n hc hn _ ih =>
    obtain ⟨h1, h2, h3, h4⟩ := letters_special hc
    rw [List.cons_append, findallAux_match (t := some (c, n)) (n := n.length) (r := s) ?_ List.drop_left, ih]
    unfold matchTok
    rw [if_neg h1, if_neg h2, if_neg (by simp [h3, h4]), if_pos ((wordLetters_iff c).2 hc), numLen_spec hn]
    simp
  | @other b s ws c h1 h2 h3 h4 h5 _ ih =>
    rw [findallAux_none ?_, ih]
    unfold matchTok
    by_cases hc : c = '('
    · rw [if_pos hc]
      have e : parenLen s = none := by
        by_contra hx
        exact h4 ((parenLen_iff _ _).2 ⟨hc, hx⟩)
      rw [e]
      simp only
      cases b with
      | false => rfl
      | true =>
        have e2 : outerParenLen s = none := by
          by_contra hx
          exact h5 rfl ((outerParen_iff _ _).2 ⟨hc, hx⟩)
        rw [e2]
        rfl
    · rw [if_neg hc, if_neg h2]
      by_cases hs : c = '/' ∨ c = '*'
      · rw [if_pos (by simpa using hs), slashLen_none (h3 hs)]
        rfl
      · rw [if_neg (by simpa using hs), if_neg (by rw [wordLetters_iff]; exact h1)]

theorem reads_exists (L : List Char) (s : Str) : ∀ b, ∃ ws, Reads L b s ws := by
  induction hn : s.length using Nat.strong_induction_on generalizing s with
  | _ n ih =>
    intro b
    have rc : ∀ r : Str, r.length < s.length → ∃ ws, Reads L false r ws := fun r hr => ih r.length (by omega) r rfl false
    cases s with
    | nil => exact ⟨[], .done⟩
    | cons c cs =>
      by_cases h1 : StartsParen (c :: cs)
      · obtain ⟨t, r, e, ht⟩ := h1
        obtain ⟨ws, hw⟩ := rc r (by rw [e]; simp [Spec.paren]; omega)
        exact ⟨_, by rw [e]; exact .paren t ht hw⟩
      by_cases h2 : b = true ∧ WholeParen (c :: cs)
      · obtain ⟨rfl, h2⟩ := h2
        exact ⟨_, .whole h2 h1⟩
      have hdot : ∃ t r, cs = t ++ r ∧ '\n' ∉ t ∧ ∀ c, r.head? = some c → c = '\n' := by
        refine ⟨cs.takeWhile (fun x => decide (x ≠ '\n')), cs.dropWhile (fun x => decide (x ≠ '\n')), (List.takeWhile_append_dropWhile).symm, ?_, ?_⟩
        · intro h
          simpa using List.mem_takeWhile_imp h
        · intro c hc
          simpa using head?_dropWhile cs c hc
      by_cases h3 : c = ';'
      · subst h3
        obtain ⟨t, r, rfl, ht, hr⟩ := hdot
        obtain ⟨ws, hw⟩ := rc r (by simp; omega)
        exact ⟨_, .semicolon t ht hr hw⟩
      by_cases h4 : (c = '/' ∨ c = '*') ∧ '\n' ∈ cs
      · obtain ⟨t, r, rfl, ht, hr⟩ := hdot
        cases r with
        | nil => rw [List.append_nil] at h4; exact absurd h4.2 ht
        | cons x r =>
          have := hr x rfl
          subst this
          obtain ⟨ws, hw⟩ := rc r (by simp; omega)
          exact ⟨_, .slash c t h4.1 ht hw⟩
      by_cases h5 : c ∈ L
      · obtain ⟨m, r, rfl, hm⟩ := numberText_exists cs
        obtain ⟨ws, hw⟩ := rc r (by simp; omega)
        exact ⟨_, .word c m h5 hm hw⟩
      · obtain ⟨ws, hw⟩ := rc cs (by simp)
        exact ⟨_, .other c h5 h3 (fun hc hn => h4 ⟨hc, hn⟩) h1 (fun hb hx => h2 ⟨hb, hx⟩) hw⟩

theorem findall_reads (s : Str) (ws : List Tok) : findall s = ws ↔ Reads letters true s ws := by
  constructor
  · intro h
    obtain ⟨ws', hw⟩ := reads_exists letters s true
    have := reads_findall hw
    have e : ws = ws' := h.symm.trans this
    rw [e]; exact hw
  · exact fun h => reads_findall h

/-! ### one letter -/

theorem findSpecificAux_drop (code : Char) (cs : Str) (n : ℕ) : findSpecificAux code n cs = findSpecificAux code 0 (cs.drop n) := by
  induction cs generalizing n with
  | nil => cases n <;> simp [findSpecificAux]
  | cons c cs ih =>
    cases n with
    | zero => rfl
    | succ n => rw [findSpecificAux, ih]; rfl

theorem findSpecific_comment {code c : Char} {cs r : Str} {n : ℕ} (h : matchSpecific code c cs = some (none, n)) (hr : cs.drop n = r) :
    findSpecificAux code 0 (c :: cs) = findSpecificAux code 0 r := by
  rw [findSpecificAux, h]
  simp only
  rw [findSpecificAux_drop, hr]

theorem reads_specific {code : Char} (hc : code ∉ c!"(;/*") {b : Bool} {s : Str} {ws : List Tok} (h : Reads [code] b s ws) (hb : b = false) :
    findSpecificAux code 0 s = (ws.filterMap id).map (·.2) := by
  have hc' : code ≠ '(' ∧ code ≠ ';' ∧ code ≠ '/' ∧ code ≠ '*' := by simpa using hc
  induction h with
  | done => rfl
  | @paren b s ws t ht _ ih =>
    have e : paren t ++ s = '(' :: (t ++ ')' :: s) := by simp [Spec.paren]
    rw [e, findSpecific_comment (n := t.length + 1) (r := s) (by unfold matchSpecific; rw [if_pos rfl, parenLen_first rfl ht]; rfl) (by
      rw [← List.drop_drop, List.drop_left]; rfl), ih rfl]
    rfl
  | whole => cases hb
  | @semicolon b s ws t ht hs _ ih =>
    rw [List.cons_append, findSpecific_comment (n := t.length) (r := s) (by
      unfold matchSpecific; rw [if_neg (by decide), if_pos rfl, dotLen_spec ht hs]) (List.drop_left), ih rfl]
    rfl
  | @slash b s ws c t hc ht _ ih =>
    have hd : dotLen (t ++ '\n' :: s) = t.length := dotLen_spec ht (by intro c hc; cases hc; rfl)
    rw [List.cons_append, findSpecific_comment (n := t.length + 1) (r := s) ?_ (by rw [← List.drop_drop, List.drop_left]; rfl), ih rfl]
    · rfl
    unfold matchSpecific slashLen
    rw [if_neg (by rcases hc with rfl | rfl <;> decide), if_neg (by rcases hc with rfl | rfl <;> decide), if_pos (by rcases hc with rfl | rfl <;> decide),
      if_pos (by simp), hd]
    rfl
  | @word b s ws c n hcl hn _ ih =>
    simp only [List.mem_singleton] at hcl
    subst hcl
    rw [List.cons_append, findSpecificAux, matchSpecific, if_neg hc'.1, if_neg hc'.2.1, if_neg (by simp [hc'.2.2]), if_pos rfl, numLen_spec hn]
    simp only
    rw [findSpecificAux_drop, List.drop_left, ih rfl]
    simp
  | @other b s ws c h1 h2 h3 h4 h5 _ ih =>
    rw [findSpecificAux]
    have : matchSpecific code c s = none := by
      unfold matchSpecific
      by_cases hc : c = '('
      · rw [if_pos hc]
        have e : parenLen s = none := by
          by_contra hx
          exact h4 ((parenLen_iff _ _).2 ⟨hc, hx⟩)
        rw [e]
        rfl
      · rw [if_neg hc, if_neg h2]
        by_cases hs : c = '/' ∨ c = '*'
        · rw [if_pos (by simpa using hs), slashLen_none (h3 hs)]
          rfl
        · rw [if_neg (by simpa using hs), if_neg (by simpa using h1)]
    rw [this]
    exact ih rfl

/-! ### numbers -/

variable {α : Type} [Field α] [LinearOrder α] [IsStrictOrderedRing α] [FloorRing α]

theorem digitsVal_numeral (s : Str) : digitsVal s = numeral s := by
  unfold numeral
  induction s using List.reverseRecOn with
  | nil => rfl
  | append_singleton s c ih =>
    rw [digitsVal_append, digitsVal_singleton, ih]
    simp only [List.reverse_append, List.reverse_cons, List.reverse_nil, List.nil_append, List.singleton_append, List.map_cons, Nat.ofDigits_cons]
    simp only [List.length_singleton, pow_one, digitVal]
    have : '0'.toNat = 48 := rfl
    rw [this]; ring

theorem parseUFloat_int {a : Str} (ha : IsDigits a) (hne : a ≠ []) : (parseUFloat a : Option α) = some (numeral a : α) := by
  rw [isDigits_iff] at ha
  unfold parseUFloat
  have h1 := takeWhile_dig_append a [] ha (by simp)
  simp only [List.append_nil] at h1
  simp only [h1.1, h1.2]
  rw [if_neg (by simpa using hne), digitsVal_numeral]

theorem parseUFloat_point {a b : Str} (ha : IsDigits a) (hb : IsDigits b) (hne : a ≠ [] ∨ b ≠ []) :
    (parseUFloat (a ++ '.' :: b) : Option α) = some (numeral a + numeral b / 10 ^ b.length : α) := by
  rw [isDigits_iff] at ha hb
  unfold parseUFloat
  have h1 := takeWhile_dig_append a ('.' :: b) ha (by intro c hc; cases hc; rfl)
  simp only [h1.1, h1.2]
  rw [if_pos]
  · rw [digitsVal_append, ← digitsVal_numeral, ← digitsVal_numeral]
    congr 1
    push_cast
    field_simp
  · simp only [decide_true, Bool.true_and, Bool.and_eq_true, List.all_eq_true, Bool.not_eq_true', Bool.and_eq_false_iff, List.isEmpty_eq_false_iff]
    exact ⟨hb, hne⟩

theorem parseUFloat_reads {s : Str} {v : α} (h : parseUFloat s = some v) : Decimal s v ∧ s.head? ≠ some '-' ∧ s.head? ≠ some '+' := by
  have hs : s = s.takeWhile isDig ++ s.dropWhile isDig := (List.takeWhile_append_dropWhile).symm
  have ha : IsDigits (s.takeWhile isDig) := by rw [isDigits_iff]; intro c hc; exact List.mem_takeWhile_imp hc
  have hhead : ∀ x, x ∉ digits → x ≠ '.' → ∀ t, t = [] ∨ (∃ r, t = '.' :: r) → (s.takeWhile isDig ++ t).head? ≠ some x := by
    intro x hx hd t ht
    cases ha' : s.takeWhile isDig with
    | nil =>
      rcases ht with rfl | ⟨r, rfl⟩
      · simp
      · simp; exact fun h => hd h.symm
    | cons c r =>
      simp only [List.cons_append, List.head?_cons, ne_eq, Option.some.injEq]
      rintro rfl
      exact hx (ha _ (by rw [ha']; exact List.mem_cons_self))
  have key := h
  unfold parseUFloat at h
  simp only at h
  cases hd : s.dropWhile isDig with
  | nil =>
    rw [hd] at h hs
    simp only [List.append_nil] at hs
    by_cases he : (s.takeWhile isDig).isEmpty = true
    · simp only [he, if_true] at h; cases h
    · have hne : s ≠ [] := by intro hx; apply he; rw [← hs]; simp [hx]
      have ha2 : IsDigits s := by rw [hs]; exact ha
      rw [parseUFloat_int ha2 hne] at key
      cases key
      refine ⟨.int s ha2 hne, ?_, ?_⟩
      · have := hhead '-' (by decide) (by decide) [] (.inl rfl); rwa [List.append_nil, ← hs] at this
      · have := hhead '+' (by decide) (by decide) [] (.inl rfl); rwa [List.append_nil, ← hs] at this
  | cons c fr =>
    rw [hd] at h hs
    simp only at h
    split at h
    · rename_i hc
      simp only [Bool.and_eq_true, decide_eq_true_eq, List.all_eq_true, Bool.not_eq_true', Bool.and_eq_false_iff, List.isEmpty_eq_false_iff] at hc
      obtain ⟨⟨rfl, hb⟩, hne⟩ := hc
      rw [← isDigits_iff] at hb
      generalize s.takeWhile isDig = a at *
      subst hs
      rw [parseUFloat_point ha hb hne] at key
      cases key
      exact ⟨.point a fr ha hb hne, hhead '-' (by decide) (by decide) _ (.inr ⟨_, rfl⟩), hhead '+' (by decide) (by decide) _ (.inr ⟨_, rfl⟩)⟩
    · cases h

theorem decimal_unsigned {s : Str} {v : α} (h : Decimal s v) (h1 : s.head? ≠ some '-') (h2 : s.head? ≠ some '+') : parseUFloat s = some v := by
  cases h with
  | int a ha hne => exact parseUFloat_int ha hne
  | point a b ha hb hne => exact parseUFloat_point ha hb hne
  | plus => exact absurd rfl h2
  | minus => exact absurd rfl h1

theorem parseFloat_head {s : Str} (h1 : s.head? ≠ some '-') (h2 : s.head? ≠ some '+') : (parseFloat s : Option α) = parseUFloat s := by
  unfold parseFloat
  split
  · exact absurd rfl h1
  · exact absurd rfl h2
  · rfl

theorem parseFloat_iff (s : Str) (v : α) : parseFloat s = some v ↔ Decimal s v := by
  constructor
  · intro h
    unfold parseFloat at h
    split at h
    · rename_i t
      cases ht : (parseUFloat t : Option α) with
      | none => rw [ht] at h; cases h
      | some w =>
        rw [ht] at h
        cases h
        obtain ⟨a, b, c⟩ := parseUFloat_reads ht
        exact .minus b c a
    · obtain ⟨a, b, c⟩ := parseUFloat_reads h
      exact .plus b c a
    · exact (parseUFloat_reads h).1
  · intro h
    by_cases h1 : s.head? = some '-'
    · cases h with
      | minus a b h => show (parseUFloat _).map _ = _; rw [decimal_unsigned h a b]; rfl
      | plus a b h => cases h1
      | int a ha hne =>
        exfalso
        cases s with
        | nil => cases h1
        | cons c t => simp only [List.head?_cons, Option.some.injEq] at h1; have := ha c List.mem_cons_self; rw [h1] at this; revert this; decide
      | point a b ha hb hne =>
        exfalso
        cases a with
        | nil => simp at h1
        | cons c t =>
          simp only [List.cons_append, List.head?_cons, Option.some.injEq] at h1
          have := ha c List.mem_cons_self; rw [h1] at this; revert this; decide
    · by_cases h2 : s.head? = some '+'
      · cases h with
        | plus a b h => show parseUFloat _ = _; rw [decimal_unsigned h a b]
        | minus a b h => cases h2
        | int a ha hne =>
          exfalso
          cases s with
          | nil => cases h2
          | cons c t => simp only [List.head?_cons, Option.some.injEq] at h2; have := ha c List.mem_cons_self; rw [h2] at this; revert this; decide
        | point a b ha hb hne =>
          exfalso
          cases a with
          | nil => simp at h2
          | cons c t =>
            simp only [List.cons_append, List.head?_cons, Option.some.injEq] at h2
            have := ha c List.mem_cons_self; rw [h2] at this; revert this; decide
      · rw [parseFloat_head h1 h2, decimal_unsigned h h1 h2]

end GCodeUtils
