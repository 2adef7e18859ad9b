import Verif.Lemmas.Round
import Verif.Lemmas.Lex

set_option linter.unusedSectionVars false

namespace GCodeUtils

open Spec

variable {α : Type} [Field α] [LinearOrder α] [IsStrictOrderedRing α] [FloorRing α]

theorem digitsVal_append (a b : Str) : digitsVal (a ++ b) = digitsVal a * 10 ^ b.length + digitsVal b := by
  have key : ∀ (b : Str) (n : ℕ), b.foldl (fun a c => a * 10 + digitVal c) n =
      n * 10 ^ b.length + b.foldl (fun a c => a * 10 + digitVal c) 0 := by
    intro b
    induction b with
    | nil => intro n; simp
    | cons c b ih =>
      intro n
      simp only [List.foldl_cons, List.length_cons]
      rw [ih (n * 10 + digitVal c), ih (0 * 10 + digitVal c)]
      ring
  unfold digitsVal
  rw [List.foldl_append, key]

theorem digit_facts : ∀ n : ℕ, n < 10 → isDig (digitChar n) = true ∧ digitVal (digitChar n) = n := by
  intro n hn
  have : ∀ n : Fin 10, isDig (digitChar n.1) = true ∧ digitVal (digitChar n.1) = n.1 := by decide
  exact this ⟨n, hn⟩

theorem digitsVal_singleton (c : Char) : digitsVal [c] = digitVal c := by simp [digitsVal]

theorem natDigitsAux_spec (fuel n : ℕ) (acc : Str) (h : n < fuel) :
    ∃ pre, natDigitsAux fuel n acc = pre ++ acc ∧ pre ≠ [] ∧ (∀ c ∈ pre, isDig c = true) ∧ digitsVal pre = n := by
  induction fuel generalizing n acc with
  | zero => omega
  | succ fuel ih =>
    unfold natDigitsAux
    by_cases hn : n < 10
    · rw [if_pos hn]
      obtain ⟨h1, h2⟩ := digit_facts n hn
      exact ⟨[digitChar n], rfl, by simp, by simpa using h1, by rw [digitsVal_singleton, h2]⟩
    · rw [if_neg hn]
      obtain ⟨pre, h1, h2, h3, h4⟩ := ih (n / 10) (digitChar (n % 10) :: acc) (by omega)
      obtain ⟨d1, d2⟩ := digit_facts (n % 10) (by omega)
      refine ⟨pre ++ [digitChar (n % 10)], by rw [h1]; simp, by simp, ?_, ?_⟩
      · intro c hc
        rcases List.mem_append.1 hc with hc | hc
        · exact h3 c hc
        · simp only [List.mem_singleton] at hc; subst hc; exact d1
      · rw [digitsVal_append, h4, digitsVal_singleton, d2]
        simp; omega

theorem natDigits_spec (n : ℕ) :
    natDigits n ≠ [] ∧ (∀ c ∈ natDigits n, isDig c = true) ∧ digitsVal (natDigits n) = n := by
  obtain ⟨pre, h1, h2, h3, h4⟩ := natDigitsAux_spec (n + 1) n [] (by omega)
  unfold natDigits
  rw [h1, List.append_nil]
  exact ⟨h2, h3, h4⟩

theorem padDigits_spec (d n : ℕ) :
    (padDigits d n).length = d ∧ (∀ c ∈ padDigits d n, isDig c = true) ∧ digitsVal (padDigits d n) = n % 10 ^ d := by
  induction d generalizing n with
  | zero => simp [padDigits, digitsVal, Nat.mod_one]
  | succ d ih =>
    obtain ⟨h1, h2, h3⟩ := ih (n / 10)
    obtain ⟨d1, d2⟩ := digit_facts (n % 10) (by omega)
    unfold padDigits
    refine ⟨by simp [h1], ?_, ?_⟩
    · intro c hc
      rcases List.mem_append.1 hc with hc | hc
      · exact h2 c hc
      · simp only [List.mem_singleton] at hc; subst hc; exact d1
    · rw [digitsVal_append, h3, digitsVal_singleton, d2]
      simp only [List.length_singleton, pow_one]
      rw [pow_succ, mul_comm (10 ^ d) 10, Nat.mod_mul]
      ring

/-- The number `"%.df" % x` denotes. -/
def fixedVal (d : ℕ) (x : α) : α :=
  (if x < 0 then -1 else 1) * (((roundEven (|x| * 10 ^ d)).toNat : ℕ) : α) / 10 ^ d

theorem fixedVal_bound (d : ℕ) (x : α) : |fixedVal d x - x| ≤ 1 / (2 * 10 ^ d) := by
  have hp : (0 : α) < 10 ^ d := by positivity
  have hn : 0 ≤ roundEven (|x| * 10 ^ d) := roundEven_nonneg (by positivity)
  have hc : (((roundEven (|x| * 10 ^ d)).toNat : ℕ) : α) = ((roundEven (|x| * 10 ^ d) : ℤ) : α) := by
    exact_mod_cast congrArg (Int.cast (R := α)) (Int.toNat_of_nonneg hn)
  have h := pyRound_bound (α := α) .halfEven d |x|
  simp only [pyRound, roundInt] at h
  unfold fixedVal
  rw [hc]
  split_ifs with hx
  · have hxa : |x| = -x := abs_of_neg hx
    rw [abs_le] at h ⊢
    rw [hxa] at h ⊢
    have e : -1 * (roundEven (-x * 10 ^ d) : α) / 10 ^ d = -((roundEven (-x * 10 ^ d) : α) / 10 ^ d) := by ring
    rw [e]
    constructor <;> linarith [h.1, h.2]
  · have hxa : |x| = x := abs_of_nonneg (not_lt.1 hx)
    rw [hxa] at h ⊢
    rw [one_mul]
    exact h

theorem takeWhile_dig_append (a b : Str) (ha : ∀ c ∈ a, isDig c = true) (hb : ∀ c, b.head? = some c → isDig c = false) :
    (a ++ b).takeWhile isDig = a ∧ (a ++ b).dropWhile isDig = b := by
  induction a with
  | nil =>
    cases b with
    | nil => simp
    | cons c b => simp [hb c rfl]
  | cons c a ih =>
    have hc := ha c (by simp)
    obtain ⟨h1, h2⟩ := ih (fun d hd => ha d (by simp [hd]))
    simp [hc, h1, h2]

theorem parseUFloat_decimal (a b : Str) (ha : ∀ c ∈ a, isDig c = true) (hb : ∀ c ∈ b, isDig c = true) (hne : a ≠ []) :
    (parseUFloat (a ++ '.' :: b) : Option α) = some ((digitsVal (a ++ b) : α) / 10 ^ b.length) := by
  obtain ⟨h1, h2⟩ := takeWhile_dig_append a ('.' :: b) ha (by intro c hc; simp at hc; subst hc; decide)
  unfold parseUFloat
  simp only
  rw [h1, h2]
  have : b.all isDig = true := List.all_eq_true.2 hb
  simp [this, hne]

theorem parseFloat_of_dig {a : Str} (hne : a ≠ []) (ha : ∀ c ∈ a, isDig c = true) (b : Str) :
    (parseFloat (a ++ b) : Option α) = parseUFloat (a ++ b) := by
  cases a with
  | nil => exact absurd rfl hne
  | cons c a =>
    have hc := ha c (by simp)
    unfold parseFloat
    simp only [List.cons_append]
    split
    · rename_i heq; simp at heq; rw [heq.1] at hc; exact absurd hc (by decide)
    · rename_i heq; simp at heq; rw [heq.1] at hc; exact absurd hc (by decide)
    · rfl

/-- `float("%.df" % x)`. -/
theorem parseFloat_fmtFixed (d : ℕ) (x : α) : parseFloat (fmtFixed d x) = some (fixedVal d x) := by
  set m := (roundEven (|x| * 10 ^ d)).toNat with hm
  obtain ⟨n1, n2, n3⟩ := natDigits_spec (m / 10 ^ d)
  obtain ⟨p1, p2, p3⟩ := padDigits_spec d (m % 10 ^ d)
  have hval : digitsVal (natDigits (m / 10 ^ d) ++ padDigits d (m % 10 ^ d)) = m := by
    rw [digitsVal_append, n3, p3, p1, Nat.mod_mod, mul_comm, Nat.div_add_mod]
  have hU : (parseUFloat (natDigits (m / 10 ^ d) ++ '.' :: padDigits d (m % 10 ^ d)) : Option α) = some ((m : α) / 10 ^ d) := by
    rw [parseUFloat_decimal _ _ n2 p2 n1, hval, p1]
  unfold fmtFixed fixedVal
  simp only
  rw [← hm]
  split_ifs with hx
  · simp only [List.cons_append, List.nil_append, List.append_assoc]
    show (parseUFloat (natDigits (m / 10 ^ d) ++ '.' :: padDigits d (m % 10 ^ d)) : Option α).map (fun v => -v) = _
    rw [hU]
    simp only [Option.map_some, Option.some.injEq]
    ring
  · simp only [List.cons_append, List.nil_append, List.append_assoc]
    rw [parseFloat_of_dig n1 n2, hU, one_mul]

/-! ### scanning printed numbers -/

theorem digLen_dig (a b : Str) (ha : ∀ c ∈ a, isDig c = true) (hb : ∀ c, b.head? = some c → isDig c = false) :
    digLen (a ++ b) = a.length := by
  unfold digLen
  rw [(takeWhile_dig_append a b ha hb).1]

theorem uNumLen_decimal (a b : Str) (ha : ∀ c ∈ a, isDig c = true) (hb : ∀ c ∈ b, isDig c = true) :
    uNumLen (a ++ '.' :: b) = (a ++ '.' :: b).length := by
  unfold uNumLen
  have h1 := digLen_dig a ('.' :: b) ha (by intro c hc; simp at hc; subst hc; decide)
  have h2 := digLen_dig b [] hb (by simp)
  rw [List.append_nil] at h2
  simp only [h1, List.drop_left, h2, List.length_append, List.length_cons]
  omega

theorem uNumLen_digits (a : Str) (ha : ∀ c ∈ a, isDig c = true) : uNumLen a = a.length := by
  unfold uNumLen
  have h1 := digLen_dig a [] ha (by simp)
  rw [List.append_nil] at h1
  simp [h1]

theorem numLen_of_dig {a : Str} (hne : a ≠ []) (ha : ∀ c ∈ a, isDig c = true) (b : Str) :
    numLen (a ++ b) = uNumLen (a ++ b) := by
  cases a with
  | nil => exact absurd rfl hne
  | cons c a =>
    have hc := ha c (by simp)
    unfold numLen
    simp only [List.cons_append]
    rw [if_neg]
    intro h
    simp only [Bool.or_eq_true, decide_eq_true_eq] at h
    rcases h with rfl | rfl <;> revert hc <;> decide

theorem numLen_fmtFixed (d : ℕ) (x : α) : numLen (fmtFixed d x) = (fmtFixed d x).length := by
  set m := (roundEven (|x| * 10 ^ d)).toNat with hm
  obtain ⟨n1, n2, n3⟩ := natDigits_spec (m / 10 ^ d)
  obtain ⟨p1, p2, p3⟩ := padDigits_spec d (m % 10 ^ d)
  have hU := uNumLen_decimal (natDigits (m / 10 ^ d)) (padDigits d (m % 10 ^ d)) n2 p2
  unfold fmtFixed
  simp only
  rw [← hm]
  split_ifs with hx
  · simp only [List.cons_append, List.nil_append, List.append_assoc]
    unfold numLen
    simp only [decide_true, Bool.true_or, if_true, hU, List.length_cons]
    omega
  · simp only [List.cons_append, List.nil_append, List.append_assoc]
    rw [numLen_of_dig n1 n2, hU]

theorem fmtFixed_ne_nil (d : ℕ) (x : α) : fmtFixed d x ≠ [] := by
  unfold fmtFixed
  simp

theorem fmtFixed_chars (d : ℕ) (x : α) : ∀ c ∈ fmtFixed d x, c ∈ c!"0123456789.+-" := by
  have h := numeric_of_lt_numLen (fmtFixed d x)
  rwa [numLen_fmtFixed, List.take_length] at h

theorem lower_numeric (s : Str) (h : ∀ c ∈ s, c ∈ c!"0123456789.+-") : lower s = s := by
  unfold lower
  conv_rhs => rw [← List.map_id s]
  apply List.map_congr_left
  intro c hc
  have := h c hc
  exact (toLower_eq_iff c c (by
    simp only [List.mem_cons, List.not_mem_nil, or_false] at this
    rcases this with rfl | rfl | rfl | rfl | rfl | rfl | rfl | rfl | rfl | rfl | rfl | rfl | rfl <;> decide)).2 rfl

/-- One printed word. -/
theorem findallAux_word (st : Bool) (c : Char) (n r : Str) (hc : c ∈ wordLetters) (hn : numLen n = n.length)
    (hr : NotNumeric r) : findallAux st 0 (c :: (n ++ r)) = some (c, n) :: findallAux false 0 r := by
  have hp : c ∉ c!"();/*\n" := by
    simp only [wordLetters, List.mem_cons, List.not_mem_nil, or_false] at hc
    rcases hc with rfl | rfl | rfl | rfl | rfl | rfl | rfl | rfl | rfl | rfl | rfl <;> decide
  simp only [findallAux]
  rw [matchTok_plain st c _ hp, if_pos hc, take_numLen_append n r hr, numLen_append n r hr, hn, List.take_length]
  simp only
  rw [findallAux_skip]

theorem findallAux_space (r : Str) : findallAux false 0 (' ' :: r) = findallAux false 0 r := rfl

end GCodeUtils
