import Verif.Lemmas.Format
import Verif.Spec.Close

/-
  C12–C14: printing and re-reading a line; line comparison.
-/

set_option linter.unusedSectionVars false

namespace GCodeUtils

open Spec

variable {α : Type} [Field α] [LinearOrder α] [IsStrictOrderedRing α] [FloorRing α]

theorem isDecimal_numLen {n : Str} (h : IsDecimal n) : numLen n = n.length := by
  obtain ⟨a, hne, ha, h⟩ := h
  have ha' : ∀ c ∈ a, isDig c = true := fun c hc => (isDig_iff c).2 (ha c hc)
  rcases h with rfl | ⟨b, hb, rfl⟩
  · have h1 := numLen_of_dig hne ha' []
    rw [List.append_nil] at h1
    rw [h1, uNumLen_digits _ ha']
  · rw [numLen_of_dig hne ha', uNumLen_decimal _ _ ha' (fun c hc => (isDig_iff c).2 (hb c hc))]

theorem argEq_iff (a b : Option α) : argEq a b = true ↔ Within (1 / 1000) a b := by
  unfold argEq Within eqEpsilon
  cases a <;> cases b <;> simp

theorem within_fixed (d : ℕ) (a : Option α) : Within (1 / (2 * 10 ^ d)) a (a.map (fun a => 1 * fixedVal d a)) := by
  cases a with
  | none => exact .inl ⟨rfl, rfl⟩
  | some a =>
    refine .inr ⟨a, 1 * fixedVal d a, rfl, rfl, ?_⟩
    rw [one_mul, abs_sub_comm]
    exact fixedVal_bound d a

theorem Within.mono {s t : α} (h : s ≤ t) {a b : Option α} (hw : Within s a b) : Within t a b := by
  rcases hw with h1 | ⟨u, v, h1, h2, h3⟩
  · exact .inl h1
  · exact .inr ⟨u, v, h1, h2, h3.trans h⟩

/-- C13. Two lines compare equal exactly when they have the same command and each of the seven arguments is either
absent on both or present on both with values at most 0.001 apart. -/
theorem C13_eq_iff (a b : PyLine α) :
    a.eq b = true ↔ a.command = b.command ∧ Within (1 / 1000) a.x b.x ∧ Within (1 / 1000) a.y b.y ∧
      Within (1 / 1000) a.z b.z ∧ Within (1 / 1000) a.e b.e ∧ Within (1 / 1000) a.f b.f ∧
      Within (1 / 1000) a.i b.i ∧ Within (1 / 1000) a.j b.j := by
  simp only [← argEq_iff]
  unfold PyLine.eq
  by_cases h : a.command = b.command
  · simp [h, and_assoc]
  · simp [h]

theorem Within.symm {t : α} {a b : Option α} (h : Within t a b) : Within t b a := by
  rcases h with ⟨h1, h2⟩ | ⟨u, v, h1, h2, h3⟩
  · exact .inl ⟨h2, h1⟩
  · exact .inr ⟨v, u, h2, h1, by rwa [abs_sub_comm]⟩

theorem Within.refl {t : α} (ht : 0 ≤ t) (a : Option α) : Within t a a := by
  cases a with
  | none => exact .inl ⟨rfl, rfl⟩
  | some a => exact .inr ⟨a, a, rfl, rfl, by simpa using ht⟩

/-- C13, reflexivity. -/
theorem C13_refl (a : PyLine α) : a.eq a = true := by
  have h : (0 : α) ≤ 1 / 1000 := by norm_num
  rw [C13_eq_iff]
  exact ⟨rfl, Within.refl h _, Within.refl h _, Within.refl h _, Within.refl h _, Within.refl h _, Within.refl h _,
    Within.refl h _⟩

/-- C13, symmetry. -/
theorem C13_symm (a b : PyLine α) : a.eq b = b.eq a := by
  rw [Bool.eq_iff_iff, C13_eq_iff, C13_eq_iff]
  constructor <;> rintro ⟨h, h1, h2, h3, h4, h5, h6, h7⟩ <;>
    exact ⟨h.symm, Within.symm h1, Within.symm h2, Within.symm h3, Within.symm h4, Within.symm h5, Within.symm h6,
      Within.symm h7⟩

/-- C13: `!=` is the negation of `==`. -/
theorem C13_ne (a b : PyLine α) : a.ne b = true ↔ ¬ a.eq b = true := by simp [PyLine.ne]

example : ({ command := some c!"G1", x := some (1 / 1000), e := some 2 } : PyLine ℚ).eq
    { command := some c!"G1", x := some 0, e := some 2 } = true ∧
    ({ command := some c!"G1", x := some (11 / 10000), e := some 2 } : PyLine ℚ).eq
    { command := some c!"G1", x := some 0, e := some 2 } = false := by decide +kernel

/-- C14 is false of the code: `==` is not transitive. -/
theorem C14_refuted : ∃ a b c : PyLine ℚ, a.eq b = true ∧ b.eq c = true ∧ a.eq c = false :=
  ⟨{ command := some c!"G1", x := some 0 }, { command := some c!"G1", x := some (1 / 1000) },
    { command := some c!"G1", x := some (2 / 1000) }, by decide +kernel⟩

theorem Within.trans {s t : α} {a b c : Option α} (h1 : Within s a b) (h2 : Within t b c) : Within (s + t) a c := by
  rcases h1 with ⟨rfl, rfl⟩ | ⟨u, v, rfl, rfl, h3⟩
  · rcases h2 with ⟨_, rfl⟩ | ⟨u, v, h, _⟩
    · exact .inl ⟨rfl, rfl⟩
    · simp at h
  · rcases h2 with ⟨h, _⟩ | ⟨u', v', h, rfl, h4⟩
    · simp at h
    · simp only [Option.some.injEq] at h
      subst h
      exact .inr ⟨u, v', rfl, rfl, (abs_sub_le u v v').trans (add_le_add h3 h4)⟩

/-- C14, what remains: a chain of `n` equal lines keeps the command and the set of arguments, and each value
drifts by at most `n` tolerances.  Missing: that the ends of the chain compare equal (false, see
`C14_refuted`). -/
theorem C14_chain_partial (ls : List (PyLine α)) (a b : PyLine α)
    (h : List.IsChain (fun l m => l.eq m = true) (a :: ls)) (hb : (a :: ls).getLast? = some b) :
    a.command = b.command ∧ Within ((ls.length : α) / 1000) a.x b.x ∧ Within ((ls.length : α) / 1000) a.y b.y ∧
      Within ((ls.length : α) / 1000) a.z b.z ∧ Within ((ls.length : α) / 1000) a.e b.e ∧ Within ((ls.length : α) / 1000) a.f b.f ∧
      Within ((ls.length : α) / 1000) a.i b.i ∧ Within ((ls.length : α) / 1000) a.j b.j := by
  induction ls generalizing a with
  | nil =>
    simp only [List.getLast?_singleton, Option.some.injEq] at hb
    subst hb
    have h : (0 : α) ≤ (([] : List (PyLine α)).length : α) / 1000 := by simp
    exact ⟨rfl, Within.refl h _, Within.refl h _, Within.refl h _, Within.refl h _, Within.refl h _, Within.refl h _,
      Within.refl h _⟩
  | cons c ls ih =>
    rw [List.isChain_cons_cons] at h
    obtain ⟨h0, h1, h2, h3, h4, h5, h6, h7⟩ := ih c h.2 (by rwa [List.getLast?_cons_cons] at hb)
    obtain ⟨g0, g1, g2, g3, g4, g5, g6, g7⟩ := (C13_eq_iff a c).1 h.1
    have e : ((c :: ls).length : α) / 1000 = 1 / 1000 + (ls.length : α) / 1000 := by
      simp only [List.length_cons]; push_cast; ring
    rw [e]
    exact ⟨g0.trans h0, Within.trans g1 h1, Within.trans g2 h2, Within.trans g3 h3, Within.trans g4 h4,
      Within.trans g5 h5, Within.trans g6 h6, Within.trans g7 h7⟩

/-- C12. The text `unsplit` makes of a G line parses back to a line with the same command, the same arguments
present, each within half a unit of the last printed digit, which therefore compares equal to the original. -/
theorem C12_unsplit_parse (l : PyLine α) (n : Str) (hn : IsDecimal n) (hcmd : l.command = some ('G' :: n)) :
    ∃ l' : PyLine α,
      parseCoordinates (rawToLine (unsplit l).raw) (split ({ raw := (unsplit l).raw } : PyLine α)).2 false = .ok l' ∧
      l'.command = l.command ∧ Within (5 / 10 ^ 4) l.x l'.x ∧ Within (5 / 10 ^ 4) l.y l'.y ∧
      Within (5 / 10 ^ 4) l.z l'.z ∧ Within (5 / 10 ^ 6) l.e l'.e ∧ Within (5 / 10 ^ 4) l.f l'.f ∧
      Within (5 / 10 ^ 4) l.i l'.i ∧ Within (5 / 10 ^ 4) l.j l'.j ∧
      l.eq l' = true ∧ l'.eq l = true := by
  have h := parse_unsplit l n hcmd (isDecimal_numLen hn) false
  refine ⟨_, h, ?_⟩
  have e3 : (1 : α) / (2 * 10 ^ 3) = 5 / 10 ^ 4 := by norm_num
  have e5 : (1 : α) / (2 * 10 ^ 5) = 5 / 10 ^ 6 := by norm_num
  have w3 : ∀ a : Option α, Within (5 / 10 ^ 4) a ((a.map (fun a => (if false = true then 254 / 10 else 1) * fixedVal 3 a)).or none) := by
    intro a
    rw [← e3]
    simpa using within_fixed 3 a
  have w5 : ∀ a : Option α, Within (5 / 10 ^ 6) a ((a.map (fun a => (if false = true then 254 / 10 else 1) * fixedVal 5 a)).or none) := by
    intro a
    rw [← e5]
    simpa using within_fixed 5 a
  have le3 : (5 : α) / 10 ^ 4 ≤ 1 / 1000 := by norm_num
  have le5 : (5 : α) / 10 ^ 6 ≤ 1 / 1000 := by norm_num
  have heq : l.eq (reread (if false = true then 254 / 10 else 1) l { raw := (unsplit l).raw, command := some ('G' :: n), isMove := moveGcodes.contains ('G' :: n) }) = true := by
    rw [C13_eq_iff]
    exact ⟨hcmd, Within.mono le3 (w3 _), Within.mono le3 (w3 _), Within.mono le3 (w3 _), Within.mono le5 (w5 _),
      Within.mono le3 (w3 _), Within.mono le3 (w3 _), Within.mono le3 (w3 _)⟩
  exact ⟨hcmd.symm, w3 _, w3 _, w3 _, w5 _, w3 _, w3 _, w3 _, heq, by rw [C13_symm]; exact heq⟩

example : IsDecimal c!"1" ∧ IsDecimal c!"92.1" :=
  ⟨⟨c!"1", by simp, by decide, .inl rfl⟩, ⟨c!"92", by simp, by decide, .inr ⟨c!"1", by decide, rfl⟩⟩⟩
example : (unsplit ({ command := some c!"G1", x := some (-1 / 3), e := some (2 / 3), j := some 12 } : PyLine ℚ)).raw =
    c!"G1 X-0.333 E0.66667 J12.000" := by decide +kernel

/-- C12, stability: rounding happens once.  What was read back is printed and read back again without any further
change of an argument. -/
theorem C12_unsplit_stable (l : PyLine α) (n : Str) (hn : IsDecimal n) (hcmd : l.command = some ('G' :: n)) :
    ∃ l' : PyLine α,
      parseCoordinates (rawToLine (unsplit l).raw) (split ({ raw := (unsplit l).raw } : PyLine α)).2 false = .ok l' ∧
      ∃ l'' : PyLine α, parseCoordinates (rawToLine (unsplit l').raw) (split ({ raw := (unsplit l').raw } : PyLine α)).2 false = .ok l'' ∧
        l''.x = l'.x ∧ l''.y = l'.y ∧ l''.z = l'.z ∧ l''.e = l'.e ∧ l''.f = l'.f ∧ l''.i = l'.i ∧ l''.j = l'.j := by
  have h := parse_unsplit l n hcmd (isDecimal_numLen hn) false
  refine ⟨_, h, ?_⟩
  have h2 := parse_unsplit (reread (if false = true then 254 / 10 else 1) l { raw := (unsplit l).raw, command := some ('G' :: n), isMove := moveGcodes.contains ('G' :: n) }) n rfl (isDecimal_numLen hn) false
  refine ⟨_, h2, ?_⟩
  have hfix : ∀ (d : ℕ) (a : α), fixedVal d (1 * fixedVal d a) = fixedVal d a := by
    intro d a
    have hp : (0 : α) < 10 ^ d := by positivity
    rw [one_mul]
    generalize hm : (roundEven (|a| * 10 ^ d)).toNat = m
    have hv : fixedVal d a = (if a < 0 then -1 else 1) * (m : α) / 10 ^ d := by rw [← hm]; rfl
    have habs : |fixedVal d a| * 10 ^ d = ((m : ℤ) : α) := by
      rw [hv]
      split_ifs
      · rw [show (-1 : α) * m / 10 ^ d = -(m / 10 ^ d) by ring, abs_neg, abs_of_nonneg (by positivity),
          div_mul_cancel₀ _ hp.ne']
        simp
      · rw [one_mul, abs_of_nonneg (by positivity), div_mul_cancel₀ _ hp.ne']
        simp
    rw [show fixedVal d (fixedVal d a) = (if fixedVal d a < 0 then -1 else 1) *
      (((roundEven (|fixedVal d a| * 10 ^ d)).toNat : ℕ) : α) / 10 ^ d from rfl, habs, roundEven_int, Int.toNat_natCast]
    by_cases hm0 : m = 0
    · rw [hv, hm0]; simp
    · have hmp : (0 : α) < m := by exact_mod_cast Nat.pos_of_ne_zero hm0
      rw [hv]
      by_cases ha : a < 0
      · rw [if_pos ha, if_pos]
        have : (-1 : α) * m / 10 ^ d = -(m / 10 ^ d) := by ring
        rw [this, neg_lt_zero]; positivity
      · rw [if_neg ha, if_neg]
        have : (0 : α) ≤ 1 * m / 10 ^ d := by positivity
        exact not_lt.2 this
  simp only [one_mul] at hfix
  simp [reread, Option.map_map, Function.comp_def, hfix]

end GCodeUtils
