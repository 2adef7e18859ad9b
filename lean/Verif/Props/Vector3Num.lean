import Verif.Model.Vector3Num
import Verif.Props.Vector3
import Verif.Props.Report

/-
  C136: vectors of integers and floats, in both versions of the language.
-/

set_option linter.unusedSectionVars false

namespace GCodeUtils

open Spec

variable {α : Type} [Field α] [LinearOrder α] [IsStrictOrderedRing α] [FloorRing α]

/-- Is the component a float? -/
def PyNum.IsFloat : PyNum α → Prop
  | .int _ => False
  | .flt _ => True

theorem each_ok {f : PyNum α → Except Err (PyNum α)} {v : NVec α} {x y z : PyNum α} (hx : f v.x = .ok x) (hy : f v.y = .ok y) (hz : f v.z = .ok z) :
    v.each f = .ok ⟨x, y, z⟩ := by
  unfold NVec.each
  rw [hx, hy, hz]; rfl

theorem each_error {f : PyNum α → Except Err (PyNum α)} {v : NVec α} {er : Err} (hx : f v.x = .error er) : v.each f = .error er := by
  unfold NVec.each
  rw [hx]; rfl

/-- C136: in Python 3 `v / k` divides the numbers, whatever their kinds, and multiplying by `k` gives them back; dividing by zero
raises. -/
theorem C136_division (v : NVec α) (k : PyNum α) :
    (k.val = 0 → v.div .py3 k = .error .zeroDivision) ∧
    (k.val ≠ 0 → ∃ w, v.div .py3 k = .ok w ∧ (w.x.val * k.val = v.x.val ∧ w.y.val * k.val = v.y.val ∧ w.z.val * k.val = v.z.val) ∧
      (w.mul k).eq v = true) := by
  constructor
  · intro h
    exact each_error (f := fun a => a.truediv k) (by unfold PyNum.truediv; rw [if_pos h])
  · intro h
    have e : ∀ a : PyNum α, a.truediv k = .ok (.flt (a.val / k.val)) := fun a => by unfold PyNum.truediv; rw [if_neg h]
    have d : ∀ a : α, a / k.val * k.val = a := fun a => div_mul_cancel₀ a h
    have m : ∀ a : α, ((PyNum.flt a).mul k).val = a * k.val := fun a => by cases k <;> rfl
    refine ⟨⟨.flt (v.x.val / k.val), .flt (v.y.val / k.val), .flt (v.z.val / k.val)⟩, each_ok (f := fun a => a.truediv k) (e _) (e _) (e _), ⟨d _, d _, d _⟩, ?_⟩
    simp only [NVec.eq, NVec.mul, m, d, decide_true, Bool.and_self]

/-- C136: in Python 2 it does the same as long as the divisor or all components are floats. -/
theorem C136_classic_partial (v : NVec α) (k : PyNum α) (h : k.IsFloat ∨ (v.x.IsFloat ∧ v.y.IsFloat ∧ v.z.IsFloat)) :
    v.div .py2 k = v.div .py3 k := by
  have e : ∀ a : PyNum α, k.IsFloat ∨ a.IsFloat → a.div .py2 k = a.truediv k := by
    intro a h
    cases a with
    | flt x => rfl
    | int m =>
      cases k with
      | flt x => rfl
      | int n => rcases h with h | h <;> exact h.elim
  have h1 := e v.x (h.imp_right (·.1))
  have h2 := e v.y (h.imp_right (·.2.1))
  have h3 := e v.z (h.imp_right (·.2.2))
  unfold NVec.div NVec.classicDiv NVec.truediv NVec.each
  simp only [h1, h2, h3]

/-- C136 fails in Python 2 for integers: half of (3, 4, 0), doubled, is (2, 4, 0). -/
theorem C136_classic_refuted : ∃ (v w : NVec α) (k : PyNum α), k.val ≠ 0 ∧ v.div .py2 k = .ok w ∧ (w.mul k).eq v = false := by
  refine ⟨⟨.int 3, .int 4, .int 0⟩, ⟨.int 1, .int 2, .int 0⟩, .int 2, by simp [PyNum.val], ?_, ?_⟩
  · have t : (PyNum.int 2 : PyNum α).val ≠ 0 := by simp [PyNum.val]
    refine each_ok (f := fun a => a.div .py2 (.int 2)) ?_ ?_ ?_ <;> · simp only [PyNum.div, PyNum.floordiv, if_neg t]; rfl
  · simp [NVec.eq, NVec.mul, PyNum.mul, PyNum.val]

/-- The quotient a user expects of floor division. -/
def FloorQuotient (a b q : α) : Prop := ∃ n : ℤ, q = n ∧ ((0 < b ∧ n * b ≤ a ∧ a < (n + 1) * b) ∨ (b < 0 ∧ a ≤ n * b ∧ (n + 1) * b < a))

theorem floor_quotient (a : α) {b : α} (h : b ≠ 0) : FloorQuotient a b (⌊a / b⌋ : α) := by
  refine ⟨⌊a / b⌋, rfl, ?_⟩
  have h1 := Int.floor_le (a / b)
  have h2 := Int.lt_floor_add_one (a / b)
  rcases lt_or_gt_of_ne h with hb | hb
  · right
    rw [le_div_iff_of_neg hb] at h1
    rw [div_lt_iff_of_neg hb] at h2
    exact ⟨hb, h1, h2⟩
  · left
    rw [le_div_iff₀ hb] at h1
    rw [div_lt_iff₀ hb] at h2
    exact ⟨hb, h1, h2⟩

theorem floordiv_quotient (a b : PyNum α) (h : b.val ≠ 0) : ∃ q, a.floordiv b = .ok q ∧ FloorQuotient a.val b.val q.val := by
  cases a with
  | flt x => exact ⟨.flt (⌊x / b.val⌋ : α), by unfold PyNum.floordiv; rw [if_neg h]; rfl, floor_quotient x h⟩
  | int m =>
    cases b with
    | flt y => exact ⟨.flt (⌊(m : α) / y⌋ : α), by unfold PyNum.floordiv; rw [if_neg h]; rfl, floor_quotient _ h⟩
    | int n =>
      refine ⟨.int (m.fdiv n), by unfold PyNum.floordiv; rw [if_neg h], m.fdiv n, rfl, ?_⟩
      have hn : n ≠ 0 := fun e => h (by rw [e]; simp [PyNum.val])
      have pos : ∀ a b : ℤ, 0 < b → a.fdiv b * b ≤ a ∧ a < (a.fdiv b + 1) * b := by
        intro a b hb
        have e := Int.mul_fdiv_add_fmod a b
        have b1 := Int.fmod_nonneg_of_pos a hb
        have b2 := Int.fmod_lt_of_pos a hb
        rw [add_mul, one_mul, mul_comm]
        constructor <;> omega
      simp only [PyNum.val]
      rcases lt_or_gt_of_ne hn with hb | hb
      · right
        obtain ⟨p1, p2⟩ := pos (-m) (-n) (by omega)
        rw [Int.neg_fdiv_neg] at p1 p2
        refine ⟨by exact_mod_cast hb, ?_, ?_⟩
        · have : m ≤ m.fdiv n * n := by linarith
          exact_mod_cast this
        · have : (m.fdiv n + 1) * n < m := by linarith
          exact_mod_cast this
      · left
        obtain ⟨p1, p2⟩ := pos m n hb
        exact ⟨by exact_mod_cast hb, by exact_mod_cast p1, by exact_mod_cast p2⟩

/-- C136: `v // k` rounds the quotients down, for integers and floats; so does `v / k` for integers in Python 2. -/
theorem C136_floor (v : NVec α) (k : PyNum α) :
    (k.val = 0 → v.floordiv k = .error .zeroDivision) ∧
    (k.val ≠ 0 → ∃ w, v.floordiv k = .ok w ∧
      FloorQuotient v.x.val k.val w.x.val ∧ FloorQuotient v.y.val k.val w.y.val ∧ FloorQuotient v.z.val k.val w.z.val) ∧
    (∀ a b c n : ℤ, (⟨.int a, .int b, .int c⟩ : NVec α).div .py2 (.int n) = (⟨.int a, .int b, .int c⟩ : NVec α).floordiv (.int n)) := by
  refine ⟨?_, ?_, fun _ _ _ _ => rfl⟩
  · intro h
    exact each_error (f := fun a => a.floordiv k) (by unfold PyNum.floordiv; rw [if_pos h])
  · intro h
    obtain ⟨x, h1, h2⟩ := floordiv_quotient v.x k h
    obtain ⟨y, h3, h4⟩ := floordiv_quotient v.y k h
    obtain ⟨z, h5, h6⟩ := floordiv_quotient v.z k h
    exact ⟨⟨x, y, z⟩, each_ok h1 h3 h5, h2, h4, h6⟩

/-- C136: `k / v` and `k // v` divide by the components; they raise exactly if one of them is zero. -/
theorem C136_reverse (v : NVec α) (k : PyNum α) :
    (v.x.val * v.y.val * v.z.val = 0 → NVec.rdiv .py3 k v = .error .zeroDivision ∧ NVec.rdiv .py2 k v = .error .zeroDivision ∧
      NVec.rfloordiv k v = .error .zeroDivision) ∧
    (v.x.val * v.y.val * v.z.val ≠ 0 →
      (∃ w, NVec.rdiv .py3 k v = .ok w ∧ w.x.val * v.x.val = k.val ∧ w.y.val * v.y.val = k.val ∧ w.z.val * v.z.val = k.val) ∧
      (∃ w, NVec.rfloordiv k v = .ok w ∧ FloorQuotient k.val v.x.val w.x.val ∧ FloorQuotient k.val v.y.val w.y.val ∧ FloorQuotient k.val v.z.val w.z.val)) := by
  have raises : ∀ f : PyNum α → Except Err (PyNum α), (∀ a, a.val = 0 → f a = .error .zeroDivision) →
      (∀ a, a.val ≠ 0 → ∃ q, f a = .ok q) → v.x.val * v.y.val * v.z.val = 0 → v.each f = .error .zeroDivision := by
    intro f h0 h1 h
    by_cases hx : v.x.val = 0
    · exact each_error (h0 _ hx)
    · obtain ⟨x, ex⟩ := h1 _ hx
      by_cases hy : v.y.val = 0
      · unfold NVec.each; rw [ex, h0 _ hy]; rfl
      · obtain ⟨y, ey⟩ := h1 _ hy
        have hz : v.z.val = 0 := by
          rcases mul_eq_zero.1 h with h | h
          · rcases mul_eq_zero.1 h with h | h
            · exact absurd h hx
            · exact absurd h hy
          · exact h
        unfold NVec.each; rw [ex, ey, h0 _ hz]; rfl
  have t0 : ∀ a : PyNum α, a.val = 0 → k.truediv a = .error .zeroDivision := fun a h => by unfold PyNum.truediv; rw [if_pos h]
  have t1 : ∀ a : PyNum α, a.val ≠ 0 → k.truediv a = .ok (.flt (k.val / a.val)) := fun a h => by unfold PyNum.truediv; rw [if_neg h]
  have f0 : ∀ a : PyNum α, a.val = 0 → k.floordiv a = .error .zeroDivision := fun a h => by unfold PyNum.floordiv; rw [if_pos h]
  have f1 : ∀ a : PyNum α, a.val ≠ 0 → ∃ q, k.floordiv a = .ok q := fun a h => let ⟨q, hq, _⟩ := floordiv_quotient k a h; ⟨q, hq⟩
  constructor
  · intro h
    refine ⟨raises _ t0 (fun a ha => ⟨_, t1 a ha⟩) h, raises _ ?_ ?_ h, raises _ f0 f1 h⟩
    · intro a ha
      cases k with
      | flt x => exact t0 a ha
      | int m =>
        cases a with
        | flt y => exact t0 _ ha
        | int n => exact f0 _ ha
    · intro a ha
      cases k with
      | flt x => exact ⟨_, t1 a ha⟩
      | int m =>
        cases a with
        | flt y => exact ⟨_, t1 _ ha⟩
        | int n => exact f1 _ ha
  · intro h
    have hz : v.z.val ≠ 0 := fun e => h (by rw [e, mul_zero])
    have hy : v.y.val ≠ 0 := fun e => h (by rw [e]; ring)
    have hx : v.x.val ≠ 0 := fun e => h (by rw [e]; ring)
    constructor
    · exact ⟨⟨.flt (k.val / v.x.val), .flt (k.val / v.y.val), .flt (k.val / v.z.val)⟩, each_ok (f := fun a => k.truediv a) (t1 _ hx) (t1 _ hy) (t1 _ hz), div_mul_cancel₀ _ hx, div_mul_cancel₀ _ hy, div_mul_cancel₀ _ hz⟩
    · obtain ⟨x, h1, h2⟩ := floordiv_quotient k v.x hx
      obtain ⟨y, h3, h4⟩ := floordiv_quotient k v.y hy
      obtain ⟨z, h5, h6⟩ := floordiv_quotient k v.z hz
      exact ⟨⟨x, y, z⟩, each_ok h1 h3 h5, h2, h4, h6⟩

/-- C136: `v /= k` gives what `v / k` gives, in both versions. -/
theorem C136_inplace (lang : Lang) (v : NVec α) (k : PyNum α) : v.idiv lang k = v.div lang k := by
  obtain ⟨x, y, z⟩ := v
  cases lang <;> rfl

/-- C136: normalizing gives the same numbers in both versions, for integers and floats: those of the vector of exact numbers. -/
theorem C136_normalize (lang : Lang) (sqrt : α → α) (v : NVec α) :
    ∃ w, v.getNormalized lang sqrt = .ok w ∧ w.val = v.val.getNormalized sqrt := by
  by_cases h : v.val.magnitude sqrt = 0
  · refine ⟨v, ?_, ?_⟩
    · unfold NVec.getNormalized
      simp only [if_pos h]; rfl
    · unfold Vec3.getNormalized
      simp only [if_pos h]
  · have t : ∀ a : PyNum α, a.truediv (.flt (v.val.magnitude sqrt)) = .ok (.flt (a.val / v.val.magnitude sqrt)) := by
      intro a
      unfold PyNum.truediv
      rw [if_neg (show ¬ (PyNum.flt (v.val.magnitude sqrt)).val = 0 from h)]; rfl
    have e : v.div lang (.flt (v.val.magnitude sqrt)) = v.div .py3 (.flt (v.val.magnitude sqrt)) := by
      cases lang with
      | py3 => rfl
      | py2 => exact C136_classic_partial v _ (.inl trivial)
    refine ⟨⟨.flt (v.x.val / v.val.magnitude sqrt), .flt (v.y.val / v.val.magnitude sqrt), .flt (v.z.val / v.val.magnitude sqrt)⟩, ?_, ?_⟩
    · unfold NVec.getNormalized
      simp only [if_neg h]
      rw [e]
      exact each_ok (f := fun a => a.truediv (.flt (v.val.magnitude sqrt))) (t _) (t _) (t _)
    · unfold Vec3.getNormalized
      simp only [if_neg h]
      rfl

/-- C136: equality does not see the kinds, is an equivalence and the opposite of `!=`; a copy is equal. -/
theorem C136_equality (a b c : NVec α) :
    (a.eq b = true ↔ a.val = b.val) ∧ a.eq a.copy = true ∧ a.eq b = b.eq a ∧ (a.eq b = true → b.eq c = true → a.eq c = true) ∧
    (a.ne b = true ↔ a.eq b = false) := by
  have key : ∀ a b : NVec α, a.eq b = true ↔ a.val = b.val := by
    intro a b
    unfold NVec.eq NVec.val
    simp only [Bool.and_eq_true, decide_eq_true_eq, Vec3.mk.injEq, and_assoc]
  refine ⟨key a b, (key a a).2 rfl, ?_, fun h1 h2 => (key a c).2 (((key a b).1 h1).trans ((key b c).1 h2)), ?_⟩
  · rw [Bool.eq_iff_iff, key, key]
    exact eq_comm
  · unfold NVec.ne
    cases a.eq b <;> simp

/-- C136: equal vectors whose components have the same kinds have the same text and the same hash. -/
theorem C136_hash_partial {η : Type} (h : Str → η) (fmt : α → Str) (a b : NVec α) (he : a.eq b = true)
    (hk : (a.x.IsFloat ↔ b.x.IsFloat) ∧ (a.y.IsFloat ↔ b.y.IsFloat) ∧ (a.z.IsFloat ↔ b.z.IsFloat)) :
    a.hash h fmt = b.hash h fmt := by
  have key : ∀ p q : PyNum α, (p.IsFloat ↔ q.IsFloat) → p.val = q.val → p = q := by
    intro p q hk hv
    cases p with
    | int m =>
      cases q with
      | int n => simp only [PyNum.val, Int.cast_inj] at hv; rw [hv]
      | flt y => exact (hk.2 trivial).elim
    | flt x =>
      cases q with
      | int n => exact (hk.1 trivial).elim
      | flt y => simp only [PyNum.val] at hv; rw [hv]
  have e := (C136_equality a b a).1.1 he
  simp only [NVec.val, Vec3.mk.injEq] at e
  obtain ⟨ax, ay, az⟩ := a
  obtain ⟨bx, by', bz⟩ := b
  have e1 := key _ _ hk.1 e.1
  have e2 := key _ _ hk.2.1 e.2.1
  have e3 := key _ _ hk.2.2 e.2.2
  simp only at e1 e2 e3
  rw [e1, e2, e3]

/-- C136 fails for vectors of different kinds: (1, 0, 0) and (1.0, 0.0, 0.0) are equal, but their texts differ whenever the text of the
float 1.0 is not "1"; so do their hashes if the hash tells the two texts apart. -/
theorem C136_hash_refuted (fmt : α → Str) (h1 : fmt 1 = c!"1.0") (h0 : fmt 0 = c!"0.0") :
    ∃ a b : NVec α, a.eq b = true ∧ a.repr fmt = c!"(1, 0, 0)" ∧ b.repr fmt = c!"(1.0, 0.0, 0.0)" ∧
      ∀ {η : Type} (h : Str → η), Function.Injective h → a.hash h fmt ≠ b.hash h fmt := by
  have ea : (⟨.int 1, .int 0, .int 0⟩ : NVec α).repr fmt = c!"(1, 0, 0)" := by
    simp only [NVec.repr, PyNum.text]
    decide +kernel
  have eb : (⟨.flt 1, .flt 0, .flt 0⟩ : NVec α).repr fmt = c!"(1.0, 0.0, 0.0)" := by
    simp only [NVec.repr, PyNum.text, h1, h0]
    decide
  refine ⟨_, _, ?_, ea, eb, ?_⟩
  · simp [NVec.eq, PyNum.val]
  · intro η h hi e
    have := hi e
    rw [ea, eb] at this
    exact absurd this (by decide)

/-- C136: in Python 2 exactly the zero vector counts as false. -/
theorem C136_truth_partial (v : NVec α) : v.truth .py2 = false ↔ v.val = Vec3.zero := by
  unfold NVec.truth NVec.val Vec3.zero
  simp only [Bool.or_eq_false_iff, decide_eq_false_iff_not, not_not, Vec3.mk.injEq, and_assoc]

/-- C136 fails in Python 3: the zero vector counts as true, like every other. -/
theorem C136_truth_refuted : ∃ v : NVec α, v.val = Vec3.zero ∧ v.truth .py3 = true :=
  ⟨⟨.int 0, .int 0, .int 0⟩, by simp [NVec.val, PyNum.val, Vec3.zero], rfl⟩

/-- C136: setting an attribute by its name changes this one and no other; other names do nothing. Setting all three, copying and the list
of floats do what they say. -/
theorem C136_attributes (v : NVec α) (name other : Str) (a x y z : PyNum α) :
    (name ∈ [c!"x", c!"y", c!"z"] → (v.setAttribute name a).getAttribute name = some a) ∧
    (other ≠ name → (v.setAttribute name a).getAttribute other = v.getAttribute other) ∧
    (name ∉ [c!"x", c!"y", c!"z"] → v.setAttribute name a = v ∧ v.getAttribute name = none) ∧
    ([c!"x", c!"y", c!"z"].map (v.setToXYZ x y z).getAttribute = [some x, some y, some z]) ∧ v.copy = v ∧
    (v.getFloatList.map PyNum.val = [v.x.val, v.y.val, v.z.val] ∧ ∀ f ∈ v.getFloatList, f.IsFloat) := by
  refine ⟨?_, ?_, ?_, by simp [NVec.setToXYZ, NVec.getAttribute], rfl, rfl, ?_⟩
  · intro h
    simp only [List.mem_cons, List.not_mem_nil, or_false] at h
    rcases h with rfl | rfl | rfl <;> simp [NVec.setAttribute, NVec.getAttribute]
  · intro h
    unfold NVec.setAttribute NVec.getAttribute
    by_cases h1 : name = c!"x"
    · subst h1; simp [h]
    · by_cases h2 : name = c!"y"
      · subst h2; simp [h]
      · by_cases h3 : name = c!"z"
        · subst h3; simp [h]
        · simp [h1, h2, h3]
  · intro h
    simp only [List.mem_cons, List.not_mem_nil, or_false, not_or] at h
    simp [NVec.setAttribute, NVec.getAttribute, h.1, h.2.1, h.2.2]
  · intro f hf
    simp only [NVec.getFloatList, List.mem_cons, List.not_mem_nil, or_false] at hf
    rcases hf with rfl | rfl | rfl <;> trivial

/-- C136: a product is the product, and neither a product nor a floored quotient turns integers into floats: a component of the
result is a float exactly if it was one or the number is one. -/
theorem C136_kinds (v w : NVec α) (k : PyNum α) :
    (v.mul k).val = v.val.mul k.val ∧
    (w = v.mul k ∨ v.floordiv k = .ok w →
      (w.x.IsFloat ↔ v.x.IsFloat ∨ k.IsFloat) ∧ (w.y.IsFloat ↔ v.y.IsFloat ∨ k.IsFloat) ∧ (w.z.IsFloat ↔ v.z.IsFloat ∨ k.IsFloat)) := by
  have hm : ∀ a b : PyNum α, (a.mul b).val = a.val * b.val ∧ ((a.mul b).IsFloat ↔ a.IsFloat ∨ b.IsFloat) := by
    intro a b
    cases a <;> cases b <;> simp [PyNum.mul, PyNum.val, PyNum.IsFloat]
  have hd : ∀ a b c : PyNum α, a.floordiv b = .ok c → (c.IsFloat ↔ a.IsFloat ∨ b.IsFloat) := by
    intro a b c h
    unfold PyNum.floordiv at h
    split at h
    · cases h
    · cases a <;> cases b <;> cases h <;> simp [PyNum.IsFloat]
  refine ⟨?_, ?_⟩
  · simp [NVec.mul, NVec.val, Vec3.mul, (hm _ _).1]
  · rintro (rfl | h)
    · exact ⟨(hm _ _).2, (hm _ _).2, (hm _ _).2⟩
    · simp only [NVec.floordiv, NVec.each] at h
      cases hx : v.x.floordiv k with
      | error e => rw [hx] at h; cases h
      | ok x =>
        cases hy : v.y.floordiv k with
        | error e => rw [hx, hy] at h; cases h
        | ok y =>
          cases hz : v.z.floordiv k with
          | error e => rw [hx, hy, hz] at h; cases h
          | ok z =>
            rw [hx, hy, hz] at h
            cases h
            exact ⟨hd _ _ _ hx, hd _ _ _ hy, hd _ _ _ hz⟩

/-- The vector of the documentation, in both versions. -/
example : (⟨.int 3, .int 4, .int 0⟩ : NVec ℚ).div .py3 (.int 2) = .ok ⟨.flt (3 / 2), .flt 2, .flt 0⟩ ∧
    (⟨.int 3, .int 4, .int 0⟩ : NVec ℚ).div .py2 (.int 2) = .ok ⟨.int 1, .int 2, .int 0⟩ ∧
    (⟨.int 3, .int 4, .int 0⟩ : NVec ℚ).div .py2 (.flt 2) = .ok ⟨.flt (3 / 2), .flt 2, .flt 0⟩ ∧
    (⟨.int (-3), .int 4, .int 0⟩ : NVec ℚ).floordiv (.int 2) = .ok ⟨.int (-2), .int 2, .int 0⟩ ∧
    NVec.rdiv .py3 (.int 12) (⟨.int 3, .flt (1 / 2), .int (-1)⟩ : NVec ℚ) = .ok ⟨.flt 4, .flt 24, .flt (-12)⟩ := by decide +kernel

end GCodeUtils
