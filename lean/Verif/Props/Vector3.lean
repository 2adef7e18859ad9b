import Verif.Model.Vector3
import Verif.Spec.Stretch
import Verif.Lemmas.StretchSqrt
import Mathlib.Tactic.Ring
import Mathlib.Tactic.Linarith
import Mathlib.Tactic.FieldSimp

/-
  C71: vectors.
-/

set_option linter.unusedSectionVars false

namespace GCodeUtils

open Spec

variable {α : Type} [Field α] [LinearOrder α] [IsStrictOrderedRing α] [FloorRing α]

theorem Vec3.ext' {a b : Vec3 α} (h1 : a.x = b.x) (h2 : a.y = b.y) (h3 : a.z = b.z) : a = b := by
  cases a; cases b; simp only at h1 h2 h3; rw [h1, h2, h3]

/-- C71. Vectors form a vector space; subtraction is adding the opposite. -/
theorem C71_space (a b c : Vec3 α) (k m : α) :
    a.add b = b.add a ∧ (a.add b).add c = a.add (b.add c) ∧ a.add Vec3.zero = a ∧ a.add a.neg = Vec3.zero ∧ a.sub b = a.add b.neg ∧
    a.mul (k * m) = (a.mul k).mul m ∧ a.mul 1 = a ∧ (a.add b).mul k = (a.mul k).add (b.mul k) ∧ a.mul (k + m) = (a.mul k).add (a.mul m) ∧
    a.neg = a.mul (-1) ∧ (a.sub b = Vec3.zero ↔ a = b) := by
  have hz : a.sub b = Vec3.zero ↔ a = b := by
    constructor
    · intro h
      have h1 := congrArg Vec3.x h; have h2 := congrArg Vec3.y h; have h3 := congrArg Vec3.z h
      simp only [Vec3.sub, Vec3.zero] at h1 h2 h3
      exact Vec3.ext' (sub_eq_zero.1 h1) (sub_eq_zero.1 h2) (sub_eq_zero.1 h3)
    · rintro rfl
      simp [Vec3.sub, Vec3.zero]
  refine ⟨?_, ?_, ?_, ?_, ?_, ?_, ?_, ?_, ?_, ?_, hz⟩ <;> apply Vec3.ext' <;> simp only [Vec3.add, Vec3.sub, Vec3.neg, Vec3.mul, Vec3.zero] <;> ring

/-- C71. Products: the inner product is symmetric, linear and positive; the cross product is orthogonal to its factors, changes
sign when they are swapped, and its length completes that of the inner product. -/
theorem C71_products (a b c : Vec3 α) (k : α) :
    a.dot b = b.dot a ∧ (a.add b).dot c = a.dot c + b.dot c ∧ (a.mul k).dot b = k * a.dot b ∧
    a.dot a = a.magnitudeSquared ∧ 0 ≤ a.magnitudeSquared ∧ (a.magnitudeSquared = 0 ↔ a = Vec3.zero) ∧
    (a.cross b).dot a = 0 ∧ (a.cross b).dot b = 0 ∧ a.cross b = (b.cross a).neg ∧ a.cross a = Vec3.zero ∧
    (a.add b).cross c = (a.cross c).add (b.cross c) ∧ (a.cross b).magnitudeSquared = a.magnitudeSquared * b.magnitudeSquared - a.dot b * a.dot b ∧
    (a.cross b).dot c = (b.cross c).dot a := by
  have hz : a.magnitudeSquared = 0 ↔ a = Vec3.zero := by
    unfold Vec3.magnitudeSquared
    constructor
    · intro h
      have h1 := mul_self_nonneg a.x; have h2 := mul_self_nonneg a.y; have h3 := mul_self_nonneg a.z
      exact Vec3.ext' (mul_self_eq_zero.1 (by linarith)) (mul_self_eq_zero.1 (by linarith)) (mul_self_eq_zero.1 (by linarith))
    · rintro rfl; simp [Vec3.zero]
  have hp : 0 ≤ a.magnitudeSquared := by
    unfold Vec3.magnitudeSquared
    have h1 := mul_self_nonneg a.x; have h2 := mul_self_nonneg a.y; have h3 := mul_self_nonneg a.z
    linarith
  refine ⟨?_, ?_, ?_, ?_, hp, hz, ?_, ?_, ?_, ?_, ?_, ?_, ?_⟩
  · simp only [Vec3.dot]; ring
  · simp only [Vec3.dot, Vec3.add]; ring
  · simp only [Vec3.dot, Vec3.mul]; ring
  · rfl
  · simp only [Vec3.dot, Vec3.cross]; ring
  · simp only [Vec3.dot, Vec3.cross]; ring
  · apply Vec3.ext' <;> simp only [Vec3.cross, Vec3.neg] <;> ring
  · apply Vec3.ext' <;> simp only [Vec3.cross, Vec3.zero] <;> ring
  · apply Vec3.ext' <;> simp only [Vec3.cross, Vec3.add] <;> ring
  · simp only [Vec3.dot, Vec3.cross, Vec3.magnitudeSquared]; ring
  · simp only [Vec3.dot, Vec3.cross]; ring

/-- C71. Distances. -/
theorem C71_distance (sqrt : α → α) (a b : Vec3 α) :
    a.distanceSquared b = (a.sub b).magnitudeSquared ∧ a.distanceSquared b = b.distanceSquared a ∧ (a.distanceSquared b = 0 ↔ a = b) ∧
    a.distance sqrt b = (a.sub b).magnitude sqrt ∧ a.distance sqrt b = b.distance sqrt a := by
  have h1 : a.distanceSquared b = (a.sub b).magnitudeSquared := rfl
  have h2 : a.distanceSquared b = b.distanceSquared a := by simp only [Vec3.distanceSquared]; ring
  refine ⟨h1, h2, ?_, rfl, by unfold Vec3.distance; rw [h2]⟩
  rw [h1, (C71_products (a.sub b) a a 0).2.2.2.2.2.1]
  exact (C71_space a b a 0 0).2.2.2.2.2.2.2.2.2.2

/-- C71. Reflecting in a unit normal: twice is the identity, lengths and inner products are kept, the normal is reversed, vectors
orthogonal to it stay. -/
theorem C71_reflect (a b n : Vec3 α) (h : n.magnitudeSquared = 1) :
    (a.reflect n).reflect n = a ∧ (a.reflect n).magnitudeSquared = a.magnitudeSquared ∧ (a.reflect n).dot (b.reflect n) = a.dot b ∧
    n.reflect n = n.neg ∧ (a.dot n = 0 → a.reflect n = a) := by
  have h' : n.x * n.x + n.y * n.y + n.z * n.z = 1 := h
  have hxx : n.x * n.x = 1 - n.y * n.y - n.z * n.z := by linarith
  have key : ∀ a b : Vec3 α, (a.reflect n).dot (b.reflect n) = a.dot b := by
    intro a b
    simp only [Vec3.dot, Vec3.reflect]
    have e : (a.x - 2 * (a.x * n.x + a.y * n.y + a.z * n.z) * n.x) * (b.x - 2 * (b.x * n.x + b.y * n.y + b.z * n.z) * n.x) +
        (a.y - 2 * (a.x * n.x + a.y * n.y + a.z * n.z) * n.y) * (b.y - 2 * (b.x * n.x + b.y * n.y + b.z * n.z) * n.y) +
        (a.z - 2 * (a.x * n.x + a.y * n.y + a.z * n.z) * n.z) * (b.z - 2 * (b.x * n.x + b.y * n.y + b.z * n.z) * n.z) =
        (a.x * b.x + a.y * b.y + a.z * b.z) +
          4 * (a.x * n.x + a.y * n.y + a.z * n.z) * (b.x * n.x + b.y * n.y + b.z * n.z) * (n.x * n.x + n.y * n.y + n.z * n.z - 1) := by ring
    rw [e, h']; ring
  have inv : (a.reflect n).reflect n = a := by
    have e : ((a.reflect n).x * n.x + (a.reflect n).y * n.y + (a.reflect n).z * n.z) = -(a.x * n.x + a.y * n.y + a.z * n.z) := by
      simp only [Vec3.reflect]
      have : (a.x - 2 * (a.x * n.x + a.y * n.y + a.z * n.z) * n.x) * n.x + (a.y - 2 * (a.x * n.x + a.y * n.y + a.z * n.z) * n.y) * n.y +
        (a.z - 2 * (a.x * n.x + a.y * n.y + a.z * n.z) * n.z) * n.z =
        (a.x * n.x + a.y * n.y + a.z * n.z) - 2 * (a.x * n.x + a.y * n.y + a.z * n.z) * (n.x * n.x + n.y * n.y + n.z * n.z) := by ring
      rw [this, h']; ring
    apply Vec3.ext'
    · show (a.reflect n).x - 2 * ((a.reflect n).x * n.x + (a.reflect n).y * n.y + (a.reflect n).z * n.z) * n.x = a.x
      rw [e]; simp only [Vec3.reflect]; ring
    · show (a.reflect n).y - 2 * ((a.reflect n).x * n.x + (a.reflect n).y * n.y + (a.reflect n).z * n.z) * n.y = a.y
      rw [e]; simp only [Vec3.reflect]; ring
    · show (a.reflect n).z - 2 * ((a.reflect n).x * n.x + (a.reflect n).y * n.y + (a.reflect n).z * n.z) * n.z = a.z
      rw [e]; simp only [Vec3.reflect]; ring
  refine ⟨inv, key a a, key a b, ?_, ?_⟩
  · apply Vec3.ext' <;> simp only [Vec3.reflect, Vec3.neg, h'] <;> ring
  · intro ho
    have ho' : a.x * n.x + a.y * n.y + a.z * n.z = 0 := ho
    apply Vec3.ext' <;> simp only [Vec3.reflect, ho'] <;> ring

example : (⟨3 / 5, 0, 4 / 5⟩ : Vec3 ℚ).magnitudeSquared = 1 := by decide +kernel

/-- C71. Normalizing: zero stays, any other vector gets length 1 up to the error of the square root, and keeps its direction; the
two ways of normalizing agree. -/
theorem C71_normalize {ε : α} {sqrt : α → α} (hs : IsSqrt ε sqrt) (a : Vec3 α) :
    a.normalize sqrt = a.getNormalized sqrt ∧ (a = Vec3.zero → a.normalize sqrt = a) ∧
    (a ≠ Vec3.zero → ∃ m, 0 < m ∧ a = (a.normalize sqrt).mul m ∧ (a.normalize sqrt).magnitudeSquared ≤ (1 + ε) ^ 2 ∧
      1 ≤ (1 + ε) ^ 2 * (a.normalize sqrt).magnitudeSquared) := by
  have hag : a.normalize sqrt = a.getNormalized sqrt := by
    unfold Vec3.normalize Vec3.getNormalized
    by_cases hm : a.magnitude sqrt = 0
    · simp [hm]
    · simp [hm]
  refine ⟨hag, ?_, ?_⟩
  · rintro rfl
    unfold Vec3.normalize
    simp only
    split_ifs
    · apply Vec3.ext' <;> simp [Vec3.zero]
    · rfl
  · intro hne
    obtain ⟨e0, hs⟩ := hs
    have hpos : 0 < a.magnitudeSquared := lt_of_le_of_ne (C71_products a a a 0).2.2.2.2.1 (fun h => hne ((C71_products a a a 0).2.2.2.2.2.1.1 h.symm))
    obtain ⟨s1, s2, s3⟩ := hs a.magnitudeSquared hpos.le
    have he : a.magnitude sqrt = sqrt a.magnitudeSquared := rfl
    have hm : a.magnitude sqrt ≠ 0 := by
      rw [he]; intro h0
      rw [h0] at s3
      have : (1 + ε) ^ 2 * (0 : α) ^ 2 = 0 := by ring
      rw [this] at s3
      linarith
    have hmp : 0 < a.magnitude sqrt := lt_of_le_of_ne (by rw [he]; exact s1) (Ne.symm hm)
    have hn : a.normalize sqrt = ⟨a.x / a.magnitude sqrt, a.y / a.magnitude sqrt, a.z / a.magnitude sqrt⟩ := by
      unfold Vec3.normalize; simp [hm]
    have hq : (a.normalize sqrt).magnitudeSquared = a.magnitudeSquared / a.magnitude sqrt ^ 2 := by
      rw [hn]; simp only [Vec3.magnitudeSquared]; field_simp
    refine ⟨a.magnitude sqrt, hmp, ?_, ?_, ?_⟩
    · rw [hn]; apply Vec3.ext' <;> simp only [Vec3.mul] <;> field_simp
    · rw [hq, div_le_iff₀ (by positivity), he]; exact s3
    · rw [hq, mul_div_assoc', le_div_iff₀ (by positivity), one_mul, he]; exact s2

/-- C71. With the exact square root the length is 1. -/
theorem C71_normalize_real (a : Vec3 ℝ) (h : a ≠ Vec3.zero) : (a.normalize Real.sqrt).magnitude Real.sqrt = 1 := by
  obtain ⟨m, _, _, h1, h2⟩ := (C71_normalize realSqrt_isSqrt a).2.2 h
  have : (a.normalize Real.sqrt).magnitudeSquared = 1 := by
    have e : ((1 : ℝ) + 0) ^ 2 = 1 := by norm_num
    rw [e] at h1 h2
    linarith
  unfold Vec3.magnitude
  have h' : (a.normalize Real.sqrt).x * (a.normalize Real.sqrt).x + (a.normalize Real.sqrt).y * (a.normalize Real.sqrt).y +
    (a.normalize Real.sqrt).z * (a.normalize Real.sqrt).z = 1 := this
  rw [h', Real.sqrt_one]

/-- C71. Component-wise bounds: the least vector above both, the greatest below both. -/
theorem C71_bounds (a b c : Vec3 α) :
    ((a.maximize b).x ≤ c.x ∧ (a.maximize b).y ≤ c.y ∧ (a.maximize b).z ≤ c.z ↔
      (a.x ≤ c.x ∧ b.x ≤ c.x) ∧ (a.y ≤ c.y ∧ b.y ≤ c.y) ∧ (a.z ≤ c.z ∧ b.z ≤ c.z)) ∧
    (c.x ≤ (a.minimize b).x ∧ c.y ≤ (a.minimize b).y ∧ c.z ≤ (a.minimize b).z ↔
      (c.x ≤ a.x ∧ c.x ≤ b.x) ∧ (c.y ≤ a.y ∧ c.y ≤ b.y) ∧ (c.z ≤ a.z ∧ c.z ≤ b.z)) := by
  simp only [Vec3.maximize, Vec3.minimize, max_le_iff, le_min_iff]
  constructor <;> constructor <;> (rintro ⟨⟨_, _⟩, ⟨_, _⟩, _, _⟩; refine ⟨⟨?_, ?_⟩, ⟨?_, ?_⟩, ?_, ?_⟩ <;> assumption)

/-- C71. In-place operators agree with the pure ones, also when the operand is the vector itself. -/
theorem C71_inplace (a b : Vec3 α) (k : α) :
    a.iadd (some b) = a.add b ∧ a.iadd none = a.add a ∧ a.isub (some b) = a.sub b ∧ a.isub none = Vec3.zero ∧
    a.imaximize (some b) = a.maximize b ∧ a.imaximize none = a ∧ a.iminimize (some b) = a.minimize b ∧ a.iminimize none = a ∧
    a.setToVector3 (some b) = b ∧ a.setToVector3 none = a ∧
    a.imul k = a.mul k ∧ a.itruediv k = a.truediv k ∧ a.ifloordiv k = a.floordiv k ∧ (k ≠ 0 → a.truediv k = .ok (a.mul k⁻¹)) := by
  refine ⟨rfl, rfl, rfl, ?_, rfl, ?_, rfl, ?_, rfl, rfl, rfl, ?_, ?_, ?_⟩
  · simp [Vec3.isub, Vec3.assign, Vec3.operand, Vec3.zero]
  · simp [Vec3.imaximize, Vec3.assign, Vec3.operand]
  · simp [Vec3.iminimize, Vec3.assign, Vec3.operand]
  · unfold Vec3.itruediv Vec3.truediv; split_ifs <;> rfl
  · unfold Vec3.ifloordiv Vec3.floordiv; split_ifs <;> rfl
  · intro hk; unfold Vec3.truediv Vec3.mul; rw [if_neg hk]; simp [div_eq_mul_inv]

/-- C71. Equality and the truth value. -/
theorem C71_equality (a b : Vec3 α) :
    (a.eq b = true ↔ a = b) ∧ (a.nonzero = true ↔ a ≠ Vec3.zero) ∧ (a.getIsDefault = true ↔ a = Vec3.zero) := by
  refine ⟨?_, ?_, ?_⟩
  · unfold Vec3.eq
    simp only [Bool.and_eq_true, decide_eq_true_eq]
    exact ⟨fun h => Vec3.ext' h.1.1 h.1.2 h.2, fun h => by rw [h]; exact ⟨⟨rfl, rfl⟩, rfl⟩⟩
  · unfold Vec3.nonzero
    simp only [Bool.or_eq_true, decide_eq_true_eq]
    constructor
    · rintro h rfl
      simp [Vec3.zero] at h
    · intro h
      by_contra hc
      push Not at hc
      exact h (Vec3.ext' hc.1.1 hc.1.2 hc.2)
  · unfold Vec3.getIsDefault
    split_ifs with h1 h2
    · simp only [false_iff]; rintro rfl; exact h1 rfl
    · simp only [false_iff]; rintro rfl; exact h2 rfl
    · simp only [decide_eq_true_eq]
      push Not at h1 h2
      exact ⟨fun h => Vec3.ext' h1 h2 h, fun h => by rw [h]; rfl⟩

/-- C71. Dropping an axis keeps the two other components; the fourth axis does not exist. -/
theorem C71_dropAxis (a b : Vec3 α) :
    (a.dropAxis 0 = b.dropAxis 0 ↔ a.y = b.y ∧ a.z = b.z) ∧ (a.dropAxis 1 = b.dropAxis 1 ↔ a.x = b.x ∧ a.z = b.z) ∧
    (a.dropAxis = b.dropAxis ↔ a.x = b.x ∧ a.y = b.y) ∧ (∀ n, 2 < n → a.dropAxis n = none) := by
  refine ⟨?_, ?_, ?_, ?_⟩
  · simp [Vec3.dropAxis]
  · simp [Vec3.dropAxis]
  · simp [Vec3.dropAxis]
  · intro n hn; unfold Vec3.dropAxis; rw [if_neg (by omega), if_neg (by omega), if_neg (by omega)]

end GCodeUtils
