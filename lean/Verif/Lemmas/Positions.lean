import Verif.Spec.Layers

set_option linter.unusedSectionVars false

namespace GCodeUtils.Spec

open GCodeUtils

variable {β : Type}

theorem positionsFrom_length (k : ℕ) (Ls : List (List β)) :
    (positionsFrom k Ls).length = Ls.flatten.length := by
  induction Ls generalizing k with
  | nil => rfl
  | cons L Ls ih => simp [positionsFrom, ih]

theorem positionsFrom_append (k : ℕ) (A B : List (List β)) :
    positionsFrom k (A ++ B) = positionsFrom k A ++ positionsFrom (k + A.length) B := by
  induction A generalizing k with
  | nil => simp [positionsFrom]
  | cons L A ih =>
    simp only [List.cons_append, positionsFrom, ih, List.append_assoc, List.length_cons]
    congr 3
    omega

theorem positionsFrom_congr {γ : Type} (k : ℕ) (A : List (List β)) (B : List (List γ))
    (h : A.map List.length = B.map List.length) : positionsFrom k A = positionsFrom k B := by
  induction A generalizing k B with
  | nil => cases B with
    | nil => rfl
    | cons _ _ => simp at h
  | cons a A ih => cases B with
    | nil => simp at h
    | cons b B =>
      simp only [List.map_cons, List.cons.injEq] at h
      simp only [positionsFrom, h.1, ih (k + 1) B h.2]

/-- Entry `i` of the enumeration addresses element `i` of the concatenation. -/
theorem positionsFrom_address (k : ℕ) (Ls : List (List β)) (i : ℕ) (a b : ℕ)
    (h : (positionsFrom k Ls)[i]? = some (a, b)) :
    k ≤ a ∧ ∃ L, Ls[a - k]? = some L ∧ b < L.length ∧ Ls.flatten[i]? = L[b]? := by
  induction Ls generalizing k i with
  | nil => simp [positionsFrom] at h
  | cons L Ls ih =>
    simp only [positionsFrom] at h
    by_cases hi : i < L.length
    · rw [List.getElem?_append_left (by simpa using hi)] at h
      simp only [List.getElem?_map, List.getElem?_range hi, Option.map_some, Option.some.injEq,
        Prod.mk.injEq] at h
      obtain ⟨rfl, rfl⟩ := h
      refine ⟨le_refl _, L, by simp, hi, ?_⟩
      rw [List.flatten_cons, List.getElem?_append_left hi]
    · rw [List.getElem?_append_right (by simpa using hi)] at h
      simp only [List.length_map, List.length_range] at h
      obtain ⟨h1, L', h2, h3, h4⟩ := ih (k + 1) (i - L.length) h
      refine ⟨by omega, L', ?_, h3, ?_⟩
      · have : a - k = (a - (k + 1)) + 1 := by omega
        rw [this, List.getElem?_cons_succ]; exact h2
      · rw [List.flatten_cons, List.getElem?_append_right (by omega)]; exact h4

theorem positionsFrom_fst (k : ℕ) (Ls : List (List β)) :
    (positionsFrom k Ls).map (·.1) = (Ls.zipIdx k).flatMap (fun p => List.replicate p.1.length p.2) := by
  induction Ls generalizing k with
  | nil => rfl
  | cons L Ls ih =>
    simp only [positionsFrom, List.map_append, List.map_map, List.zipIdx_cons, List.flatMap_cons, ih]
    congr 1
    apply List.ext_getElem <;> simp

/-- The layer numbers of an enumeration never decrease and advance by at most one when all layers but the
first are non-empty. -/
theorem positionsFrom_step (k : ℕ) (Ls : List (List β)) (hne : ∀ L ∈ Ls, L ≠ []) (i a b a' b' : ℕ)
    (h : (positionsFrom k Ls)[i]? = some (a, b)) (h' : (positionsFrom k Ls)[i + 1]? = some (a', b')) :
    (a' = a ∧ b' = b + 1) ∨ (a' = a + 1 ∧ b' = 0) := by
  induction Ls generalizing k i with
  | nil => simp [positionsFrom] at h
  | cons L Ls ih =>
    simp only [positionsFrom] at h h'
    by_cases hi : i + 1 < L.length
    · rw [List.getElem?_append_left (by simp; omega)] at h h'
      rw [List.getElem?_map, List.getElem?_range (by omega)] at h h'
      simp only [Option.map_some, Option.some.injEq, Prod.mk.injEq] at h h'
      omega
    · by_cases hi2 : i < L.length
      · rw [List.getElem?_append_left (by simpa using hi2)] at h
        rw [List.getElem?_append_right (by simp; omega)] at h'
        have hlen : i + 1 = L.length := by omega
        simp only [List.length_map, List.length_range, hlen, Nat.sub_self] at h'
        rw [List.getElem?_map, List.getElem?_range (by omega)] at h
        simp only [Option.map_some, Option.some.injEq, Prod.mk.injEq] at h
        cases Ls with
        | nil => simp [positionsFrom] at h'
        | cons M Ls =>
          have hM : M ≠ [] := hne M (by simp)
          have hMl : 0 < M.length := List.length_pos_iff.2 hM
          simp only [positionsFrom] at h'
          rw [List.getElem?_append_left (by simpa using hMl), List.getElem?_map,
            List.getElem?_range hMl] at h'
          simp only [Option.map_some, Option.some.injEq, Prod.mk.injEq] at h'
          omega
      · rw [List.getElem?_append_right (by simp; omega)] at h h'
        simp only [List.length_map, List.length_range] at h h'
        have e : i + 1 - L.length = (i - L.length) + 1 := by omega
        rw [e] at h'
        exact ih (k + 1) (fun M hM => hne M (by simp [hM])) (i - L.length) h h'

theorem positionsFrom_zero (k : ℕ) (L : List β) (Ls : List (List β)) (hne : ∀ M ∈ Ls, M ≠ []) (a b : ℕ)
    (h : (positionsFrom k (L :: Ls))[0]? = some (a, b)) : b = 0 ∧ (a = k ∨ (L = [] ∧ a = k + 1)) := by
  simp only [positionsFrom] at h
  by_cases hL : L = []
  · subst hL
    simp only [List.length_nil, List.range_zero, List.map_nil, List.nil_append] at h
    cases Ls with
    | nil => simp [positionsFrom] at h
    | cons M Ls =>
      have hMl : 0 < M.length := List.length_pos_iff.2 (hne M (by simp))
      simp only [positionsFrom] at h
      rw [List.getElem?_append_left (by simpa using hMl), List.getElem?_map,
        List.getElem?_range hMl] at h
      simp only [Option.map_some, Option.some.injEq, Prod.mk.injEq] at h
      exact ⟨h.2.symm, Or.inr ⟨rfl, h.1.symm⟩⟩
  · have hl : 0 < L.length := List.length_pos_iff.2 hL
    rw [List.getElem?_append_left (by simpa using hl), List.getElem?_map, List.getElem?_range hl] at h
    simp only [Option.map_some, Option.some.injEq, Prod.mk.injEq] at h
    exact ⟨h.2.symm, Or.inl h.1.symm⟩

end GCodeUtils.Spec
