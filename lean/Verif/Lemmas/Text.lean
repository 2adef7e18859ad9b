import Mathlib.Data.List.TakeDrop
import Mathlib.Data.List.DropRight
import Verif.Model.Cli

namespace GCodeUtils

theorem dropWhile_eq_self_of_head {p : Char → Bool} {s : Str} (h : ∀ c, s.head? = some c → p c = false) :
    s.dropWhile p = s := by
  cases s with
  | nil => rfl
  | cons c cs => simp [h c rfl]

/-- `strip` removes only whitespace, at both ends. -/
theorem strip_decomp (s : Str) :
    ∃ a b, s = a ++ strip s ++ b ∧ (∀ c ∈ a, isSpace c) ∧ (∀ c ∈ b, isSpace c) := by
  refine ⟨s.takeWhile isSpace, ((s.dropWhile isSpace).reverse.takeWhile isSpace).reverse, ?_, ?_, ?_⟩
  · unfold strip
    rw [List.append_assoc, ← List.reverse_append, List.takeWhile_append_dropWhile, List.reverse_reverse,
      List.takeWhile_append_dropWhile]
  · intro c hc; exact List.mem_takeWhile_imp hc
  · intro c hc
    rw [List.mem_reverse] at hc
    exact List.mem_takeWhile_imp hc

theorem head?_dropWhile {p : Char → Bool} (s : Str) (c : Char) (h : (s.dropWhile p).head? = some c) :
    p c = false := by
  induction s with
  | nil => simp at h
  | cons d s ih =>
    rw [List.dropWhile_cons] at h
    by_cases hd : p d
    · rw [if_pos hd] at h; exact ih h
    · rw [if_neg hd] at h; simp at h; subst h; simpa using hd

theorem strip_last (s : Str) (c : Char) (h : (strip s).getLast? = some c) : isSpace c = false := by
  unfold strip at h
  rw [List.getLast?_reverse] at h
  exact head?_dropWhile _ _ h

theorem strip_head (s : Str) (c : Char) (h : (strip s).head? = some c) : isSpace c = false := by
  unfold strip at h
  rw [List.head?_reverse] at h
  by_cases hne : ((s.dropWhile isSpace).reverse.dropWhile isSpace) = []
  · rw [hne] at h; simp at h
  · have hsuf : ((s.dropWhile isSpace).reverse.dropWhile isSpace) <:+ (s.dropWhile isSpace).reverse :=
      List.dropWhile_suffix _
    obtain ⟨t, ht⟩ := hsuf
    have h2 : (s.dropWhile isSpace).reverse.getLast? = some c := by
      rw [← ht, List.getLast?_append, h]; rfl
    rw [List.getLast?_reverse] at h2
    exact head?_dropWhile _ _ h2

/-- A text without blanks at its ends is left alone by `strip`. -/
theorem strip_of_ends {s : Str} (hh : ∀ c, s.head? = some c → isSpace c = false)
    (hl : ∀ c, s.getLast? = some c → isSpace c = false) : strip s = s := by
  unfold strip
  rw [dropWhile_eq_self_of_head hh,
    dropWhile_eq_self_of_head (s := s.reverse) (by intro c hc; rw [List.head?_reverse] at hc; exact hl c hc)]
  simp

theorem strip_strip (s : Str) : strip (strip s) = strip s :=
  strip_of_ends (strip_head s) (strip_last s)

/-- Trailing whitespace does not matter. -/
theorem strip_append_space (s b : Str) (hb : ∀ c ∈ b, isSpace c) : strip (s ++ b) = strip s := by
  by_cases hs : ∀ c ∈ s, isSpace c
  · have h1 : s.dropWhile isSpace = [] := List.dropWhile_eq_nil_iff.2 hs
    have h2 : (s ++ b).dropWhile isSpace = [] := by
      apply List.dropWhile_eq_nil_iff.2
      intro c hc
      rcases List.mem_append.1 hc with h | h
      · exact hs c h
      · exact hb c h
    unfold strip
    rw [h1, h2]
  · have h1 : (s ++ b).dropWhile isSpace = s.dropWhile isSpace ++ b := by
      rw [List.dropWhile_append]
      have : (List.dropWhile isSpace s).isEmpty = false := by
        rw [Bool.eq_false_iff]
        intro h
        rw [List.isEmpty_iff] at h
        exact hs (List.dropWhile_eq_nil_iff.1 h)
      rw [this]; simp
    unfold strip
    rw [h1, List.reverse_append, List.dropWhile_append]
    have : (List.dropWhile isSpace b.reverse).isEmpty = true := by
      rw [List.isEmpty_iff]
      apply List.dropWhile_eq_nil_iff.2
      intro c hc
      exact hb c (List.mem_reverse.1 hc)
    rw [this]; simp

/-- Lines that contain no newline, each followed by one, are read back one by one. -/
theorem readlines_write (ls : List Str) (h : ∀ l ∈ ls, '\n' ∉ l) :
    readlines (ls.flatMap (fun l => l ++ ['\n'])) = ls.map (fun l => l ++ ['\n']) := by
  induction ls with
  | nil => rfl
  | cons l ls ih =>
    have ih' := ih (fun x hx => h x (by simp [hx]))
    have hl : '\n' ∉ l := h l (by simp)
    rw [List.flatMap_cons, List.map_cons]
    clear ih h
    induction l with
    | nil =>
      simp only [List.nil_append, List.cons_append]
      rw [readlines, if_pos rfl, ih']
    | cons c cs ihc =>
      have hc : c ≠ '\n' := fun hc => hl (by simp [hc])
      have := ihc (fun hx => hl (by simp [hx]))
      simp only [List.cons_append, List.append_assoc] at this ⊢
      rw [readlines, if_neg hc, this]

end GCodeUtils
