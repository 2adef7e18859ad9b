import Mathlib.Data.List.Basic
import Verif.Model.Text

namespace GCodeUtils

/-- Invariant rule for a monadic fold that may fail: `P pre s` is kept by every successful step. -/
theorem foldlM_inv {σ β ε : Type} (f : σ → β → Except ε σ) (P : List β → σ → Prop)
    (hs : ∀ pre b s s', P pre s → f s b = .ok s' → P (pre ++ [b]) s') :
    ∀ (l pre : List β) (s s' : σ), P pre s → l.foldlM f s = .ok s' → P (pre ++ l) s' := by
  intro l
  induction l with
  | nil =>
    intro pre s s' h0 h
    simp only [List.foldlM_nil, pure, Except.pure, Except.ok.injEq] at h
    subst h; simpa using h0
  | cons b l ih =>
    intro pre s s' h0 h
    rw [List.foldlM_cons] at h
    cases hb : f s b with
    | error e => rw [hb] at h; simp [bind, Except.bind] at h
    | ok t =>
      rw [hb] at h
      have := ih (pre ++ [b]) t s' (hs _ _ _ _ h0 hb) h
      simpa using this

theorem foldlM_cons_ok {σ β ε : Type} {f : σ → β → Except ε σ} {b : β} {l : List β} {s s' : σ} :
    (b :: l).foldlM f s = .ok s' ↔ ∃ t, f s b = .ok t ∧ l.foldlM f t = .ok s' := by
  rw [List.foldlM_cons]
  cases h : f s b with
  | error e => simp [bind, Except.bind]
  | ok t => simp [bind, Except.bind]

theorem foldlM_append_ok {σ β ε : Type} {f : σ → β → Except ε σ} {l₁ l₂ : List β} {s s' : σ} :
    (l₁ ++ l₂).foldlM f s = .ok s' ↔ ∃ t, l₁.foldlM f s = .ok t ∧ l₂.foldlM f t = .ok s' := by
  induction l₁ generalizing s with
  | nil => simp [pure, Except.pure]
  | cons b l ih =>
    rw [List.cons_append, foldlM_cons_ok]
    constructor
    · rintro ⟨t, h1, h2⟩
      obtain ⟨u, h3, h4⟩ := ih.1 h2
      exact ⟨u, foldlM_cons_ok.2 ⟨t, h1, h3⟩, h4⟩
    · rintro ⟨u, h1, h2⟩
      obtain ⟨t, h3, h4⟩ := foldlM_cons_ok.1 h1
      exact ⟨t, h3, ih.2 ⟨u, h4, h2⟩⟩

/-- A failing fold fails at some element, after a successful prefix. -/
theorem foldlM_error {σ β ε : Type} {f : σ → β → Except ε σ} {l : List β} {s : σ} {e : ε}
    (h : l.foldlM f s = .error e) :
    ∃ pre b post t, l = pre ++ b :: post ∧ pre.foldlM f s = .ok t ∧ f t b = .error e := by
  induction l generalizing s with
  | nil => simp [pure, Except.pure] at h
  | cons b l ih =>
    rw [List.foldlM_cons] at h
    cases hb : f s b with
    | error e' =>
      rw [hb] at h
      simp only [bind, Except.bind, Except.error.injEq] at h
      subst h
      exact ⟨[], b, l, s, rfl, rfl, hb⟩
    | ok t =>
      rw [hb] at h
      obtain ⟨pre, c, post, u, h1, h2, h3⟩ := ih h
      exact ⟨b :: pre, c, post, u, by rw [h1]; rfl, foldlM_cons_ok.2 ⟨t, hb, h2⟩, h3⟩

/-- If every step from a state satisfying the invariant succeeds (and keeps it), the fold succeeds. -/
theorem foldlM_total {σ β ε : Type} (f : σ → β → Except ε σ) (P : σ → Prop) (l : List β)
    (hs : ∀ b ∈ l, ∀ s, P s → ∃ s', f s b = .ok s' ∧ P s') :
    ∀ s, P s → ∃ s', l.foldlM f s = .ok s' ∧ P s' := by
  induction l with
  | nil => intro s h; exact ⟨s, rfl, h⟩
  | cons b l ih =>
    intro s h
    obtain ⟨t, h1, h2⟩ := hs b (by simp) s h
    obtain ⟨u, h3, h4⟩ := ih (fun b' hb' => hs b' (by simp [hb'])) t h2
    exact ⟨u, foldlM_cons_ok.2 ⟨t, h1, h3⟩, h4⟩

end GCodeUtils
