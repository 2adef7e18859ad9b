import Verif.Lemmas.ElsewhereLoad
import Verif.Lemmas.LayerTime
import Verif.Spec.PlacedTime

/-
  The times of the lines of a program and of the same program at another place of the bed.
-/

set_option linter.unusedSectionVars false

namespace GCodeUtils

open Spec

variable {α : Type} [Field α] [LinearOrder α] [IsStrictOrderedRing α] [FloorRing α]

/-- The same pace, at another place; the last direction may differ. -/
structure PaceAlike (dx dy : α) (p p' : Pace α) : Prop where
  x : p'.x = p.x + dx
  y : p'.y = p.y + dy
  z : p'.z = p.z
  e : p'.e = p.e
  v : p'.v = p.v

/-- The same pace, at another place. -/
structure PaceSame (dx dy : α) (p p' : Pace α) : Prop extends PaceAlike dx dy p p' where
  dirx : p'.dx = p.dx
  diry : p'.dy = p.dy

/-- A line and the same line of the displaced program, as far as times depend on them. -/
inductive Displaced (dx dy : α) (l l' : PyLine α) : Prop
  | linear : Linear l → Linear l' → l'.z = l.z → l'.e = l.e → l'.f = l.f → l'.relative = l.relative → l'.relativeE = l.relativeE →
      l'.x = l.x.map (· + dx) → l'.y = l.y.map (· + dy) → Displaced dx dy l l'
  | other : ¬ Linear l → ¬ Linear l' → dwell l' = dwell l → Displaced dx dy l l'

variable {dx dy : α} {l l' : PyLine α} {p p' : Pace α}

theorem dwell_congr (hc : l'.command = l.command) (hr : HasCmd l c!"G4" → l'.raw = l.raw) : dwell l' = dwell l := by
  have h : HasCmd l' c!"G4" ↔ HasCmd l c!"G4" := by unfold HasCmd; rw [hc]
  unfold dwell
  by_cases h4 : HasCmd l c!"G4"
  · rw [if_pos h4, if_pos (h.2 h4), hr h4]
  · rw [if_neg h4, if_neg (fun k => h4 (h.1 k))]

theorem linear_congr (hc : l'.command = l.command) : Linear l' ↔ Linear l := by
  unfold Linear HasCmd
  rw [hc]

theorem shift_displaced (h : Shift dx dy l l') : Displaced dx dy l l' ∧ (XYMove l → l.x.isSome = true ∧ l.y.isSome = true) := by
  cases h with
  | kept _ _ e e' _ _ _ _ _ ha hn =>
    refine ⟨?_, fun k => absurd k hn⟩
    by_cases hL : Linear l
    · have hx : l.x = none := by by_contra k; exact hn ⟨hL, .inl k⟩
      have hy : l.y = none := by by_contra k; exact hn ⟨hL, .inr k⟩
      refine .linear hL ((linear_congr ha.command).2 hL) ha.z ha.e ha.f ha.relative ha.relativeE ?_ ?_
      · rw [ha.x, hx]; rfl
      · rw [ha.y, hy]; rfl
    · exact .other hL (fun k => hL ((linear_congr ha.command).1 k)) (dwell_congr ha.command fun _ => e'.trans e.symm)
  | moved n _ _ _ _ _ hn _ _ _ _ _ _ _ _ _ _ ha hc sx sy =>
    have hL : Linear l := by
      rcases hn with rfl | rfl
      · exact .inl hc
      · exact .inr hc
    exact ⟨.linear hL ((linear_congr ha.command).2 hL) ha.z ha.e ha.f ha.relative ha.relativeE ha.x ha.y, fun _ => ⟨sx, sy⟩⟩

/-- Lines that are no linear moves take the same time and leave the pace. -/
theorem displaced_idle (hyp : α → α → α) (h : Displaced dx dy l l') (hL : ¬ Linear l) :
    lineTime hyp p' l' = lineTime hyp p l ∧ p.next l = p ∧ p'.next l' = p' := by
  cases h with
  | linear h1 => exact absurd h1 hL
  | other _ hL' hd =>
    unfold lineTime Pace.next
    rw [if_neg hL, if_neg hL', if_neg hL, if_neg hL']
    exact ⟨hd, rfl, rfl⟩

/-- A linear move at the same pace. -/
theorem displaced_next (h : Displaced dx dy l l') (hL : Linear l) (hp : PaceAlike dx dy p p') :
    PaceSame dx dy (p.next l) (p'.next l') ∧ ∀ hyp : α → α → α, paceLength hyp p' l' = paceLength hyp p l := by
  cases h with
  | other h1 => exact absurd hL h1
  | linear _ hL' hz he hf hr hre hx hy =>
    have get : ∀ (o : Option α) (a d : α), (o.map (· + d)).getD (a + d) = o.getD a + d := by
      intro o a d
      cases o <;> rfl
    have hd : l'.x.getD p'.x = l.x.getD p.x + dx ∧ l'.y.getD p'.y = l.y.getD p.y + dy := by
      rw [hx, hy, hp.x, hp.y]
      exact ⟨get _ _ _, get _ _ _⟩
    have d1 : l'.x.getD p'.x - p'.x = l.x.getD p.x - p.x := by rw [hd.1, hp.x]; ring
    have d2 : l'.y.getD p'.y - p'.y = l.y.getD p.y - p.y := by rw [hd.2, hp.y]; ring
    refine ⟨?_, fun hyp => ?_⟩
    · unfold Pace.next
      rw [if_pos hL, if_pos hL']
      exact ⟨⟨hd.1, hd.2, by simp only [hz, hp.z], by simp only [he, hp.e], by simp only [hf, hp.v]⟩, d1, d2⟩
    · unfold paceLength
      rw [d1, d2, hz, he, hr, hre, hp.z, hp.e]

theorem Displaced.isLinear (h : Displaced dx dy l l') (hL : Linear l) : Linear l' := by
  cases h with
  | linear _ h2 => exact h2
  | other h1 => exact absurd hL h1

theorem displaced_step (hyp : α → α → α) (h : Displaced dx dy l l') (hp : PaceSame dx dy p p') :
    lineTime hyp p' l' = lineTime hyp p l ∧ PaceSame dx dy (p.next l) (p'.next l') := by
  by_cases hL : Linear l
  · obtain ⟨h1, h2⟩ := displaced_next h hL hp.toPaceAlike
    refine ⟨?_, h1⟩
    unfold lineTime
    rw [if_pos hL, if_pos (h.isLinear hL), h1.dirx, h1.diry, h1.v, hp.dirx, hp.diry, hp.v, h2]
  · obtain ⟨h1, h2, h3⟩ := displaced_idle hyp (p := p) (p' := p') h hL
    rw [h2, h3]
    exact ⟨h1, hp⟩

/-- The first X/Y move brings both to their places. -/
theorem displaced_arrive (h : Displaced dx dy l l') (hL : Linear l) (hX : l.x.isSome = true ∧ l.y.isSome = true) :
    PaceAlike dx dy (p.next l) (p.next l') := by
  obtain ⟨x, ex⟩ := Option.isSome_iff_exists.1 hX.1
  obtain ⟨y, ey⟩ := Option.isSome_iff_exists.1 hX.2
  cases h with
  | other h1 => exact absurd hL h1
  | linear _ hL' hz he hf hr hre hx hy =>
    rw [ex] at hx
    rw [ey] at hy
    unfold Pace.next
    rw [if_pos hL, if_pos hL', hz, he, hf, hx, hy, ex, ey]
    exact ⟨rfl, rfl, rfl, rfl, rfl⟩

/-- A line without X/Y move is the same at both places. -/
theorem displaced_kept (h : Displaced dx dy l l') (hX : ¬ XYMove l) : Displaced 0 0 l l' := by
  cases h with
  | other h1 h2 h3 => exact .other h1 h2 h3
  | linear hL hL' hz he hf hr hre hx hy =>
    have ex : l.x = none := by by_contra k; exact hX ⟨hL, .inl k⟩
    have ey : l.y = none := by by_contra k; exact hX ⟨hL, .inr k⟩
    refine .linear hL hL' hz he hf hr hre ?_ ?_
    · rw [hx, ex]; rfl
    · rw [hy, ey]; rfl

variable {ls ls' : List (PyLine α)}

theorem times_same (hyp : α → α → α) (h : List.Forall₂ (Displaced dx dy) ls ls') : ∀ {p p' : Pace α}, PaceSame dx dy p p' →
    lineTimes hyp p' ls' = lineTimes hyp p ls := by
  induction h with
  | nil => intro p p' _; rfl
  | cons h1 _ ih =>
    intro p p' hp
    obtain ⟨a, b⟩ := displaced_step hyp h1 hp
    simp only [lineTimes, a, ih b]

theorem times_alike (hyp : α → α → α) (h : List.Forall₂ (Displaced dx dy) ls ls') : ∀ {p p' : Pace α} (i : ℕ), PaceAlike dx dy p p' →
    ((∃ k ∈ ls.take i, Linear k) ∨ ∀ l, ls[i]? = some l → ¬ Linear l) → (lineTimes hyp p' ls')[i]? = (lineTimes hyp p ls)[i]? := by
  induction h with
  | nil => intro p p' i _ _; rfl
  | @cons l l' t t' h1 h2 ih =>
    intro p p' i hp hi
    by_cases hL : Linear l
    · obtain ⟨a, _⟩ := displaced_next h1 hL hp
      cases i with
      | zero =>
        exfalso
        rcases hi with ⟨k, hk, _⟩ | hi
        · simp at hk
        · exact hi l rfl hL
      | succ i =>
        simp only [lineTimes, List.getElem?_cons_succ]
        rw [times_same hyp h2 a]
    · obtain ⟨a, b, c⟩ := displaced_idle hyp (p := p) (p' := p') h1 hL
      cases i with
      | zero => simp only [lineTimes, List.getElem?_cons_zero, a]
      | succ i =>
        simp only [lineTimes, List.getElem?_cons_succ, b, c]
        refine ih i hp ?_
        rcases hi with ⟨k, hk, hk'⟩ | hi
        · rw [List.take_succ_cons, List.mem_cons] at hk
          rcases hk with rfl | hk
          · exact absurd hk' hL
          · exact .inl ⟨k, hk, hk'⟩
        · exact .inr hi

theorem times_elsewhere (hyp : α → α → α) (h : List.Forall₂ (Displaced dx dy) ls ls') : FirstNamesBoth ls → ∀ {p : Pace α} (i : ℕ), ¬ Arriving ls i →
    (lineTimes hyp p ls')[i]? = (lineTimes hyp p ls)[i]? := by
  induction h with
  | nil => intro _ p i _; rfl
  | @cons l l' t t' h1 h2 ih =>
    intro hw p i hi
    by_cases hX : XYMove l
    · have ha := displaced_arrive (p := p) h1 hX.1 (hw [] l t rfl (by simp) hX)
      cases i with
      | zero => exact absurd ⟨l, rfl, hX.1, .inl ⟨by simp, hX⟩⟩ hi
      | succ i =>
        simp only [lineTimes, List.getElem?_cons_succ]
        refine times_alike hyp h2 i ha ?_
        by_contra hc
        rw [not_or] at hc
        obtain ⟨c1, c2⟩ := hc
        push Not at c1 c2
        obtain ⟨k, k1, k2⟩ := c2
        exact hi ⟨k, by simpa using k1, k2, .inr ⟨[], l, t.take i, by simp, by simp, hX, c1⟩⟩
    · have hs := displaced_step hyp (displaced_kept h1 hX) (p := p) (p' := p) ⟨⟨by simp, by simp, rfl, rfl, rfl⟩, rfl, rfl⟩
      have hn : p.next l' = p.next l := by
        obtain ⟨⟨a, b, c, d, e⟩, f, g⟩ := hs.2
        rw [add_zero] at a b
        generalize p.next l' = q' at *
        generalize p.next l = q at *
        cases q; cases q'
        simp only at a b c d e f g
        rw [a, b, c, d, e, f, g]
      cases i with
      | zero => simp only [lineTimes, List.getElem?_cons_zero, hs.1]
      | succ i =>
        simp only [lineTimes, List.getElem?_cons_succ, hn]
        refine ih (fun a m b e1 e2 e3 => hw (l :: a) m b (by rw [e1]; rfl) (by simpa using ⟨hX, e2⟩) e3) i fun hc => hi ?_
        obtain ⟨k, k1, k2, k3⟩ := hc
        refine ⟨k, by simpa using k1, k2, ?_⟩
        rcases k3 with ⟨k3, k4⟩ | ⟨a, m, b, k3, k4, k5, k6⟩
        · exact .inl ⟨by simpa using ⟨hX, k3⟩, k4⟩
        · exact .inr ⟨l :: a, m, b, by simp [k3], by simpa using ⟨hX, k4⟩, k5, k6⟩

/-- Two lists of layers with the same lines, displaced. -/
theorem shift_lines {Ls Ls' : List (Layer α)} (h : LayersShift dx dy Ls Ls') :
    List.Forall₂ (Shift dx dy) (Ls.flatMap (·.lines)) (Ls'.flatMap (·.lines)) ∧ Ls'.map (·.lines.length) = Ls.map (·.lines.length) := by
  unfold LayersShift LinesAlike at h
  induction h with
  | nil => exact ⟨.nil, rfl⟩
  | cons h1 _ ih =>
    refine ⟨?_, ?_⟩
    · rw [List.flatMap_cons, List.flatMap_cons]
      exact List.rel_append h1 ih.1
    · simp only [List.map_cons, ih.2, h1.length_eq]

theorem shift_first (h : List.Forall₂ (Shift dx dy) ls ls') : FirstNamesBoth ls := by
  intro a m b e _ hX
  have : m ∈ ls := by rw [e]; simp
  obtain ⟨i, hi, em⟩ := List.getElem_of_mem this
  have := h.get hi (by rw [← h.length_eq]; exact hi)
  rw [List.get_eq_getElem] at this
  rw [← em] at hX ⊢
  exact (shift_displaced this).2 hX

theorem lineCount_lines (Ls : List (Layer α)) : lineCount Ls = (Ls.flatMap (·.lines)).length := by
  unfold lineCount
  rw [List.length_flatMap]

/-- A line behind an X/Y move and a further linear move does not arrive. -/
theorem not_arriving {ls a b rest : List (PyLine α)} {m k : PyLine α} {i : ℕ} (hm : XYMove m) (hk : k ∈ b) (hL : Linear k)
    (hi : ls.take i = (a ++ m :: b) ++ rest) : ¬ Arriving ls i := by
  rintro ⟨l, _, _, ⟨h1, _⟩ | ⟨a', m', b', h1, h2, h3, h4⟩⟩
  · exact h1 m (by rw [hi]; simp) hm
  · rw [hi, List.append_assoc, List.cons_append] at h1
    rcases List.append_eq_append_iff.1 h1 with ⟨c, hc1, hc2⟩ | ⟨c, hc1, hc2⟩
    · cases c with
      | nil =>
        simp only [List.nil_append, List.cons.injEq] at hc2
        exact h4 k (by rw [← hc2.2]; simp [hk]) hL
      | cons x c =>
        rw [List.cons_append, List.cons.injEq] at hc2
        exact h2 m (by rw [hc1, hc2.1]; simp) hm
    · cases c with
      | nil =>
        simp only [List.nil_append, List.cons.injEq] at hc2
        exact h4 k (by rw [hc2.2]; simp [hk]) hL
      | cons x c =>
        rw [List.cons_append, List.cons.injEq] at hc2
        exact h4 k (by rw [hc2.2]; simp [hk]) hL

theorem sum_take_sub {β : Type} [AddCommGroup β] (ls : List β) {m n : ℕ} (h : m ≤ n) :
    (ls.take n).sum - (ls.take m).sum = ((ls.drop m).take (n - m)).sum := by
  have : ls.take n = ls.take m ++ (ls.drop m).take (n - m) := by
    conv_lhs => rw [show n = m + (n - m) by omega, List.take_add]
  rw [this, List.sum_append]
  abel

end GCodeUtils
