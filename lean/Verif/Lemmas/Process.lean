import Verif.Model.GCode
import Verif.Lemmas.Fold

set_option linter.unusedSectionVars false

namespace GCodeUtils

variable {α : Type} [Field α] [LinearOrder α] [IsStrictOrderedRing α] [FloorRing α]

/-- `l'` is `l` with other argument values. -/
def ArgsOnly (l l' : PyLine α) : Prop :=
  ∃ x y z e f i j, l' = { l with x := x, y := y, z := z, e := e, f := f, i := i, j := j }

theorem ArgsOnly.refl (l : PyLine α) : ArgsOnly l l := ⟨l.x, l.y, l.z, l.e, l.f, l.i, l.j, rfl⟩

theorem ArgsOnly.trans {a b c : PyLine α} (h1 : ArgsOnly a b) (h2 : ArgsOnly b c) : ArgsOnly a c := by
  obtain ⟨x, y, z, e, f, i, j, rfl⟩ := h1
  obtain ⟨x', y', z', e', f', i', j', rfl⟩ := h2
  exact ⟨x', y', z', e', f', i', j', rfl⟩

theorem setArg_argsOnly (l : PyLine α) (c : Char) (v : α) : ArgsOnly l (l.setArg c v) := by
  unfold PyLine.setArg
  split_ifs <;> exact ⟨_, _, _, _, _, _, _, rfl⟩

theorem parseTok_argsOnly {u : α} {l l' : PyLine α} {t : Tok} (h : parseTok u l t = .ok l') :
    ArgsOnly l l' := by
  unfold parseTok at h
  cases t with
  | none => simp at h; subst h; exact ArgsOnly.refl l
  | some p =>
    obtain ⟨c, v⟩ := p
    simp only at h
    split_ifs at h with hc
    · cases hp : (parseFloat v : Option α) with
      | none => rw [hp] at h; simp at h
      | some a =>
        rw [hp] at h
        simp only [Except.ok.injEq] at h
        subst h; exact setArg_argsOnly _ _ _
    · simp only [Except.ok.injEq] at h; subst h; exact ArgsOnly.refl l

theorem parseCoordinates_argsOnly {l l' : PyLine α} {toks : List Tok} {imp : Bool}
    (h : parseCoordinates l toks imp = .ok l') : ArgsOnly l l' := by
  unfold parseCoordinates at h
  cases hc : l.command with
  | none => rw [hc] at h; simp at h; subst h; exact ArgsOnly.refl l
  | some c =>
    rw [hc] at h
    simp only at h
    by_cases hg : c.head? ≠ some 'G'
    · rw [if_pos hg] at h
      simp only [Except.ok.injEq] at h; subst h; exact ArgsOnly.refl l
    · rw [if_neg hg] at h
      exact foldlM_inv _ (fun _ s => ArgsOnly l s)
        (fun pre b s s' hp hs => hp.trans (parseTok_argsOnly hs)) toks [] l l' (ArgsOnly.refl l) h

/-- The command a text gets from `split`, and its tokens (gcoder.py:146-158). -/
theorem split_shape (l : PyLine α) : ∃ c b, (split l).1 = { l with command := c, isMove := b } := by
  unfold split
  simp only
  split
  · exact ⟨some l.raw, false, rfl⟩
  · rename_i t rest _
    cases t with
    | none => exact ⟨l.command, _, rfl⟩
    | some p => exact ⟨some (p.1.toUpper :: p.2), _, rfl⟩

@[simp] theorem split_raw (l : PyLine α) : (split l).1.raw = l.raw := by
  obtain ⟨c, b, h⟩ := split_shape l
  rw [h]

/-- `is_move` is exactly "the command is one of G0, G1, G2, G3". -/
theorem split_isMove (l : PyLine α) : (split l).1.isMove = (split l).1.inMoves := by
  unfold split
  simp only
  split
  · rename_i heq
    simp only [PyLine.inMoves]
    symm
    rw [Bool.eq_false_iff]
    intro hm
    have hr : l.raw = c!"G0" ∨ l.raw = c!"G1" ∨ l.raw = c!"G2" ∨ l.raw = c!"G3" := by
      simpa [moveGcodes] using hm
    rcases hr with hr | hr | hr | hr <;> rw [hr] at heq <;> revert heq <;> decide
  · rfl

/-- The fields a mode step may change. -/
theorem stepModes_shape {m m' : Machine α} {l l' : PyLine α} {cmd : Str}
    (h : stepModes m l cmd = .ok (m', l')) :
    (l.isMove = true ∧ m' = m ∧
      l' = { l with relative := some m.relative, relativeE := some m.relativeE, currentTool := some m.currentTool }) ∨
    (l.isMove = false ∧ l' = l ∧ ∃ i r re t,
      m' = { m with imperial := i, relative := r, relativeE := re, currentTool := t }) := by
  unfold stepModes at h
  split_ifs at h with h0 h1 h2 h3 h4 h5 h6 h7
  · simp only [Except.ok.injEq, Prod.mk.injEq] at h
    exact Or.inl ⟨h0, h.1.symm, h.2.symm⟩
  all_goals try (simp only [Except.ok.injEq, Prod.mk.injEq] at h)
  all_goals try (exact Or.inr ⟨by simpa using h0, h.2.symm, _, _, _, _, h.1.symm⟩)
  · cases hp : parseInt cmd.tail with
    | none => rw [hp] at h; simp at h
    | some t =>
      rw [hp] at h
      simp only [Except.ok.injEq, Prod.mk.injEq] at h
      exact Or.inr ⟨by simpa using h0, h.2.symm, _, _, _, _, h.1.symm⟩

theorem stepExtrusion_shape (m : Machine α) (l : PyLine α) (cmd : Str) :
    ∃ te ce me oe ex, stepExtrusion m l cmd =
      ({ m with totalE := te, currentE := ce, maxE := me, offsetE := oe }, { l with extruding := ex }) := by
  rcases l with ⟨raw, command, x, y, z, e, f, i, j, im, rel, relE, cx, cy, cz, ce, cf, ct, ex⟩
  unfold stepExtrusion
  cases e with
  | none => exact ⟨m.totalE, m.currentE, m.maxE, m.offsetE, ex, rfl⟩
  | some e =>
    simp only
    split_ifs
    · exact ⟨_, _, _, m.offsetE, _, rfl⟩
    · exact ⟨_, _, _, m.offsetE, _, rfl⟩
    · exact ⟨m.totalE, m.currentE, m.maxE, e, ex, rfl⟩
    · exact ⟨m.totalE, m.currentE, m.maxE, m.offsetE, ex, rfl⟩

/-- Everything a successful `processLine` does to a line that has a command, as one chain of equations. -/
theorem processLine_ok {home : Home α} {m m' : Machine α} {l0 l : PyLine α}
    (h : processLine home m l0 = .ok (m', l)) :
    (((split l0).1.command = none ∨ (split l0).1.command = some []) ∧ m' = m ∧ l = (split l0).1) ∨
    (∃ cmd, (split l0).1.command = some cmd ∧ cmd ≠ [] ∧ ∃ m1 l1 l2 m3 l3,
      stepModes m (split l0).1 cmd = .ok (m1, l1) ∧
      (if cmd.head? = some 'G' then parseCoordinates l1 (split l0).2 m1.imperial else .ok l1) = .ok l2 ∧
      stepExtrusion (stepPos home m1 l2 cmd) (stamp (stepPos home m1 l2 cmd) l2) cmd = (m3, l3) ∧
      m' = m3 ∧ l = { l3 with currentE := some m3.currentE }) := by
  unfold processLine at h
  simp only at h
  cases hc : (split l0).1.command with
  | none =>
    rw [hc] at h
    simp only [Except.ok.injEq, Prod.mk.injEq] at h
    exact Or.inl ⟨Or.inl rfl, h.1.symm, h.2.symm⟩
  | some cmd =>
    rw [hc] at h
    simp only at h
    by_cases he : cmd.isEmpty = true
    · rw [if_pos he] at h
      simp only [Except.ok.injEq, Prod.mk.injEq] at h
      rw [List.isEmpty_iff] at he
      subst he
      exact Or.inl ⟨Or.inr rfl, h.1.symm, h.2.symm⟩
    · rw [if_neg he] at h
      refine Or.inr ⟨cmd, rfl, by simpa [List.isEmpty_iff] using he, ?_⟩
      cases h1 : stepModes m (split l0).1 cmd with
      | error er => rw [h1] at h; simp [bind, Except.bind] at h
      | ok p =>
        obtain ⟨m1, l1⟩ := p
        rw [h1] at h
        simp only [bind, Except.bind] at h
        by_cases hg : cmd.head? = some 'G'
        · rw [if_pos hg] at h
          cases h2 : parseCoordinates l1 (split l0).2 m1.imperial with
          | error er => rw [h2] at h; simp at h
          | ok l2 =>
            rw [h2] at h
            simp only [Except.ok.injEq, Prod.mk.injEq] at h
            exact ⟨m1, l1, l2, _, _, rfl, by rw [if_pos hg]; exact h2, rfl, h.1.symm, h.2.symm⟩
        · rw [if_neg hg] at h
          simp only [Except.ok.injEq, Prod.mk.injEq] at h
          exact ⟨m1, l1, l1, _, _, rfl, by rw [if_neg hg], rfl, h.1.symm, h.2.symm⟩

theorem ite_coords_argsOnly {p : Prop} [Decidable p] {l1 l2 : PyLine α} {toks : List Tok} {imp : Bool}
    (h : (if p then parseCoordinates l1 toks imp else .ok l1) = .ok l2) : ArgsOnly l1 l2 := by
  split_ifs at h
  · exact parseCoordinates_argsOnly h
  · simp only [Except.ok.injEq] at h; subst h; exact ArgsOnly.refl _

/-- `processLine` keeps text, command and move flag of the split line. -/
theorem processLine_keeps {home : Home α} {m m' : Machine α} {l0 l : PyLine α}
    (h : processLine home m l0 = .ok (m', l)) :
    l.raw = l0.raw ∧ l.command = (split l0).1.command ∧ l.isMove = (split l0).1.isMove := by
  rcases processLine_ok h with ⟨_, _, rfl⟩ | ⟨cmd, hc, hne, m1, l1, l2, m3, l3, h1, h2, h3, rfl, rfl⟩
  · exact ⟨split_raw _, rfl, rfl⟩
  · obtain ⟨te, ce, me, oe, ex, h4⟩ := stepExtrusion_shape (stepPos home m1 l2 cmd) (stamp (stepPos home m1 l2 cmd) l2) cmd
    rw [h4] at h3
    simp only [Prod.mk.injEq] at h3
    obtain ⟨x, y, z, e, f, i, j, h5⟩ := ite_coords_argsOnly h2
    rw [← h3.2]
    simp only [stamp]
    rw [h5]
    rcases stepModes_shape h1 with ⟨_, _, rfl⟩ | ⟨_, rfl, _⟩ <;> simp

end GCodeUtils
