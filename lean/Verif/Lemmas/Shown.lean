import Verif.Lemmas.SavedFilters
import Verif.Lemmas.Placed
import Verif.Props.Filter
import Verif.Props.Machine
import Verif.Spec.Shown

/-
  The translated program, written and read again: the same lines extrude, and every line is at the displaced position.
-/

set_option linter.unusedSectionVars false

namespace GCodeUtils

open Spec

variable {α : Type} [Field α] [LinearOrder α] [IsStrictOrderedRing α] [FloorRing α]

/-- A number with `d` decimals is printed as it is. -/
theorem fixedVal_exact (d : ℕ) (n : ℤ) : fixedVal d ((n : α) / 10 ^ d) = (n : α) / 10 ^ d := by
  have hp : (0 : α) < 10 ^ d := by positivity
  have hb := fixedVal_bound d ((n : α) / 10 ^ d)
  obtain ⟨k, hk⟩ : ∃ k : ℤ, fixedVal d ((n : α) / 10 ^ d) = (k : α) / 10 ^ d := by
    unfold fixedVal
    split_ifs
    · exact ⟨-((roundEven (|(n : α) / 10 ^ d| * 10 ^ d)).toNat : ℤ), by push_cast; ring⟩
    · exact ⟨((roundEven (|(n : α) / 10 ^ d| * 10 ^ d)).toNat : ℤ), by push_cast; ring⟩
  rw [hk] at hb ⊢
  have h1 : |((k - n : ℤ) : α)| ≤ 1 / 2 := by
    have e : (k : α) / 10 ^ d - n / 10 ^ d = ((k - n : ℤ) : α) / 10 ^ d := by push_cast; ring
    rw [e, abs_div, abs_of_pos hp, div_le_iff₀ hp] at hb
    calc _ ≤ _ := hb
      _ = 1 / 2 := by field_simp
  have h2 : |k - n| < 1 := by
    have : ((|k - n| : ℤ) : α) < ((1 : ℤ) : α) := by
      push_cast at h1 ⊢
      linarith
    exact_mod_cast this
  have h3 : k = n := by
    have := Int.abs_lt_one_iff.1 h2
    omega
  rw [h3]

/-- The extruder side of the machine. -/
structure SameFil (m m' : Machine α) : Prop where
  relE : m'.relativeE = m.relativeE
  cur : m'.currentE = m.currentE
  off : m'.offsetE = m.offsetE
  tot : m'.totalE = m.totalE
  mx : m'.maxE = m.maxE

theorem stepPos_relE (home : Home α) (m : Machine α) (l : PyLine α) (cmd : Str) : (stepPos home m l cmd).relativeE = m.relativeE := by
  unfold stepPos
  by_cases c0 : l.isMove = true
  · rw [if_pos c0]
  rw [if_neg c0]
  by_cases c1 : cmd = c!"G28"
  · rw [if_pos c1]; simp only; split_ifs <;> rfl
  rw [if_neg c1]
  by_cases c2 : cmd = c!"G92"
  · rw [if_pos c2]; cases l.x <;> cases l.y <;> cases l.z <;> rfl
  rw [if_neg c2]

theorem stepExtrusion_same {q q' : Machine α} {a b : PyLine α} {cmd : Str} (hq : SameFil q q') (he : b.e = a.e) (hi : b.isMove = a.isMove)
    (hr : a.isMove = true → b.relativeE.getD false = a.relativeE.getD false) (hx : b.extruding = a.extruding) :
    SameFil (stepExtrusion q a cmd).1 (stepExtrusion q' b cmd).1 ∧ (stepExtrusion q' b cmd).2.extruding = (stepExtrusion q a cmd).2.extruding := by
  obtain ⟨h1, h2, h3, h4, h5⟩ := hq
  unfold stepExtrusion
  rw [he]
  cases a.e with
  | none => exact ⟨⟨h1, h2, h3, h4, h5⟩, hx⟩
  | some e =>
    simp only
    rw [hi]
    by_cases c0 : a.isMove = true
    · rw [if_pos c0, if_pos c0, hr c0]
      by_cases c1 : a.relativeE.getD false = true
      · rw [if_pos c1, if_pos c1]
        exact ⟨⟨h1, by simp only [h2], h3, by simp only [h4], by simp only [h4, h5]⟩, rfl⟩
      · rw [if_neg c1, if_neg c1]
        exact ⟨⟨h1, by simp only [h3], h3, by simp only [h2, h3, h4], by simp only [h2, h3, h4, h5]⟩, by simp only [h2, h3]⟩
    · rw [if_neg c0, if_neg c0]
      by_cases c1 : cmd = c!"G92"
      · rw [if_pos c1, if_pos c1]; exact ⟨⟨h1, h2, rfl, h4, h5⟩, hx⟩
      · rw [if_neg c1, if_neg c1]; exact ⟨⟨h1, h2, h3, h4, h5⟩, hx⟩

theorem stepModes_same {m m' n n' : Machine α} {a b a' b' : PyLine α} {cmd : Str} (h : stepModes m a cmd = .ok (n, a')) (h' : stepModes m' b cmd = .ok (n', b'))
    (hm : SameFil m m') (hi : b.isMove = a.isMove) :
    SameFil n n' ∧ (a.isMove = true → b'.relativeE.getD false = a'.relativeE.getD false) ∧ a'.extruding = a.extruding ∧ b'.extruding = b.extruding ∧
      a'.isMove = a.isMove ∧ b'.isMove = b.isMove := by
  obtain ⟨h1, h2, h3, h4, h5⟩ := hm
  have key : n'.relativeE = n.relativeE := by
    unfold stepModes at h h'
    rw [hi] at h'
    split_ifs at h h' <;> first | (cases h; cases h'; first | exact h1 | rfl) | skip
    cases hp : parseInt cmd.tail with
    | none => rw [hp] at h; cases h
    | some t => rw [hp] at h h'; cases h; cases h'; exact h1
  rcases stepModes_shape h with ⟨i1, rfl, rfl⟩ | ⟨i1, rfl, i, r, re, t, rfl⟩
  · rcases stepModes_shape h' with ⟨j1, rfl, rfl⟩ | ⟨j1, _⟩
    · exact ⟨⟨h1, h2, h3, h4, h5⟩, fun _ => by simp [h1], rfl, rfl, rfl, rfl⟩
    · rw [hi, i1] at j1; cases j1
  · rcases stepModes_shape h' with ⟨j1, _⟩ | ⟨j1, rfl, i', r', re', t', rfl⟩
    · rw [hi, i1] at j1; cases j1
    · exact ⟨⟨key, h2, h3, h4, h5⟩, fun k => absurd k (by rw [i1]; simp), rfl, rfl, rfl, rfl⟩

/-- What a line does to the extruder depends on its command and its E word only. -/
theorem processLine_filament {home home' : Home α} {m m' n n' : Machine α} {r r' : Str} {l l' : PyLine α}
    (h : processLine home m { raw := r } = .ok (n, l)) (h' : processLine home' m' { raw := r' } = .ok (n', l')) (hm : SameFil m m')
    (hcmd : l'.command = l.command) (he : l'.e = l.e) : SameFil n n' ∧ l'.extruding = l.extruding ∧ l'.isMove = l.isMove := by
  have him : l'.isMove = l.isMove := by
    have a := isMove_iff h
    have b := isMove_iff h'
    rw [hcmd, ← a] at b
    exact Bool.eq_iff_iff.2 b
  have c1 := (processLine_keeps h).2.1
  have c2 := (processLine_keeps h').2.1
  have h0 : ∀ r, (split ({ raw := r } : PyLine α)).1.extruding = none := by
    intro r
    obtain ⟨c, b, hs⟩ := split_shape ({ raw := r } : PyLine α)
    rw [hs]
  rcases processLine_ok h with ⟨hn, rfl, rfl⟩ | ⟨cmd, hc, hne, m1, l1, l2, m3, l3, h1, h2, h3, rfl, rfl⟩
  · rcases processLine_ok h' with ⟨hn', rfl, rfl⟩ | ⟨cmd', hc', hne', _⟩
    · exact ⟨hm, by rw [h0, h0], him⟩
    · exfalso
      rw [hcmd] at c2
      rw [← c2] at hc'
      rcases hn with hn | hn
      · rw [hn] at hc'; cases hc'
      · rw [hn] at hc'; cases hc'; exact absurd rfl hne'
  · rcases processLine_ok h' with ⟨hn', rfl, rfl⟩ | ⟨cmd', hc', hne', m1', l1', l2', m3', l3', h1', h2', h3', rfl, rfl⟩
    · exfalso
      rw [← c2, hcmd, c1, hc] at hn'
      rcases hn' with hn | hn
      · cases hn
      · cases hn; exact absurd rfl hne
    · rw [c1, c2, hc, hc', Option.some.injEq] at hcmd
      subst hcmd
      have hmv : (split ({ raw := r' } : PyLine α)).1.isMove = (split ({ raw := r } : PyLine α)).1.isMove := by
        rw [← (processLine_keeps h).2.2, ← (processLine_keeps h').2.2]; exact him
      obtain ⟨s1, s2, s3, s4, s5, s6⟩ := stepModes_same h1 h1' hm hmv
      obtain ⟨x, y, z, e, f, i, j, k2⟩ := ite_coords_argsOnly h2
      obtain ⟨x', y', z', e', f', i', j', k2'⟩ := ite_coords_argsOnly h2'
      have sp : SameFil (stepPos home m1 l2 cmd') (stepPos home' m1' l2' cmd') := by
        obtain ⟨a1, a2, a3, a4⟩ := stepPos_e home m1 l2 cmd'
        obtain ⟨b1, b2, b3, b4⟩ := stepPos_e home' m1' l2' cmd'
        exact ⟨by rw [stepPos_relE, stepPos_relE, s1.relE], by rw [a1, b1, s1.cur], by rw [a4, b4, s1.off], by rw [a2, b2, s1.tot], by rw [a3, b3, s1.mx]⟩
      have hee : (stamp (stepPos home' m1' l2' cmd') l2').e = (stamp (stepPos home m1 l2 cmd') l2).e := by
        obtain ⟨te, ce, me, oe, ex, q⟩ := stepExtrusion_shape (stepPos home m1 l2 cmd') (stamp (stepPos home m1 l2 cmd') l2) cmd'
        obtain ⟨te', ce', me', oe', ex', q'⟩ := stepExtrusion_shape (stepPos home' m1' l2' cmd') (stamp (stepPos home' m1' l2' cmd') l2') cmd'
        rw [q] at h3
        rw [q'] at h3'
        rw [← (Prod.mk.inj h3).2, ← (Prod.mk.inj h3').2] at he
        exact he
      have fin := stepExtrusion_same (cmd := cmd') sp hee
        (by show l2'.isMove = l2.isMove; rw [k2, k2']; show l1'.isMove = l1.isMove; rw [s5, s6]; exact hmv)
        (by intro k; show l2'.relativeE.getD false = l2.relativeE.getD false
            have k' : l2.isMove = true := k
            rw [k2] at k' ⊢; rw [k2']
            exact s2 (by rw [← s5]; exact k'))
        (by show l2'.extruding = l2.extruding; rw [k2, k2']; show l1'.extruding = l1.extruding; rw [s3, s4, h0, h0])
      rw [h3, h3'] at fin
      exact ⟨fin.1, fin.2, him⟩

/-- A rebuilt line, read again: its command, and its E word to five decimals. -/
theorem rebuilt_reads {home : Home α} {k l1 : PyLine α} {m m' : Machine α} (h : Rebuilds k)
    (hok : processLine home m { raw := (unsplit k).raw } = .ok (m', l1)) (hm : m.imperial = false) :
    l1.command = k.command ∧ l1.e = k.e.map (fixedVal 5) ∧ m'.imperial = false := by
  obtain ⟨n, hcmd, hn⟩ := rebuilds_number h
  have hne20 : ∀ n ∈ [c!"0", c!"1", c!"2", c!"3", c!"92"], 'G' :: n ≠ c!"G20" ∧ 'G' :: n ≠ c!"G4" := by decide
  have hf := findall_unsplit k 'G' n (by decide) hcmd (numLen_rebuilds hn).1
  have hd : dropN (findall (lower (unsplit k).raw)) = some ('g', n) :: lineToks k := by rw [hf]; rfl
  have hG : ('g' : Char).toUpper = 'G' := by decide
  have p1 := parse_unsplit k n hcmd (numLen_rebuilds hn).1 false
  have hc1 : l1.command = some ('G' :: n) := by
    rw [(processLine_keeps hok).2.1, split_eq ({ raw := (unsplit k).raw } : PyLine α) hd, hG]
  have him : m'.imperial = false := by
    rw [(process_imperial hok).1, hc1, if_neg (by simpa using (hne20 n hn).1), hm]; split_ifs <;> rfl
  refine ⟨hc1.trans hcmd.symm, ?_, him⟩
  have hk : 'e' ∈ c!"xyzefij" := by decide
  have e1 := (process_imperial hok).2 _ hc1 rfl 'e' hk
  rw [him] at e1
  simp only [Bool.false_eq_true, if_false] at e1
  unfold parseCoordinates at p1
  have hcr : (split ({ raw := (unsplit k).raw } : PyLine α)).1.command = some ('G' :: n) := by
    rw [split_eq ({ raw := (unsplit k).raw } : PyLine α) hd, hG]
  rw [hcr] at p1
  simp only [List.head?_cons, ne_eq, not_true, if_false] at p1
  have e2 := fold_arg _ p1 'e' hk
  have hz : (split ({ raw := (unsplit k).raw } : PyLine α)).1.arg 'e' = none := by
    rw [split_eq ({ raw := (unsplit k).raw } : PyLine α) hd]; rfl
  have hw : words (unsplit k).raw = ((split ({ raw := (unsplit k).raw } : PyLine α)).2).filterMap id := by
    rw [split_eq ({ raw := (unsplit k).raw } : PyLine α) hd]
    unfold words
    rw [hf]; rfl
  rw [hz, ← hw] at e2
  simp only [Bool.false_eq_true, if_false, Option.or_none] at e2
  have e3 : l1.e = (reread (1 : α) k { raw := (unsplit k).raw, command := some ('G' :: n), isMove := moveGcodes.contains ('G' :: n) }).e := by
    show l1.arg 'e' = _
    rw [e1, ← e2]; rfl
  rw [e3]
  simp [reread]

/-- A translated line is the line, or a rebuilt line with the same command and E word. -/
theorem transLine_cases (s : TransSt α) (l : PyLine α) :
    (transLine s l).2 = l ∨ ∃ k, (transLine s l).2 = unsplit k ∧ k.command = l.command ∧ k.e = l.e ∧ Rebuilds k := by
  unfold transLine
  by_cases h1 : IsMove l
  · rw [if_pos h1]
    simp only
    split_ifs
    · have hm : ∀ a : PyLine α, (a = l ∨ ∃ k, a = unsplit k ∧ k.command = l.command ∧ k.e = l.e ∧ Rebuilds k) → ∀ y,
          let b := (match y with
            | some y => if s.ty ≠ 0 then unsplit { a with y := some (y + s.ty) } else a
            | none => a)
          b = l ∨ ∃ k, b = unsplit k ∧ k.command = l.command ∧ k.e = l.e ∧ Rebuilds k := by
        intro a ha y
        have hac : a.command = l.command ∧ a.e = l.e := by
          rcases ha with rfl | ⟨k, rfl, k1, k2, _⟩
          · exact ⟨rfl, rfl⟩
          · exact ⟨k1, k2⟩
        cases y with
        | none => exact ha
        | some y =>
          simp only
          split_ifs
          · exact .inr ⟨_, rfl, hac.1, hac.2, rebuilds_of_command (.inl h1) hac.1⟩
          · exact ha
      unfold translateMove
      simp only
      refine hm _ ?_ _
      cases l.x with
      | none => exact .inl rfl
      | some x =>
        simp only
        split_ifs
        · exact .inr ⟨_, rfl, rfl, rfl, rebuilds_of_command (.inl h1) rfl⟩
        · exact .inl rfl
    · exact .inl rfl
  · rw [if_neg h1]
    split_ifs with h2 h3 h4
    · exact .inl rfl
    · exact .inl rfl
    · have hr : Rebuilds l := .inr h4
      right
      rcases l with ⟨raw, command, x, y, z, e, f, i, j, im, rel, relE, cx, cy, cz, ce, cf, ct, ex⟩
      unfold translateG92
      split_ifs
      · exact ⟨_, rfl, rfl, rfl, rebuilds_of_command hr rfl⟩
      · cases x <;> cases y <;> exact ⟨_, rfl, rfl, rfl, rebuilds_of_command hr rfl⟩
    · exact .inl rfl

/-- Rebuilt lines begin with their command. -/
theorem rebuilt_first {k : PyLine α} (h : Rebuilds k) : CommandFirst (unsplit k).raw ∧ HomingClear (α := α) (unsplit k).raw := by
  obtain ⟨n, hcmd, hn⟩ := rebuilds_number h
  have hf := findall_unsplit k 'G' n (by decide) hcmd (numLen_rebuilds hn).1
  have hg : ('G' : Char).toLower = 'g' := by decide
  rw [hg] at hf
  have hU : ('g' : Char).toUpper = 'G' := by decide
  have hi : instr (unsplit k).raw = some ('G' :: n, ('g', n) :: (lineToks k).filterMap id) := by
    unfold instr words
    rw [hf]
    simp [hU]
  refine ⟨?_, ?_⟩
  · unfold CommandFirst
    rw [hf]
    simp
  · unfold HomingClear
    rw [hi]
    intro hc
    exact absurd hc ((by decide : ∀ n ∈ [c!"0", c!"1", c!"2", c!"3", c!"92"], 'G' :: n ≠ c!"G28") n hn)

/-- Only lines with a `G` command have an E word. -/
theorem e_of_other {home : Home α} {m n : Machine α} {r : Str} {l : PyLine α} (hp : processLine home m { raw := r } = .ok (n, l))
    (hg : ¬ ∃ cmd, l.command = some cmd ∧ cmd.head? = some 'G') : l.e = none := by
  obtain ⟨_, hc, h3, _⟩ := C76_line home hp _ ((findall_reads (lower r) _).1 rfl)
  have hne : ¬ (commandOf r (findall (lower r))).bind (·.head?) = some 'G' := by
    rw [← hc]
    intro hh
    apply hg
    obtain ⟨c, h1, h2⟩ := Option.bind_eq_some_iff.1 hh
    exact ⟨c, h1, h2⟩
  have := h3 hne 'e' (by decide)
  simpa [argField] using this

/-- A loaded line and its translation as read again. -/
theorem trans_reads {home home' : Home α} {m m' n n' : Machine α} {l l' : PyLine α} {s : TransSt α}
    (hp : processLine home m { raw := l.raw } = .ok (n, l)) (hp' : processLine home' m' { raw := (transLine s l).2.raw } = .ok (n', l'))
    (hm : m.imperial = false) (hm' : m'.imperial = false) (h20 : ¬ HasCmd l c!"G20") (he : ∀ e, l.e = some e → ∃ k : ℤ, e = k / 10 ^ 5) :
    l'.command = l.command ∧ l'.e = l.e ∧ n.imperial = false ∧ n'.imperial = false := by
  have hn : n.imperial = false := by
    rw [(process_imperial hp).1, if_neg (by exact h20), hm]; split_ifs <;> rfl
  rcases transLine_cases s l with h | ⟨k, h, k1, k2, k3⟩
  · rw [h] at hp'
    have hc : l'.command = l.command := by rw [(processLine_keeps hp).2.1, (processLine_keeps hp').2.1]
    have hn' : n'.imperial = false := by
      rw [(process_imperial hp').1, hc, if_neg (by exact h20), hm']; split_ifs <;> rfl
    refine ⟨hc, ?_, hn, hn'⟩
    by_cases hg : ∃ cmd, l.command = some cmd ∧ cmd.head? = some 'G'
    · obtain ⟨cmd, g1, g2⟩ := hg
      have a := (process_imperial hp).2 cmd g1 g2 'e' (by decide)
      have b := (process_imperial hp').2 cmd (hc.trans g1) g2 'e' (by decide)
      rw [hn] at a
      rw [hn', ← a] at b
      exact b
    · have hg' : ¬ ∃ cmd, l'.command = some cmd ∧ cmd.head? = some 'G' := by rw [hc]; exact hg
      rw [e_of_other hp hg, e_of_other hp' hg']
  · rw [h] at hp'
    obtain ⟨a, b, c⟩ := rebuilt_reads k3 hp' hm'
    refine ⟨a.trans k1, ?_, hn, c⟩
    rw [b, k2]
    cases hle : l.e with
    | none => rfl
    | some e =>
      obtain ⟨q, rfl⟩ := he e hle
      simp [fixedVal_exact]

/-- A line and its translation as read again, for the loader. -/
def SameFlags (l l' : PyLine α) : Prop := l'.isMove = l.isMove ∧ l'.extruding = l.extruding

theorem run_shown {home home' : Home α} (ls : List (PyLine α)) : ∀ {m n m' n' : Machine α} {s : TransSt α} {out : List (PyLine α)},
    Run home m (bare (ls.map (·.raw))) n ls → Run home' m' (bare ((scan transLine s ls).2.map (·.raw))) n' out → SameFil m m' →
    m.imperial = false → m'.imperial = false → (∀ l ∈ ls, ¬ HasCmd l c!"G20") → FiveDecimals ls →
    SameFil n n' ∧ List.Forall₂ SameFlags ls out := by
  induction ls with
  | nil =>
    intro m n m' n' s out h h' hm _ _ _ _
    cases h; cases h'
    exact ⟨hm, .nil⟩
  | cons l ls ih =>
    intro m n m' n' s out h h' hm i1 i2 h20 h5
    simp only [bare, List.map_cons, scan] at h h'
    cases h with
    | cons hp hr =>
      cases h' with
      | cons hp' hr' =>
        obtain ⟨a1, a2, a3, a4⟩ := trans_reads hp hp' i1 i2 (h20 l (by simp)) (h5 l (by simp))
        obtain ⟨b1, b2, b3⟩ := processLine_filament hp hp' hm a1 a2
        obtain ⟨c1, c2⟩ := ih hr hr' b1 a3 a4 (fun l hl => h20 l (by simp [hl])) (fun l hl => h5 l (by simp [hl]))
        exact ⟨c1, .cons ⟨b3, b2⟩ c2⟩

/-- Filament is used by a move that extrudes. -/
theorem run_extrudes {home : Home α} {m n : Machine α} {ls out : List (PyLine α)} (h : Run home m ls n out) (ht : m.totalE ≤ m.maxE) :
    n.maxE = m.maxE ∨ ∃ l ∈ out, l.isMove = true ∧ l.extruding = some true := by
  induction h with
  | nil => exact .inl rfl
  | cons hp hr ih =>
    obtain ⟨a, b⟩ := processLine_total hp ht
    rcases b with b | b
    · rcases ih a with c | ⟨l, hl, c⟩
      · exact .inl (c.trans b)
      · exact .inr ⟨l, by simp [hl], c⟩
    · exact .inr ⟨_, List.mem_cons_self, b⟩

end GCodeUtils
