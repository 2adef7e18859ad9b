import Verif.Lemmas.ElsewhereLoad
import Verif.Lemmas.Analysis
import Verif.Props.Grammar
import Verif.Spec.Placed

/-
  Positions and bounding boxes of a program and of the same program at another place of the bed.
-/

set_option linter.unusedSectionVars false

namespace GCodeUtils

open Spec

variable {α : Type} [Field α] [LinearOrder α] [IsStrictOrderedRing α] [FloorRing α]

/-- What a line does to X and Y, in terms of the line as stored. -/
theorem processLine_place {home : Home α} {m m' : Machine α} {l0 l : PyLine α} (h : processLine home m l0 = .ok (m', l)) :
    (l.isMove = true → m'.currentX = moveAxis m.relative m.currentX m.offsetX l.x ∧ m'.currentY = moveAxis m.relative m.currentY m.offsetY l.y ∧
      m'.offsetX = m.offsetX ∧ m'.offsetY = m.offsetY ∧ l.currentX = some m'.currentX ∧ l.currentY = some m'.currentY) ∧
    (l.isMove = false → l.command ≠ some c!"G28" → (l.command = some c!"G92" → l.x = none ∧ l.y = none) →
      m'.currentX = m.currentX ∧ m'.currentY = m.currentY ∧ m'.offsetX = m.offsetX ∧ m'.offsetY = m.offsetY) ∧
    (l.command ≠ some c!"G91" → m.relative = false → m'.relative = false) := by
  have hk := processLine_keeps h
  rcases processLine_ok h with ⟨hn, rfl, rfl⟩ | ⟨cmd, hc, hne, m1, l1, l2, m3, l3, h1, h2, h3, rfl, rfl⟩
  · refine ⟨fun k => ?_, fun _ _ _ => ⟨rfl, rfl, rfl, rfl⟩, fun _ k => k⟩
    rw [split_isMove] at k
    rcases hn with hn | hn <;> simp [PyLine.inMoves, hn, moveGcodes] at k
  · obtain ⟨te, ce, me, oe, ex, h4⟩ := stepExtrusion_shape (stepPos home m1 l2 cmd) (stamp (stepPos home m1 l2 cmd) l2) cmd
    rw [h4] at h3
    simp only [Prod.mk.injEq] at h3
    obtain ⟨rfl, rfl⟩ := h3
    obtain ⟨x, y, z, e, f, i, j, h5⟩ := ite_coords_argsOnly h2
    have hcmd : l2.command = some cmd := by
      rw [h5]
      rcases stepModes_shape h1 with ⟨_, _, rfl⟩ | ⟨_, rfl, _⟩ <;> exact hc
    have hrel : ∀ q : Machine α, (stepPos home q l2 cmd).relative = q.relative := by
      intro q
      unfold stepPos
      by_cases c0 : l2.isMove = true
      · rw [if_pos c0]
      rw [if_neg c0]
      by_cases c1 : cmd = c!"G28"
      · rw [if_pos c1]; simp only; split_ifs <;> rfl
      rw [if_neg c1]
      by_cases c2 : cmd = c!"G92"
      · rw [if_pos c2]; cases l2.x <;> cases l2.y <;> cases l2.z <;> rfl
      rw [if_neg c2]
    refine ⟨fun k => ?_, fun k k28 k92 => ?_, fun k91 k => ?_⟩
    · have k' : l2.isMove = true := k
      rcases stepModes_shape h1 with ⟨_, rfl, rfl⟩ | ⟨q, rfl, _⟩
      · have hr : l2.relative = some m1.relative := by rw [h5]
        simp only [stamp, stepPos, k', if_true, hr, Option.getD_some, and_self]
      · exfalso
        rw [h5] at k'
        exact absurd k' (by simpa using q)
    · have k' : ¬ l2.isMove = true := by
        have : l2.isMove = false := k
        rw [this]; simp
      have c28 : cmd ≠ c!"G28" := fun q => k28 (by show l2.command = _; rw [hcmd, q])
      have k92' : cmd = c!"G92" → l2.x = none ∧ l2.y = none := fun q => k92 (by show l2.command = _; rw [hcmd, q])
      have hm : m1.currentX = m.currentX ∧ m1.currentY = m.currentY ∧ m1.offsetX = m.offsetX ∧ m1.offsetY = m.offsetY := by
        rcases stepModes_shape h1 with ⟨_, rfl, _⟩ | ⟨_, _, i, r, re, t, rfl⟩ <;> exact ⟨rfl, rfl, rfl, rfl⟩
      rw [← hm.1, ← hm.2.1, ← hm.2.2.1, ← hm.2.2.2]
      simp only [stepPos]
      rw [if_neg k', if_neg c28]
      by_cases c92 : cmd = c!"G92"
      · rw [if_pos c92, (k92' c92).1, (k92' c92).2]
        simp only
        cases l2.z <;> exact ⟨rfl, rfl, rfl, rfl⟩
      · rw [if_neg c92]; exact ⟨rfl, rfl, rfl, rfl⟩
    · show (stepPos home m1 l2 cmd).relative = false
      rw [hrel]
      have c91 : cmd ≠ c!"G91" := fun q => k91 (by show l2.command = _; rw [hcmd, q])
      unfold stepModes at h1
      split_ifs at h1 <;> first | (cases h1; exact k) | (cases h1; rfl) | (exact absurd ‹_› c91) | skip
      cases hi : parseInt cmd.tail with
      | none => rw [hi] at h1; cases h1
      | some t => rw [hi] at h1; cases h1; exact k

/-- A line without a word of that letter has no such argument. -/
theorem no_word {home : Home α} {m m' : Machine α} {r : Str} {l : PyLine α} (hp : processLine home m { raw := r } = .ok (m', l)) {k : Char}
    (hk : k ∈ argLetters) (hn : ∀ n, some (k, n) ∉ findall (lower r)) : argField l k = none := by
  obtain ⟨_, _, h3, h4⟩ := C76_line home hp _ ((findall_reads (lower r) _).1 rfl)
  by_cases hg : (commandOf r (findall (lower r))).bind (·.head?) = some 'G'
  · rcases h4 hg k hk with ⟨_, h⟩ | ⟨a, n, b, w, h, _⟩
    · exact h
    · exfalso
      apply hn n
      have : some (k, n) ∈ afterNumber (findall (lower r)) := by rw [h]; simp
      rw [← afterNumber_eq] at this
      exact toksOf_mem this
  · exact h3 hg k hk

theorem lowerTo_shift (o : Option α) (v d : α) : lowerTo (o.map (· + d)) (some (v + d)) = (lowerTo o (some v)).map (· + d) := by
  cases o with
  | none => rfl
  | some b => simp [lowerTo, min_add_add_right]

theorem raiseTo_shift (o : Option α) (v d : α) : raiseTo (o.map (· + d)) (some (v + d)) = (raiseTo o (some v)).map (· + d) := by
  cases o with
  | none => rfl
  | some b => simp [raiseTo, max_add_add_right]

/-- The box of extruding moves, at another place. -/
def BoxShift (dx dy : α) (b b' : BBox α) : Prop :=
  b'.xminE = b.xminE.map (· + dx) ∧ b'.xmaxE = b.xmaxE.map (· + dx) ∧ b'.yminE = b.yminE.map (· + dy) ∧ b'.ymaxE = b.ymaxE.map (· + dy)

/-- The states of the loading loop, apart from the position. -/
structure PlaceRel (dx dy : α) (s s' : BuildSt α) : Prop where
  build : BuildRel dx dy s s'
  ox : s'.m.offsetX = s.m.offsetX
  oy : s'.m.offsetY = s.m.offsetY
  abs : s.m.relative = false
  box : BoxShift dx dy s.bb s'.bb
  ext : s'.ls.hasExtrusion = s.ls.hasExtrusion
  zs : s'.ls.allZs = s.ls.allZs
  total : s.m.totalE ≤ s.m.maxE
  found : 0 < s.m.maxE → s.bb.xminE ≠ none ∧ s.bb.xmaxE ≠ none ∧ s.bb.yminE ≠ none ∧ s.bb.ymaxE ≠ none

/-- The positions of the two runs. -/
def AtPlace (dx dy : α) (s s' : BuildSt α) : Prop := s'.m.currentX = s.m.currentX + dx ∧ s'.m.currentY = s.m.currentY + dy

/-- Filament accounting of one line: the maximum only grows with a line that extrudes. -/
theorem processLine_total {home : Home α} {m m' : Machine α} {l0 l : PyLine α} (h : processLine home m l0 = .ok (m', l)) (ht : m.totalE ≤ m.maxE) :
    m'.totalE ≤ m'.maxE ∧ (m'.maxE = m.maxE ∨ l.isMove = true ∧ l.extruding = some true) := by
  rcases processLine_ok h with ⟨_, rfl, rfl⟩ | ⟨cmd, hc, hne, m1, l1, l2, m3, l3, h1, h2, h3, rfl, rfl⟩
  · exact ⟨ht, .inl rfl⟩
  · have e1 : m1.maxE = m.maxE ∧ m1.totalE = m.totalE := by
      rcases stepModes_shape h1 with ⟨_, rfl, _⟩ | ⟨_, _, i, r, re, t, rfl⟩ <;> exact ⟨rfl, rfl⟩
    obtain ⟨q1, q2, q3, q4⟩ := stepPos_e home m1 l2 cmd
    generalize hQ : stepPos home m1 l2 cmd = Q at *
    have eM : Q.maxE = m.maxE := q3.trans e1.1
    have eT : Q.totalE = m.totalE := q2.trans e1.2
    rw [← eM, ← eT] at ht
    rw [← eM]
    unfold stepExtrusion at h3
    cases he : l2.e with
    | none =>
      have he' : (stamp Q l2).e = none := he
      rw [he'] at h3
      cases h3
      exact ⟨ht, .inl rfl⟩
    | some e =>
      have he' : (stamp Q l2).e = some e := he
      rw [he'] at h3
      simp only at h3
      by_cases c0 : (stamp Q l2).isMove = true
      · rw [if_pos c0] at h3
        by_cases c1 : (stamp Q l2).relativeE.getD false = true
        · rw [if_pos c1] at h3
          cases h3
          refine ⟨le_max_right _ _, ?_⟩
          by_cases c2 : 0 < e
          · exact .inr ⟨c0, by simp [c2]⟩
          · exact .inl (max_eq_left (by linarith))
        · rw [if_neg c1] at h3
          cases h3
          refine ⟨le_max_right _ _, ?_⟩
          by_cases c2 : Q.currentE < e + Q.offsetE
          · exact .inr ⟨c0, by simp [c2]⟩
          · exact .inl (max_eq_left (by linarith))
      · rw [if_neg c0] at h3
        by_cases c1 : cmd = c!"G92"
        · rw [if_pos c1] at h3
          cases h3
          exact ⟨ht, .inl rfl⟩
        · rw [if_neg c1] at h3
          cases h3
          exact ⟨ht, .inl rfl⟩

/-- A line without E word does not extrude. -/
theorem processLine_unfed {home : Home α} {m m' : Machine α} {r : Str} {l : PyLine α} (h : processLine home m { raw := r } = .ok (m', l))
    (he : l.e = none) : l.extruding = none := by
  have h0 : (split ({ raw := r } : PyLine α)).1.extruding = none := by
    obtain ⟨c, b, hs⟩ := split_shape ({ raw := r } : PyLine α)
    rw [hs]
  rcases processLine_ok h with ⟨_, rfl, rfl⟩ | ⟨cmd, hc, hne, m1, l1, l2, m3, l3, h1, h2, h3, rfl, rfl⟩
  · exact h0
  · obtain ⟨x, y, z, e, f, i, j, h5⟩ := ite_coords_argsOnly h2
    have e1 : l1.extruding = none := by
      rcases stepModes_shape h1 with ⟨_, _, rfl⟩ | ⟨_, rfl, _⟩ <;> exact h0
    have e2 : l2.extruding = none := by rw [h5]; exact e1
    obtain ⟨te, ce, me, oe, ex, h4⟩ := stepExtrusion_shape (stepPos home m1 l2 cmd) (stamp (stepPos home m1 l2 cmd) l2) cmd
    have h3' := h3
    rw [h4] at h3
    simp only [Prod.mk.injEq] at h3
    have he' : l2.e = none := by
      rw [← h3.2] at he
      exact he
    unfold stepExtrusion at h3'
    have he'' : (stamp (stepPos home m1 l2 cmd) l2).e = none := he'
    rw [he''] at h3'
    cases h3'
    exact e2

theorem isMove_iff {home : Home α} {m m' : Machine α} {l0 l : PyLine α} (h : processLine home m l0 = .ok (m', l)) :
    l.isMove = true ↔ ∃ c ∈ [c!"G0", c!"G1", c!"G2", c!"G3"], l.command = some c := by
  have hk := processLine_keeps h
  rw [hk.2.2, split_isMove, hk.2.1]
  unfold PyLine.inMoves
  cases (split l0).1.command with
  | none => simp
  | some c => simp [moveGcodes]

section placed

variable {dx dy : α}

/-- Where the two machines are after a line, and what the lines are stamped with. -/
theorem place_after {home : Home α} {m m' n n' : Machine α} {r r' : Str} {l l' : PyLine α} (hp : processLine home m { raw := r } = .ok (n, l))
    (hp' : processLine home m' { raw := r' } = .ok (n', l')) (hl : Shift dx dy l l') (hrel : m.relative = false) (hrel' : m'.relative = false)
    (ox : m'.offsetX = m.offsetX) (oy : m'.offsetY = m.offsetY)
    (hc : XYMove l ∨ StaysPut r ∧ m'.currentX = m.currentX + dx ∧ m'.currentY = m.currentY + dy) :
    n.relative = false ∧ n'.offsetX = n.offsetX ∧ n'.offsetY = n.offsetY ∧ n'.currentX = n.currentX + dx ∧ n'.currentY = n.currentY + dy ∧
    (l.isMove = true → l.currentX = some n.currentX ∧ l.currentY = some n.currentY ∧ l'.currentX = some n'.currentX ∧ l'.currentY = some n'.currentY) := by
  obtain ⟨p1, p2, p3⟩ := processLine_place hp
  obtain ⟨q1, q2, q3⟩ := processLine_place hp'
  obtain ⟨_, hcm, _, _⟩ := C76_line home hp _ ((findall_reads (lower r) _).1 rfl)
  have hmv := isMove_iff hp
  obtain ⟨a, b, hab⟩ := hl.args
  have hmm : l'.isMove = l.isMove := hab.isMove
  have h91 : l.command ≠ some c!"G91" := by
    rcases hc with ⟨hc, _⟩ | ⟨hc, _⟩
    · rintro k
      rw [k] at hc
      rcases hc with hc | hc <;> simp at hc
    · rw [hcm]; exact (hc _ ((findall_reads (lower r) _).1 rfl)).1 _ (by simp)
  have hxy : XYMove l → n.relative = false ∧ n'.offsetX = n.offsetX ∧ n'.offsetY = n.offsetY ∧ n'.currentX = n.currentX + dx ∧ n'.currentY = n.currentY + dy ∧
      (l.isMove = true → l.currentX = some n.currentX ∧ l.currentY = some n.currentY ∧ l'.currentX = some n'.currentX ∧ l'.currentY = some n'.currentY) := by
    intro hx
    have him : l.isMove = true := by
      rw [hmv]
      rcases hx.1 with k | k
      · exact ⟨_, by simp, k⟩
      · exact ⟨_, by simp, k⟩
    obtain ⟨a1, a2, a3, a4, a5, a6⟩ := p1 him
    obtain ⟨b1, b2, b3, b4, b5, b6⟩ := q1 (by rw [hmm]; exact him)
    cases hl with
    | kept _ _ _ _ _ _ _ _ _ _ hno => exact absurd hx hno
    | moved _ _ _ _ _ _ _ _ _ _ _ _ _ _ _ _ _ hs _ sx sy =>
      obtain ⟨x, ex⟩ := Option.isSome_iff_exists.1 sx
      obtain ⟨y, ey⟩ := Option.isSome_iff_exists.1 sy
      have ex' := hs.x
      have ey' := hs.y
      rw [ex] at ex'
      rw [ey] at ey'
      refine ⟨p3 h91 hrel, by rw [a3, b3, ox], by rw [a4, b4, oy], ?_, ?_, fun _ => ⟨a5, a6, b5, b6⟩⟩
      · rw [a1, b1, ex, ex', hrel, hrel', ox]
        simp only [moveAxis, Option.map_some, Bool.false_eq_true, if_false]
        ring
      · rw [a2, b2, ey, ey', hrel, hrel', oy]
        simp only [moveAxis, Option.map_some, Bool.false_eq_true, if_false]
        ring
  by_cases hX : XYMove l
  · exact hxy hX
  obtain ⟨hst, hpx, hpy⟩ := hc.resolve_left hX
  obtain ⟨hno, h92⟩ := hst _ ((findall_reads (lower r) _).1 rfl)
  rw [← hcm] at hno h92
  have hargs : l'.x = l.x ∧ l'.y = l.y := by
    cases hl with
    | kept _ _ _ _ _ _ _ _ _ h0 _ =>
      have e1 := h0.x
      have e2 := h0.y
      exact ⟨by rw [e1]; cases l.x <;> simp, by rw [e2]; cases l.y <;> simp⟩
    | moved nn _ _ _ _ _ hn _ _ _ _ _ _ _ _ _ _ _ hcc sx sy =>
      exfalso
      apply hX
      refine ⟨?_, .inl fun k => by rw [k] at sx; cases sx⟩
      rcases hn with rfl | rfl
      · exact .inl hcc
      · exact .inr hcc
  by_cases him : l.isMove = true
  · obtain ⟨a1, a2, a3, a4, a5, a6⟩ := p1 him
    obtain ⟨b1, b2, b3, b4, b5, b6⟩ := q1 (by rw [hmm]; exact him)
    have hG : l.command = some c!"G0" ∨ l.command = some c!"G1" := by
      obtain ⟨c, hc1, hc2⟩ := hmv.1 him
      simp only [List.mem_cons, List.not_mem_nil, or_false] at hc1
      rcases hc1 with rfl | rfl | rfl | rfl
      · exact .inl hc2
      · exact .inr hc2
      · exact absurd hc2 (hno _ (by simp))
      · exact absurd hc2 (hno _ (by simp))
    have hx0 : l.x = none := by
      by_contra k; exact hX ⟨hG, .inl k⟩
    have hy0 : l.y = none := by
      by_contra k; exact hX ⟨hG, .inr k⟩
    refine ⟨p3 h91 hrel, by rw [a3, b3, ox], by rw [a4, b4, oy], ?_, ?_, fun _ => ⟨a5, a6, b5, b6⟩⟩
    · rw [a1, b1, hargs.1, hx0, hrel, hrel']; exact hpx
    · rw [a2, b2, hargs.2, hy0, hrel, hrel']; exact hpy
  · have him0 : l.isMove = false := by simpa using him
    have h92' : l.command = some c!"G92" → l.x = none ∧ l.y = none := by
      intro k
      have := h92 k
      exact ⟨no_word hp (k := 'x') (by decide) fun n => (this n).1, no_word hp (k := 'y') (by decide) fun n => (this n).2⟩
    obtain ⟨a1, a2, a3, a4⟩ := p2 him0 (hno _ (by simp)) h92'
    obtain ⟨b1, b2, b3, b4⟩ := q2 (by rw [hmm]; exact him0) (by rw [hab.command]; exact hno _ (by simp))
      (by rw [hab.command, hargs.1, hargs.2]; exact h92')
    exact ⟨p3 h91 hrel, by rw [a3, b3, ox], by rw [a4, b4, oy], by rw [a1, b1, hpx], by rw [a2, b2, hpy], fun k => absurd k him⟩

theorem stepBBox_place {v v' : α} {b b' : BBox α} (h : BoxShift dx dy b b') {l l' : PyLine α} (hm : l'.isMove = l.isMove) (he : l'.extruding = l.extruding)
    {x y : α} (hl : l.isMove = true → l.currentX = some x ∧ l.currentY = some y ∧ l'.currentX = some (x + dx) ∧ l'.currentY = some (y + dy)) :
    BoxShift dx dy (stepBBox v b l) (stepBBox v' b' l') := by
  unfold stepBBox
  rw [hm, he]
  by_cases c0 : l.isMove = true
  · rw [if_pos c0, if_pos c0]
    obtain ⟨h1, h2, h3, h4⟩ := hl c0
    obtain ⟨b1, b2, b3, b4⟩ := h
    by_cases c1 : l.extruding.getD false = true
    · rw [if_pos c1, if_pos c1]
      have : BoxShift dx dy { b with xminE := lowerTo b.xminE l.currentX, xmaxE := raiseTo b.xmaxE l.currentX, yminE := lowerTo b.yminE l.currentY, ymaxE := raiseTo b.ymaxE l.currentY }
          { b' with xminE := lowerTo b'.xminE l'.currentX, xmaxE := raiseTo b'.xmaxE l'.currentX, yminE := lowerTo b'.yminE l'.currentY, ymaxE := raiseTo b'.ymaxE l'.currentY } := by
        refine ⟨?_, ?_, ?_, ?_⟩ <;> simp only [h1, h2, h3, h4, b1, b2, b3, b4, lowerTo_shift, raiseTo_shift]
      split_ifs <;> exact this
    · rw [if_neg c1, if_neg c1]
      split_ifs <;> exact ⟨b1, b2, b3, b4⟩
  · rw [if_neg c0, if_neg c0]; exact h

theorem stepBBox_found (v : α) (b : BBox α) (l : PyLine α) {x y : α} (hl : l.isMove = true → l.currentX = some x ∧ l.currentY = some y)
    (h : (b.xminE ≠ none ∧ b.xmaxE ≠ none ∧ b.yminE ≠ none ∧ b.ymaxE ≠ none) ∨ l.isMove = true ∧ l.extruding = some true) :
    (stepBBox v b l).xminE ≠ none ∧ (stepBBox v b l).xmaxE ≠ none ∧ (stepBBox v b l).yminE ≠ none ∧ (stepBBox v b l).ymaxE ≠ none := by
  have lo : ∀ (o : Option α) (q : α), lowerTo o (some q) ≠ none := by intro o q; cases o <;> simp [lowerTo]
  have hi : ∀ (o : Option α) (q : α), raiseTo o (some q) ≠ none := by intro o q; cases o <;> simp [raiseTo]
  unfold stepBBox
  by_cases c0 : l.isMove = true
  · rw [if_pos c0]
    obtain ⟨h1, h2⟩ := hl c0
    by_cases c1 : l.extruding.getD false = true
    · rw [if_pos c1]
      rw [h1, h2]
      split_ifs <;> exact ⟨lo _ _, hi _ _, lo _ _, hi _ _⟩
    · rw [if_neg c1]
      rcases h with h | ⟨_, h⟩
      · split_ifs <;> exact h
      · rw [h] at c1; exact absurd rfl c1
  · rw [if_neg c0]
    exact h.resolve_right fun k => c0 k.1

theorem stepLayer_more {mode : RoundMode} {s s' : LayerSt α} (h : LayerRel dx dy s s') {l l' : PyLine α} (hl : Shift dx dy l l') (t b t' b' : α)
    (he : s'.hasExtrusion = s.hasExtrusion) (hz : s'.allZs = s.allZs) :
    (stepLayer mode s' l' t' b').1.hasExtrusion = (stepLayer mode s l t b).1.hasExtrusion ∧ (stepLayer mode s' l' t' b').1.allZs = (stepLayer mode s l t b).1.allZs := by
  have h1 : LayerRel dx dy { s with curZ := nextCurZ s.curZ l } { s' with curZ := nextCurZ s'.curZ l' } :=
    ⟨h.layers, h.lastZ, h.prevZ, h.prevBase, by simp only [h.curZ, nextCurZ_shift _ hl], h.cur, h.est⟩
  have hb := baseZ_shift mode h1
  unfold stepLayer
  simp only [hb]
  simp only [h.curZ, nextCurZ_shift _ hl, h.prevZ, h.prevBase]
  by_cases c1 : nextCurZ s.curZ l ≠ s.prevZ
  · rw [if_pos c1, if_pos c1]
    generalize baseZ mode { s with curZ := nextCurZ s.curZ l } = q
    obtain ⟨bz, est⟩ := q
    simp only
    by_cases c2 : some bz ≠ s.prevBaseZ
    · rw [if_pos c2, if_pos c2]
      exact ⟨rfl, by simp only [he, hz]⟩
    · rw [if_neg c2, if_neg c2]
      exact ⟨he, hz⟩
  · rw [if_neg c1, if_neg c1]
    exact ⟨he, hz⟩

theorem place_step (env : Env α) (home : Home α) {s s' t t' : BuildSt α} (h : PlaceRel dx dy s s') {r r' : Str} (hr : Elsewhere dx dy r r')
    (hc : MovedMove dx dy r r' ∨ StaysPut r ∧ AtPlace dx dy s s')
    (ht : buildStep env false home s { raw := r } = .ok t) (ht' : buildStep env false home s' { raw := r' } = .ok t') :
    PlaceRel dx dy t t' ∧ AtPlace dx dy t t' := by
  have hb := buildStep_shift env home h.build hr ht ht'
  obtain ⟨m, l, hp, k⟩ := buildStep_ok ht
  obtain ⟨m', l', hp', k'⟩ := buildStep_ok ht'
  have hsx : Shift dx dy l l' ∧ (XYMove l ∨ StaysPut r ∧ s'.m.currentX = s.m.currentX + dx ∧ s'.m.currentY = s.m.currentY + dy) := by
    rcases hc with hc | hc
    · have := processLine_moved home h.build.1 hc
      rw [hp, hp'] at this
      exact ⟨this.2.1, .inl this.2.2⟩
    · have := processLine_shift home h.build.1 hr
      rw [hp, hp'] at this
      exact ⟨this.2, .inr ⟨hc.1, hc.2⟩⟩
  obtain ⟨hs, hx⟩ := hsx
  obtain ⟨a1, a2, a3, a4, a5, a6⟩ := place_after hp hp' hs h.abs (h.build.1.relative.trans h.abs) h.ox h.oy hx
  obtain ⟨b1, b2⟩ := processLine_total hp h.total
  obtain ⟨a, b, hab⟩ := hs.args
  have hfound : 0 < m.maxE → (s.bb.xminE ≠ none ∧ s.bb.xmaxE ≠ none ∧ s.bb.yminE ≠ none ∧ s.bb.ymaxE ≠ none) ∨ l.isMove = true ∧ l.extruding = some true := by
    intro k
    rcases b2 with b2 | b2
    · exact .inl (h.found (by rw [← b2]; exact k))
    · exact .inr b2
  have hcmd : l'.command = l.command := hab.command
  have st : ∀ q q' : PyLine α, storedLine false q q' = q' := fun _ _ => rfl
  rcases k with ⟨kc, rfl⟩ | ⟨cmd, ds, kc, kne, kd, rfl⟩
  · have hnm : l.isMove ≠ true := by
      intro q
      obtain ⟨c, c1, c2⟩ := (isMove_iff hp).1 q
      rcases kc with kc | kc <;> rw [kc] at c2
      · cases c2
      · cases c2
        simp at c1
    rcases k' with ⟨kc', rfl⟩ | ⟨cmd', ds', kc', kne', kd', rfl⟩
    · exact ⟨⟨hb, a2, a3, a1, h.box, h.ext, h.zs, b1, fun q => (hfound q).resolve_right fun w => hnm w.1⟩, a4, a5⟩
    · exfalso
      rw [hcmd] at kc'
      rw [kc'] at kc
      rcases kc with kc | kc
      · cases kc
      · cases kc; exact kne' rfl
  · rcases k' with ⟨kc', rfl⟩ | ⟨cmd', ds', kc', kne', kd', rfl⟩
    · exfalso
      rw [hcmd, kc] at kc'
      rcases kc' with kc' | kc'
      · cases kc'
      · cases kc'; exact kne rfl
    · have hl2 : LayerRel dx dy { s.ls with hasExtrusion := s.ls.hasExtrusion || l.extruding.getD false } { s'.ls with hasExtrusion := s'.ls.hasExtrusion || l'.extruding.getD false } := by
        have q := h.build.2
        exact ⟨q.layers, q.lastZ, q.prevZ, q.prevBase, q.curZ, q.cur, q.est⟩
      obtain ⟨w1, w2⟩ := stepLayer_more (mode := env.mode) hl2 hs ds.total ds.layerBegin ds'.total ds'.layerBegin (by simp only [h.ext, hab.extruding]) h.zs
      refine ⟨⟨hb, a2, a3, a1, stepBBox_place h.box hab.isMove hab.extruding (x := m.currentX) (y := m.currentY) ?_, w1, w2, b1, fun q => ?_⟩, a4, a5⟩
      · intro q
        obtain ⟨d1, d2, d3, d4⟩ := a6 q
        exact ⟨d1, d2, by rw [d3, a4], by rw [d4, a5]⟩
      · exact stepBBox_found _ _ _ (fun w => ⟨(a6 w).1, (a6 w).2.1⟩) (hfound q)

theorem place_fold (env : Env α) (home : Home α) {rs rs' : List Str} (hr : List.Forall₂ (Elsewhere dx dy) rs rs') :
    (∀ r ∈ rs, StaysPut r) → ∀ {s s' t t' : BuildSt α}, PlaceRel dx dy s s' → AtPlace dx dy s s' →
    (rs.map fun r => ({ raw := r } : PyLine α)).foldlM (buildStep env false home) s = .ok t →
    (rs'.map fun r => ({ raw := r } : PyLine α)).foldlM (buildStep env false home) s' = .ok t' → PlaceRel dx dy t t' := by
  induction hr with
  | nil =>
    intro _ s s' t t' h _ ht ht'
    cases ht; cases ht'
    exact h
  | cons h1 _ ih =>
    intro hp s s' t t' h hat ht ht'
    rw [List.map_cons, List.foldlM_cons] at ht ht'
    simp only [bind, Except.bind] at ht ht'
    split at ht
    · cases ht
    split at ht'
    · cases ht'
    rename_i _ v hv _ v' hv'
    obtain ⟨k1, k2⟩ := place_step env home h h1 (.inr ⟨hp _ (by simp), hat⟩) hv hv'
    exact ih (fun r hr => hp r (List.mem_cons_of_mem _ hr)) k1 k2 ht ht'

/-- The state before the first X/Y move. -/
structure PreRel (s : BuildSt α) : Prop where
  abs : s.m.relative = false
  total : s.m.totalE ≤ s.m.maxE
  max : s.m.maxE = 0
  bb : s.bb.xminE = none ∧ s.bb.xmaxE = none ∧ s.bb.yminE = none ∧ s.bb.ymaxE = none

theorem pre_step (env : Env α) (home : Home α) {s t : BuildSt α} (h : PreRel s) {r : Str} (hr : Preamble r)
    (ht : buildStep env false home s { raw := r } = .ok t) : PreRel t := by
  obtain ⟨m, l, hp, k⟩ := buildStep_ok ht
  obtain ⟨_, hcm, _, _⟩ := C76_line home hp _ ((findall_reads (lower r) _).1 rfl)
  obtain ⟨_, _, _, hq⟩ := hr
  obtain ⟨h91, hq⟩ := hq _ ((findall_reads (lower r) _).1 rfl)
  rw [← hcm] at h91 hq
  have hex : l.isMove = true → l.extruding = none := by
    intro him
    have := no_word hp (k := 'e') (by decide) (hq ((isMove_iff hp).1 him))
    exact processLine_unfed hp this
  have e1 := (processLine_place hp).2.2 h91 h.abs
  obtain ⟨e2, e3⟩ := processLine_total hp h.total
  have e4 : m.maxE = 0 := by
    rcases e3 with e3 | ⟨c, e3⟩
    · rw [e3, h.max]
    · rw [hex c] at e3; cases e3
  have hbb : (stepBBox m.maxE s.bb l).xminE = none ∧ (stepBBox m.maxE s.bb l).xmaxE = none ∧ (stepBBox m.maxE s.bb l).yminE = none ∧
      (stepBBox m.maxE s.bb l).ymaxE = none := by
    unfold stepBBox
    by_cases c0 : l.isMove = true
    · rw [if_pos c0, hex c0]
      simp only [Option.getD_none, Bool.false_eq_true, if_false]
      split_ifs <;> exact h.bb
    · rw [if_neg c0]; exact h.bb
  rcases k with ⟨kc, rfl⟩ | ⟨cmd, ds, kc, kne, kd, rfl⟩
  · exact ⟨e1, e2, e4, h.bb⟩
  · exact ⟨e1, e2, e4, hbb⟩

theorem pre_fold (env : Env α) (home : Home α) (rs : List Str) : (∀ r ∈ rs, Preamble r) → ∀ {s t : BuildSt α}, PreRel s →
    (rs.map fun r => ({ raw := r } : PyLine α)).foldlM (buildStep env false home) s = .ok t → PreRel t := by
  induction rs with
  | nil =>
    intro _ s t h ht
    cases ht
    exact h
  | cons r rs ih =>
    intro hp s t h ht
    rw [List.map_cons, List.foldlM_cons] at ht
    simp only [bind, Except.bind] at ht
    split at ht
    · cases ht
    rename_i _ v hv
    exact ih (fun r hr => hp r (List.mem_cons_of_mem _ hr)) (pre_step env home h (hp _ (by simp)) hv) ht

end placed

end GCodeUtils
