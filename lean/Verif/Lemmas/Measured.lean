import Verif.Lemmas.Shown
import Verif.Spec.Measured

/-
  The loader on a program and on the same program converted to relative extrusion, in lockstep.
-/

set_option linter.unusedSectionVars false

namespace GCodeUtils

open Spec

variable {α : Type} [Field α] [LinearOrder α] [IsStrictOrderedRing α] [FloorRing α]

/-- The machine apart from the extruder. -/
structure SamePlace (m m' : Machine α) : Prop where
  imperial : m'.imperial = m.imperial
  relative : m'.relative = m.relative
  x : m'.currentX = m.currentX
  y : m'.currentY = m.currentY
  z : m'.currentZ = m.currentZ
  f : m'.currentF = m.currentF
  ox : m'.offsetX = m.offsetX
  oy : m'.offsetY = m.offsetY
  oz : m'.offsetZ = m.offsetZ

theorem stepModes_place {m m' n n' : Machine α} {a b a' b' : PyLine α} {cmd : Str} (h : stepModes m a cmd = .ok (n, a')) (h' : stepModes m' b cmd = .ok (n', b'))
    (hm : SamePlace m m') (hi : b.isMove = a.isMove) :
    SamePlace n n' ∧ (a.isMove = true → b'.relative = a'.relative) ∧ a'.isMove = a.isMove ∧ b'.isMove = b.isMove := by
  obtain ⟨h1, h2, h3, h4, h5, h6, h7, h8, h9⟩ := hm
  unfold stepModes at h h'
  rw [hi] at h'
  split_ifs at h h' with c0 c1 c2 c3 c4 c5 c6 c7
  · cases h; cases h'
    exact ⟨⟨h1, h2, h3, h4, h5, h6, h7, h8, h9⟩, fun _ => by simp [h2], rfl, hi.symm⟩
  · cases h; cases h'
    exact ⟨⟨rfl, h2, h3, h4, h5, h6, h7, h8, h9⟩, fun k => absurd k c0, rfl, rfl⟩
  · cases h; cases h'
    exact ⟨⟨rfl, h2, h3, h4, h5, h6, h7, h8, h9⟩, fun k => absurd k c0, rfl, rfl⟩
  · cases h; cases h'
    exact ⟨⟨h1, rfl, h3, h4, h5, h6, h7, h8, h9⟩, fun k => absurd k c0, rfl, rfl⟩
  · cases h; cases h'
    exact ⟨⟨h1, rfl, h3, h4, h5, h6, h7, h8, h9⟩, fun k => absurd k c0, rfl, rfl⟩
  · cases h; cases h'
    exact ⟨⟨h1, h2, h3, h4, h5, h6, h7, h8, h9⟩, fun k => absurd k c0, rfl, rfl⟩
  · cases h; cases h'
    exact ⟨⟨h1, h2, h3, h4, h5, h6, h7, h8, h9⟩, fun k => absurd k c0, rfl, rfl⟩
  · cases hp : parseInt cmd.tail with
    | none => rw [hp] at h; cases h
    | some t =>
      rw [hp] at h h'
      cases h; cases h'
      exact ⟨⟨h1, h2, h3, h4, h5, h6, h7, h8, h9⟩, fun k => absurd k c0, rfl, rfl⟩
  · cases h; cases h'
    exact ⟨⟨h1, h2, h3, h4, h5, h6, h7, h8, h9⟩, fun k => absurd k c0, rfl, rfl⟩

theorem stepPos_place (home : Home α) {m m' : Machine α} {a b : PyLine α} {cmd : Str} (hm : SamePlace m m') (hi : b.isMove = a.isMove)
    (hr : a.isMove = true → b.relative = a.relative) (hx : b.x = a.x) (hy : b.y = a.y) (hz : b.z = a.z) (hf : b.f = a.f) :
    SamePlace (stepPos home m a cmd) (stepPos home m' b cmd) := by
  obtain ⟨h1, h2, h3, h4, h5, h6, h7, h8, h9⟩ := hm
  unfold stepPos
  rw [hi, hx, hy, hz, hf]
  by_cases c0 : a.isMove = true
  · rw [if_pos c0, if_pos c0, hr c0]
    exact ⟨h1, h2, by simp only [h3, h7], by simp only [h4, h8], by simp only [h5, h9], by simp only [h6], h7, h8, h9⟩
  rw [if_neg c0, if_neg c0]
  by_cases c1 : cmd = c!"G28"
  · rw [if_pos c1, if_pos c1]
    simp only
    split_ifs <;> exact ⟨h1, h2, by first | exact h3 | rfl, by first | exact h4 | rfl, by first | exact h5 | rfl, h6,
      by first | exact h7 | rfl, by first | exact h8 | rfl, by first | exact h9 | rfl⟩
  rw [if_neg c1, if_neg c1]
  by_cases c2 : cmd = c!"G92"
  · rw [if_pos c2, if_pos c2]
    cases a.x <;> cases a.y <;> cases a.z <;> exact ⟨h1, h2, h3, h4, h5, h6, by simp [h3, h7], by simp [h4, h8], by simp [h5, h9]⟩
  rw [if_neg c2, if_neg c2]
  exact ⟨h1, h2, h3, h4, h5, h6, h7, h8, h9⟩

/-- The line apart from its text and the extruder. -/
structure SameMove (l l' : PyLine α) : Prop where
  command : l'.command = l.command
  isMove : l'.isMove = l.isMove
  x : l'.x = l.x
  y : l'.y = l.y
  z : l'.z = l.z
  f : l'.f = l.f
  relative : l.isMove = true → l'.relative = l.relative
  cx : l.isMove = true → l'.currentX = l.currentX
  cy : l.isMove = true → l'.currentY = l.currentY

/-- What a line does to the head depends on its command and its words other than E. -/
theorem processLine_head {home : Home α} {m m' n n' : Machine α} {r r' : Str} {l l' : PyLine α}
    (h : processLine home m { raw := r } = .ok (n, l)) (h' : processLine home m' { raw := r' } = .ok (n', l')) (hm : SamePlace m m')
    (hcmd : l'.command = l.command) (hx : l'.x = l.x) (hy : l'.y = l.y) (hz : l'.z = l.z) (hf : l'.f = l.f) :
    SamePlace n n' ∧ SameMove l l' := by
  have him : l'.isMove = l.isMove := by
    have a := isMove_iff h
    have b := isMove_iff h'
    rw [hcmd, ← a] at b
    exact Bool.eq_iff_iff.2 b
  have c1 := (processLine_keeps h).2.1
  have c2 := (processLine_keeps h').2.1
  have hmv : (split ({ raw := r' } : PyLine α)).1.isMove = (split ({ raw := r } : PyLine α)).1.isMove := by
    rw [← (processLine_keeps h).2.2, ← (processLine_keeps h').2.2]; exact him
  rcases processLine_ok h with ⟨hn, rfl, rfl⟩ | ⟨cmd, hc, hne, m1, l1, l2, m3, l3, h1, h2, h3, rfl, rfl⟩
  · have nm : ¬ (split ({ raw := r } : PyLine α)).1.isMove = true := by
      rw [split_isMove]
      unfold PyLine.inMoves
      rcases hn with hn | hn <;> rw [hn] <;> decide
    rcases processLine_ok h' with ⟨hn', rfl, rfl⟩ | ⟨cmd', hc', hne', _⟩
    · exact ⟨hm, hcmd, him, hx, hy, hz, hf, fun k => absurd k nm, fun k => absurd k nm, fun k => absurd k nm⟩
    · exfalso
      rw [hcmd] at c2
      rw [← c2] at hc'
      rcases hn with hn | hn
      · rw [hn] at hc'; cases hc'
      · rw [hn] at hc'; cases hc'; exact absurd rfl hne'
  · rcases processLine_ok h' with ⟨hn', rfl, rfl⟩ | ⟨cmd', hc', hne', m1', l1', l2', m3', l3', h1', h2', h3', rfl, rfl⟩
    · exfalso
      rw [← c2, hcmd, c1, hc] at hn'
      rcases hn' with hn | hn
      · cases hn
      · cases hn; exact absurd rfl hne
    · have hcm2 := hcmd
      rw [c1, c2, hc, hc', Option.some.injEq] at hcm2
      subst hcm2
      obtain ⟨s1, s2, s5, s6⟩ := stepModes_place h1 h1' hm hmv
      obtain ⟨x, y, z, e, f, i, j, k2⟩ := ite_coords_argsOnly h2
      obtain ⟨x', y', z', e', f', i', j', k2'⟩ := ite_coords_argsOnly h2'
      obtain ⟨te, ce, me, oe, ex, q⟩ := stepExtrusion_shape (stepPos home m1 l2 cmd') (stamp (stepPos home m1 l2 cmd') l2) cmd'
      obtain ⟨te', ce', me', oe', ex', q'⟩ := stepExtrusion_shape (stepPos home m1' l2' cmd') (stamp (stepPos home m1' l2' cmd') l2') cmd'
      rw [q] at h3
      rw [q'] at h3'
      simp only [Prod.mk.injEq] at h3 h3'
      obtain ⟨rfl, rfl⟩ := h3
      obtain ⟨rfl, rfl⟩ := h3'
      have e1 : l2'.x = l2.x := hx
      have e2 : l2'.y = l2.y := hy
      have e3 : l2'.z = l2.z := hz
      have e4 : l2'.f = l2.f := hf
      have i1 : l2.isMove = l1.isMove := by rw [k2]
      have i2 : l2'.isMove = l1'.isMove := by rw [k2']
      have r1 : l2.relative = l1.relative := by rw [k2]
      have r2 : l2'.relative = l1'.relative := by rw [k2']
      have hi2 : l2'.isMove = l2.isMove := him
      have hr2 : l2.isMove = true → l2'.relative = l2.relative := by
        intro k
        rw [r1, r2]
        exact s2 (by rw [← s5, ← i1]; exact k)
      have sp := stepPos_place home (cmd := cmd') s1 hi2 hr2 e1 e2 e3 e4
      refine ⟨⟨sp.imperial, sp.relative, sp.x, sp.y, sp.z, sp.f, sp.ox, sp.oy, sp.oz⟩, hcmd, him, hx, hy, hz, hf, hr2, fun _ => ?_, fun _ => ?_⟩
      · show some _ = some _; rw [sp.x]
      · show some _ = some _; rw [sp.y]

/-- What a command says about the extrusion mode. -/
def relEAfter (c : Option Str) (b : Bool) : Bool :=
  if c = some c!"G90" then false else if c = some c!"G91" then true else if c = some c!"M82" then false else if c = some c!"M83" then true else b

/-- The filament a move pushes, as the loader sees it. -/
def pushed (m : Machine α) (e : α) : α := if m.relativeE then e else e + m.offsetE - m.currentE

/-- What a line does to the extruder. -/
theorem processLine_E {home : Home α} {m n : Machine α} {r : Str} {l : PyLine α} (h : processLine home m { raw := r } = .ok (n, l)) :
    n.relativeE = relEAfter l.command m.relativeE ∧
    (l.isMove = true → l.relativeE = some m.relativeE ∧ n.offsetE = m.offsetE ∧ ∀ e, l.e = some e → n.totalE = m.totalE + pushed m e ∧ n.currentE = m.currentE + pushed m e ∧
      n.maxE = max m.maxE (m.totalE + pushed m e) ∧ l.extruding = some (decide (0 < pushed m e))) ∧
    (l.isMove = false ∨ l.e = none → n.totalE = m.totalE ∧ n.currentE = m.currentE ∧ n.maxE = m.maxE ∧ l.extruding = none) ∧
    (l.isMove = false → n.offsetE = (if l.command = some c!"G92" then l.e.getD m.offsetE else m.offsetE)) := by
  have h0 : (split ({ raw := r } : PyLine α)).1.extruding = none := by
    obtain ⟨c, b, hs⟩ := split_shape ({ raw := r } : PyLine α)
    rw [hs]
  have hk := processLine_keeps h
  rcases processLine_ok h with ⟨hn, rfl, rfl⟩ | ⟨cmd, hc, hne, m1, l1, l2, m3, l3, h1, h2, h3, rfl, rfl⟩
  · have nm : ¬ (split ({ raw := r } : PyLine α)).1.isMove = true := by
      rw [split_isMove]
      unfold PyLine.inMoves
      rcases hn with hn | hn <;> rw [hn] <;> decide
    refine ⟨?_, fun k => absurd k nm, fun _ => ⟨rfl, rfl, rfl, h0⟩, fun _ => ?_⟩
    · rcases hn with hn | hn <;> rw [hn] <;> simp [relEAfter]
    · rcases hn with hn | hn <;> rw [hn] <;> simp
  · have hcl : ({ l3 with currentE := some n.currentE } : PyLine α).command = some cmd := by rw [hk.2.1, hc]
    obtain ⟨x, y, z, e, f, i, j, k2⟩ := ite_coords_argsOnly h2
    obtain ⟨p1, p2, p3, p4⟩ := stepPos_e home m1 l2 cmd
    have p5 := stepPos_relE home m1 l2 cmd
    have hcmd3 : l3.command = some cmd := hcl
    have i3 : l3.isMove = l2.isMove ∧ l3.e = l2.e ∧ l3.relativeE = l2.relativeE ∧ n.relativeE = (stepPos home m1 l2 cmd).relativeE := by
      obtain ⟨te, ce, me, oe, ex, q⟩ := stepExtrusion_shape (stepPos home m1 l2 cmd) (stamp (stepPos home m1 l2 cmd) l2) cmd
      rw [q] at h3
      simp only [Prod.mk.injEq] at h3
      obtain ⟨rfl, rfl⟩ := h3
      exact ⟨rfl, rfl, rfl, rfl⟩
    have i2 : l2.isMove = l1.isMove ∧ l2.relativeE = l1.relativeE ∧ l2.extruding = l1.extruding := by rw [k2]; exact ⟨rfl, rfl, rfl⟩
    have eE : m1.currentE = m.currentE ∧ m1.offsetE = m.offsetE ∧ m1.totalE = m.totalE ∧ m1.maxE = m.maxE ∧ l1.extruding = none ∧
        l1.isMove = (split ({ raw := r } : PyLine α)).1.isMove ∧ (l1.isMove = true → l1.relativeE = some m.relativeE) := by
      rcases stepModes_shape h1 with ⟨_, rfl, rfl⟩ | ⟨q, rfl, i, r, re, t, rfl⟩
      · exact ⟨rfl, rfl, rfl, rfl, h0, rfl, fun _ => rfl⟩
      · exact ⟨rfl, rfl, rfl, rfl, h0, rfl, fun k => by rw [q] at k; cases k⟩
    obtain ⟨q1, q2, q3, q4, q5, q6, q7⟩ := eE
    refine ⟨?_, ?_, ?_, ?_⟩
    · show n.relativeE = relEAfter l3.command _
      rw [i3.2.2.2, p5, hcmd3]
      unfold stepModes at h1
      unfold relEAfter
      simp only [Option.some.injEq]
      by_cases c0 : (split ({ raw := r } : PyLine α)).1.isMove = true
      · rw [if_pos c0] at h1
        cases h1
        rw [split_isMove] at c0
        unfold PyLine.inMoves at c0
        rw [hc] at c0
        have hm : cmd ∈ [c!"G0", c!"G1", c!"G2", c!"G3"] := by simpa [moveGcodes] using c0
        have := (by decide : ∀ c ∈ [c!"G0", c!"G1", c!"G2", c!"G3"], c ≠ c!"G90" ∧ c ≠ c!"G91" ∧ c ≠ c!"M82" ∧ c ≠ c!"M83") cmd hm
        rw [if_neg this.1, if_neg this.2.1, if_neg this.2.2.1, if_neg this.2.2.2]
      rw [if_neg c0] at h1
      have d1 : c!"G20" ≠ c!"G90" ∧ c!"G20" ≠ c!"G91" ∧ c!"G20" ≠ c!"M82" ∧ c!"G20" ≠ c!"M83" := by decide
      have d2 : c!"G21" ≠ c!"G90" ∧ c!"G21" ≠ c!"G91" ∧ c!"G21" ≠ c!"M82" ∧ c!"G21" ≠ c!"M83" := by decide
      split_ifs at h1 with c1 c2 c3 c4 c5 c6 c7
      · cases h1
        rw [c1, if_neg d1.1, if_neg d1.2.1, if_neg d1.2.2.1, if_neg d1.2.2.2]
      · cases h1
        rw [c2, if_neg d2.1, if_neg d2.2.1, if_neg d2.2.2.1, if_neg d2.2.2.2]
      · cases h1; rw [if_pos c3]
      · cases h1; rw [if_neg c3, if_pos c4]
      · cases h1; rw [if_neg c3, if_neg c4, if_pos c5]
      · cases h1; rw [if_neg c3, if_neg c4, if_neg c5, if_pos c6]
      · rw [if_neg c3, if_neg c4, if_neg c5, if_neg c6]
        cases hp : parseInt cmd.tail with
        | none => rw [hp] at h1; cases h1
        | some t => rw [hp] at h1; cases h1; rfl
      · cases h1; rw [if_neg c3, if_neg c4, if_neg c5, if_neg c6]
    · intro k
      have k' : l2.isMove = true := by rw [← i3.1]; exact k
      have kr : l2.relativeE = some m.relativeE := by rw [i2.2.1]; exact q7 (by rw [← i2.1]; exact k')
      refine ⟨?_, ?_, ?_⟩
      · show l3.relativeE = _
        rw [i3.2.2.1, kr]
      · unfold stepExtrusion at h3
        have he : (stamp (stepPos home m1 l2 cmd) l2).e = l2.e := rfl
        have hi : (stamp (stepPos home m1 l2 cmd) l2).isMove = true := k'
        rw [he] at h3
        cases he2 : l2.e with
        | none => rw [he2] at h3; cases h3; rw [p4, q2]
        | some e =>
          rw [he2] at h3
          simp only at h3
          rw [if_pos hi] at h3
          split_ifs at h3 <;> (cases h3; show (stepPos home m1 l2 cmd).offsetE = _; rw [p4, q2])
      · intro v hv
        have hv2 : l2.e = some v := by rw [← i3.2.1]; exact hv
        unfold stepExtrusion at h3
        have he : (stamp (stepPos home m1 l2 cmd) l2).e = some v := hv2
        have hi : (stamp (stepPos home m1 l2 cmd) l2).isMove = true := k'
        have hr : (stamp (stepPos home m1 l2 cmd) l2).relativeE = some m.relativeE := kr
        rw [he] at h3
        simp only at h3
        rw [if_pos hi, hr] at h3
        simp only [Option.getD_some] at h3
        unfold pushed
        by_cases c : m.relativeE = true
        · rw [if_pos c] at h3 ⊢
          cases h3
          simp only
          rw [p1, p2, p3, q1, q3, q4]
          exact ⟨rfl, rfl, rfl, trivial⟩
        · rw [if_neg c] at h3 ⊢
          cases h3
          simp only
          rw [p1, p2, p3, p4, q1, q2, q3, q4]
          refine ⟨rfl, by ring, rfl, ?_⟩
          congr 1
          rw [decide_eq_decide, sub_pos]
    · intro k
      have k' : l2.isMove = false ∨ l2.e = none := by
        rcases k with k | k
        · exact .inl (by rw [← i3.1]; exact k)
        · exact .inr (by rw [← i3.2.1]; exact k)
      unfold stepExtrusion at h3
      have he : (stamp (stepPos home m1 l2 cmd) l2).e = l2.e := rfl
      have hi : (stamp (stepPos home m1 l2 cmd) l2).isMove = l2.isMove := rfl
      have hx : (stamp (stepPos home m1 l2 cmd) l2).extruding = none := by
        show l2.extruding = none
        rw [i2.2.2, q5]
      rw [he, hi] at h3
      cases he2 : l2.e with
      | none =>
        rw [he2] at h3
        cases h3
        exact ⟨by rw [p2, q3], by rw [p1, q1], by rw [p3, q4], hx⟩
      | some v =>
        have k'' : ¬ l2.isMove = true := by
          rcases k' with k | k
          · rw [k]; simp
          · rw [k] at he2; cases he2
        rw [he2] at h3
        simp only at h3
        rw [if_neg k''] at h3
        split_ifs at h3 <;> (cases h3; exact ⟨p2.trans q3, p1.trans q1, p3.trans q4, hx⟩)
    · intro k
      have k' : ¬ l2.isMove = true := by rw [← i3.1]; simpa using k
      show n.offsetE = (if l3.command = _ then l3.e.getD _ else _)
      rw [hcmd3, i3.2.1]
      unfold stepExtrusion at h3
      have he : (stamp (stepPos home m1 l2 cmd) l2).e = l2.e := rfl
      have hi : (stamp (stepPos home m1 l2 cmd) l2).isMove = l2.isMove := rfl
      rw [he, hi] at h3
      simp only [Option.some.injEq]
      cases he2 : l2.e with
      | none =>
        rw [he2] at h3
        cases h3
        rw [p4, q2]
        simp
      | some v =>
        rw [he2] at h3
        simp only at h3
        rw [if_neg k'] at h3
        split_ifs at h3 ⊢ <;> cases h3
        · rfl
        · show (stepPos home m1 l2 cmd).offsetE = _
          rw [p4, q2]

/-! ### one line of the loader -/

/-- The line apart from its text and the extruder, for the loader; `M83` stands for `M82`. -/
structure SameStep (l l' : PyLine α) : Prop where
  command : l'.command = l.command ∨ l.command = some c!"M82" ∧ l'.command = some c!"M83"
  isMove : l'.isMove = l.isMove
  x : l'.x = l.x
  y : l'.y = l.y
  z : l'.z = l.z
  f : l'.f = l.f
  relative : l.isMove = true → l'.relative = l.relative
  cx : l.isMove = true → l'.currentX = l.currentX
  cy : l.isMove = true → l'.currentY = l.currentY
  extruding : l'.extruding = l.extruding
  dwell : l.command = some c!"G4" → l'.raw = l.raw

theorem SameStep.isCmd {l l' : PyLine α} (h : SameStep l l') {c : Str} (hc : c ∈ [c!"G0", c!"G1", c!"G4", c!"G92"]) : l'.isCmd c = l.isCmd c := by
  unfold PyLine.isCmd
  rcases h.command with k | ⟨k1, k2⟩
  · rw [k]
  · rw [k1, k2]
    revert c
    decide

/-- The layers found so far, apart from the lines; the durations agree if `A` holds. -/
structure LayerSame (A : Prop) (s s' : LayerSt α) : Prop where
  layers : s'.allLayers.map (fun L => (L.z, L.lines.length)) = s.allLayers.map (fun L => (L.z, L.lines.length))
  durations : A → s'.allLayers.map (·.duration) = s.allLayers.map (·.duration)
  zs : s'.allZs = s.allZs
  idxs : s'.layerIdxs = s.layerIdxs
  lidxs : s'.lineIdxs = s.lineIdxs
  id : s'.layerId = s.layerId
  line : s'.layerLine = s.layerLine
  lastZ : s'.lastLayerZ = s.lastLayerZ
  prevZ : s'.prevZ = s.prevZ
  prevBase : s'.prevBaseZ = s.prevBaseZ
  curZ : s'.curZ = s.curZ
  cur : s'.curLines.length = s.curLines.length
  ext : s'.hasExtrusion = s.hasExtrusion
  est : s'.est = s.est

theorem estimateHeight_same (mode : RoundMode) {Ls Ls' : List (Layer α)}
    (h : Ls'.map (fun L => (L.z, L.lines.length)) = Ls.map (fun L => (L.z, L.lines.length))) : estimateHeight mode Ls' = estimateHeight mode Ls := by
  have : Ls'.filterMap (·.z) = Ls.filterMap (·.z) := by
    have e : ∀ Ls : List (Layer α), Ls.filterMap (·.z) = (Ls.map (fun L => (L.z, L.lines.length))).filterMap (·.1) := by
      intro Ls
      rw [List.filterMap_map]
      rfl
    rw [e, e, h]
  unfold estimateHeight
  rw [this]

theorem baseZ_same {A : Prop} (mode : RoundMode) {s s' : LayerSt α} (h : LayerSame A s s') : baseZ mode s' = baseZ mode s := by
  unfold baseZ
  rw [h.prevZ, h.lastZ, h.est, estimateHeight_same mode h.layers]

theorem nextCurZ_same (c : Option α) {l l' : PyLine α} (h : SameStep l l') : nextCurZ c l' = nextCurZ c l := by
  unfold nextCurZ
  rw [h.z, h.isCmd (c := c!"G92") (by decide), h.isMove]
  cases l.z with
  | none => rfl
  | some z =>
    simp only
    by_cases c1 : l.isCmd c!"G92" = true
    · rw [if_pos c1, if_pos c1]
    rw [if_neg c1, if_neg c1]
    by_cases c2 : l.isMove = true
    · rw [if_pos c2, if_pos c2, h.relative c2]
    · rw [if_neg c2, if_neg c2]

theorem stepLayer_same {A : Prop} (mode : RoundMode) {s s' : LayerSt α} (h : LayerSame A s s') {l l' : PyLine α} (hl : SameStep l l') {t b t' b' : α}
    (ht : A → t' - b' = t - b) :
    LayerSame A (stepLayer mode s l t b).1 (stepLayer mode s' l' t' b').1 ∧ (stepLayer mode s' l' t' b').2 = (stepLayer mode s l t b).2 := by
  have hz : nextCurZ s'.curZ l' = nextCurZ s.curZ l := by rw [h.curZ]; exact nextCurZ_same _ hl
  have h1 : LayerSame A { s with curZ := nextCurZ s.curZ l } { s' with curZ := nextCurZ s'.curZ l' } :=
    ⟨h.layers, h.durations, h.zs, h.idxs, h.lidxs, h.id, h.line, h.lastZ, h.prevZ, h.prevBase, hz, h.cur, h.ext, h.est⟩
  have hb := baseZ_same mode h1
  unfold stepLayer
  simp only [hb]
  simp only [hz, h.prevZ, h.prevBase]
  by_cases c1 : nextCurZ s.curZ l ≠ s.prevZ
  · rw [if_pos c1, if_pos c1]
    generalize baseZ mode { s with curZ := nextCurZ s.curZ l } = q
    obtain ⟨bz, est⟩ := q
    simp only
    by_cases c2 : some bz ≠ s.prevBaseZ
    · rw [if_pos c2, if_pos c2]
      refine ⟨⟨?_, ?_, ?_, h.idxs, h.lidxs, ?_, rfl, rfl, rfl, rfl, rfl, rfl, rfl, rfl⟩, rfl⟩
      · simp only [List.map_append, h.layers, List.map_cons, List.map_nil, h.cur]
      · intro k
        simp only [List.map_append, h.durations k, List.map_cons, List.map_nil, ht k]
      · simp only [h.ext, h.zs]
      · simp only [h.id]
    · rw [if_neg c2, if_neg c2]
      exact ⟨⟨h.layers, h.durations, h.zs, h.idxs, h.lidxs, h.id, h.line, h.lastZ, rfl, rfl, rfl, h.cur, h.ext, rfl⟩, rfl⟩
  · rw [if_neg c1, if_neg c1]
    exact ⟨⟨h.layers, h.durations, h.zs, h.idxs, h.lidxs, h.id, h.line, h.lastZ, rfl, rfl, rfl, h.cur, h.ext, h.est⟩, rfl⟩

theorem recordLine_same {A : Prop} {s s' : LayerSt α} (h : LayerSame A s s') (l l' : PyLine α) : LayerSame A (recordLine s l) (recordLine s' l') := by
  unfold recordLine
  exact ⟨h.layers, h.durations, h.zs, by simp only [h.idxs, h.id], by simp only [h.lidxs, h.line], h.id, by simp only [h.line], h.lastZ, h.curZ, h.prevBase,
    h.curZ, by simp only [List.length_append, h.cur, List.length_cons, List.length_nil], h.ext, h.est⟩

theorem stepBBox_same {v v' : α} {b b' : BBox α} {l l' : PyLine α} (hb : b' = b) (hv : v' = v) (hl : SameStep l l') : stepBBox v' b' l' = stepBBox v b l := by
  subst hb hv
  unfold stepBBox
  rw [hl.isMove, hl.extruding]
  by_cases c0 : l.isMove = true
  · rw [if_pos c0, if_pos c0, hl.cx c0, hl.cy c0]
  · rw [if_neg c0, if_neg c0]

/-- The duration estimate; the times agree if `A` holds. -/
structure DurSame (A : Prop) (d d' : DurSt α) : Prop where
  x : d'.lastx = d.lastx
  y : d'.lasty = d.lasty
  z : d'.lastz = d.lastz
  f : d'.lastf = d.lastf
  dx : d'.lastdx = d.lastdx
  dy : d'.lastdy = d.lastdy
  total : A → d'.total = d.total ∧ d'.layerBegin = d.layerBegin

/-- Whether the duration of a move can be computed does not depend on its length. -/
theorem moveDuration_free {a f t v : α} (t' : α) (h : moveDuration a f t = .ok v) : ∃ v', moveDuration a f t' = .ok v' := by
  unfold moveDuration at h ⊢
  simp only at h ⊢
  by_cases c0 : f = a
  · rw [if_pos c0]; exact ⟨_, rfl⟩
  rw [if_neg c0] at h ⊢
  by_cases c2 : a + f = 0
  · exfalso
    rw [if_neg (by rintro ⟨_, k, _⟩; exact k c2), if_pos c2] at h
    cases h
  · split_ifs <;> exact ⟨_, rfl⟩

theorem stepDur_same {A : Prop} {env : Env α} {d d' e : DurSt α} {l l' : PyLine α} (h : stepDur env d l = .ok e) (hd : DurSame A d d') (hl : SameStep l l')
    (hm : l.command = some c!"G0" ∨ l.command = some c!"G1" → l.isMove = true)
    (hE : A → l.command = some c!"G0" ∨ l.command = some c!"G1" → l.e = none ∧ l'.e = none ∨ ∃ v v', l.e = some v ∧ l'.e = some v' ∧
      (if l'.relativeE.getD false then |v'| else |v' - d'.laste|) = (if l.relativeE.getD false then |v| else |v - d.laste|)) :
    (∃ e', stepDur env d' l' = .ok e' ∧ DurSame A e e') ∧
    e.laste = (if l.command = some c!"G0" ∨ l.command = some c!"G1" then l.e.getD d.laste else d.laste) := by
  unfold stepDur at h ⊢
  rw [hl.isCmd (c := c!"G0") (by decide), hl.isCmd (c := c!"G1") (by decide), hl.isCmd (c := c!"G4") (by decide)]
  have hcc : (l.isCmd c!"G0" || l.isCmd c!"G1") = true ↔ l.command = some c!"G0" ∨ l.command = some c!"G1" := by simp [PyLine.isCmd]
  by_cases c0 : (l.isCmd c!"G0" || l.isCmd c!"G1") = true
  · rw [if_pos c0] at h
    rw [if_pos c0, if_pos (hcc.1 c0)]
    have him := hm (hcc.1 c0)
    simp only at h ⊢
    rw [hl.x, hl.y, hl.z, hl.f, hd.x, hd.y, hd.z, hd.f, hd.dx, hd.dy]
    generalize hlf : (if (l.x.getD d.lastx - d.lastx) * d.lastdx + (l.y.getD d.lasty - d.lasty) * d.lastdy ≤ 0 then 0 else d.lastf) = lf at h ⊢
    have htr : A → moveTravel env d' l' (l.x.getD d.lastx - d.lastx) (l.y.getD d.lasty - d.lasty) = moveTravel env d l (l.x.getD d.lastx - d.lastx) (l.y.getD d.lasty - d.lasty) := by
      intro a
      unfold moveTravel
      simp only
      by_cases c1 : env.hypot (l.x.getD d.lastx - d.lastx) (l.y.getD d.lasty - d.lasty) = 0
      · rw [if_pos c1, if_pos c1, hl.z, hl.relative him, hd.z]
        cases l.z with
        | some z => rfl
        | none =>
          simp only
          rcases hE a (hcc.1 c0) with ⟨k1, k2⟩ | ⟨v, v', k1, k2, k3⟩
          · rw [k1, k2]
          · rw [k1, k2]; exact k3
      · rw [if_neg c1, if_neg c1]
    generalize hT : moveTravel env d l (l.x.getD d.lastx - d.lastx) (l.y.getD d.lasty - d.lasty) = T at h htr
    generalize hT' : moveTravel env d' l' (l.x.getD d.lastx - d.lastx) (l.y.getD d.lasty - d.lasty) = T' at htr ⊢
    split at h
    · cases h
    · rename_i v hq
      simp only [Except.ok.injEq] at h
      obtain ⟨v', hv'⟩ := moveDuration_free T' hq
      rw [hv']
      subst h
      refine ⟨⟨_, rfl, rfl, rfl, rfl, rfl, rfl, rfl, fun a => ?_⟩, rfl⟩
      have : v' = v := by
        have := htr a
        rw [this, hq] at hv'
        exact (Except.ok.inj hv').symm
      exact ⟨by simp only [this, (hd.total a).1], (hd.total a).2⟩
  · rw [if_neg c0] at h
    rw [if_neg c0, if_neg (fun k => c0 (hcc.2 k))]
    by_cases c1 : l.isCmd c!"G4" = true
    · rw [if_pos c1] at h ⊢
      have : l.command = some c!"G4" := by simpa [PyLine.isCmd] using c1
      rw [hl.dwell this]
      cases hq : (findSpecificCode l.raw 'P' : Except Err (Option α)) with
      | error er => rw [hq] at h; cases h
      | ok o =>
        rw [hq] at h
        cases o with
        | none => cases h; exact ⟨⟨_, rfl, hd⟩, rfl⟩
        | some p =>
          simp only [Except.ok.injEq] at h ⊢
          subst h
          refine ⟨⟨_, rfl, ?_⟩, by split_ifs <;> rfl⟩
          split_ifs
          · exact ⟨hd.x, hd.y, hd.z, hd.f, hd.dx, hd.dy, fun a => ⟨by simp only [(hd.total a).1], (hd.total a).2⟩⟩
          · exact hd
    · rw [if_neg c1] at h ⊢
      cases h
      exact ⟨⟨_, rfl, hd⟩, rfl⟩

/-- One line of the loader, for two programs. -/
theorem build_pair {A : Prop} {env : Env α} {home : Home α} {b b' b1 : BuildSt α} {r r' : Str} {n n' : Machine α} {l l' : PyLine α}
    (hb : buildStep env false home b { raw := r } = .ok b1) (hp : processLine home b.m { raw := r } = .ok (n, l)) (hp' : processLine home b'.m { raw := r' } = .ok (n', l'))
    (hl : SameStep l l') (hmax : n'.maxE = n.maxE) (hbb : b'.bb = b.bb) (hls : LayerSame A b.ls b'.ls) (hds : DurSame A b.ds b'.ds)
    (hdone : b'.done.length = b.done.length)
    (hE : A → l.command = some c!"G0" ∨ l.command = some c!"G1" → l.e = none ∧ l'.e = none ∨ ∃ v v', l.e = some v ∧ l'.e = some v' ∧
      (if l'.relativeE.getD false then |v'| else |v' - b'.ds.laste|) = (if l.relativeE.getD false then |v| else |v - b.ds.laste|)) :
    b1.m = n ∧ b1.ds.laste = (if l.command = some c!"G0" ∨ l.command = some c!"G1" then l.e.getD b.ds.laste else b.ds.laste) ∧
    ∃ b1', buildStep env false home b' { raw := r' } = .ok b1' ∧ b1'.m = n' ∧ b1'.bb = b1.bb ∧ LayerSame A b1.ls b1'.ls ∧ DurSame A b1.ds b1'.ds ∧
      b1'.done.length = b1.done.length := by
  unfold buildStep at hb ⊢
  rw [hp] at hb
  rw [hp']
  simp only [Bool.false_eq_true, if_false] at hb ⊢
  have hm : l.command = some c!"G0" ∨ l.command = some c!"G1" → l.isMove = true := by
    intro k
    rw [isMove_iff hp]
    rcases k with k | k <;> exact ⟨_, by simp, k⟩
  have hd1 : (b'.done ++ [l']).length = (b.done ++ [l]).length := by simp [hdone]
  cases hc : l.command with
  | none =>
    have hc' : l'.command = none := by
      rcases hl.command with k | ⟨k, _⟩
      · rw [k, hc]
      · rw [hc] at k; cases k
    rw [hc] at hb
    rw [hc']
    simp only [Except.ok.injEq] at hb ⊢
    subst hb
    exact ⟨rfl, by simp, _, rfl, rfl, hbb, recordLine_same hls _ _, hds, hd1⟩
  | some cmd =>
    obtain ⟨cmd', hc', hee⟩ : ∃ cmd', l'.command = some cmd' ∧ cmd'.isEmpty = cmd.isEmpty := by
      rcases hl.command with k | ⟨k, k'⟩
      · exact ⟨cmd, by rw [k, hc], rfl⟩
      · rw [hc, Option.some.injEq] at k
        subst k
        exact ⟨_, k', rfl⟩
    rw [hc] at hb
    rw [hc']
    simp only [hee] at hb ⊢
    by_cases c0 : cmd.isEmpty = true
    · rw [if_pos c0] at hb ⊢
      simp only [Except.ok.injEq] at hb ⊢
      subst hb
      have : cmd = [] := by simpa using c0
      subst this
      exact ⟨rfl, by simp, _, rfl, rfl, hbb, recordLine_same hls _ _, hds, hd1⟩
    · rw [if_neg c0] at hb ⊢
      cases hsd : stepDur env b.ds l with
      | error er => rw [hsd] at hb; cases hb
      | ok ds =>
        rw [hsd] at hb
        obtain ⟨⟨ds', hsd', hds'⟩, hla⟩ := stepDur_same hsd hds hl hm hE
        rw [hsd']
        simp only [Except.ok.injEq] at hb ⊢
        have h1 : LayerSame A { b.ls with hasExtrusion := b.ls.hasExtrusion || l.extruding.getD false }
            { b'.ls with hasExtrusion := b'.ls.hasExtrusion || l'.extruding.getD false } :=
          ⟨hls.layers, hls.durations, hls.zs, hls.idxs, hls.lidxs, hls.id, hls.line, hls.lastZ, hls.prevZ, hls.prevBase, hls.curZ, hls.cur,
            by simp only [hls.ext, hl.extruding], hls.est⟩
        obtain ⟨k1, k2⟩ := stepLayer_same env.mode h1 hl (t := ds.total) (b := ds.layerBegin) (t' := ds'.total) (b' := ds'.layerBegin)
          (fun a => by rw [(hds'.total a).1, (hds'.total a).2])
        subst hb
        refine ⟨rfl, ?_, _, rfl, rfl, stepBBox_same hbb hmax hl, recordLine_same k1 _ _, ?_, hd1⟩
        · rw [hc] at hla
          rw [← hla]
          simp only
          split_ifs <;> rfl
        · simp only [k2]
          split_ifs
          · exact ⟨hds'.x, hds'.y, hds'.z, hds'.f, hds'.dx, hds'.dy, fun a => ⟨(hds'.total a).1, (hds'.total a).1⟩⟩
          · exact hds'

end GCodeUtils
