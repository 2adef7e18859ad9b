import Verif.Lemmas.ElsewhereStretch
import Verif.Lemmas.Build

/-
  Loading a program and the same program at another place of the bed.
-/

set_option linter.unusedSectionVars false

namespace GCodeUtils

open Spec

variable {α : Type} [Field α] [LinearOrder α] [IsStrictOrderedRing α] [FloorRing α]

/-- The machines of the two runs: they may differ in X and Y. -/
structure MachRel (m m' : Machine α) : Prop where
  metric : m.imperial = false
  metric' : m'.imperial = false
  relative : m'.relative = m.relative
  relativeE : m'.relativeE = m.relativeE
  tool : m'.currentTool = m.currentTool
  z : m'.currentZ = m.currentZ
  e : m'.currentE = m.currentE
  total : m'.totalE = m.totalE
  max : m'.maxE = m.maxE
  f : m'.currentF = m.currentF
  oz : m'.offsetZ = m.offsetZ
  oe : m'.offsetE = m.offsetE

section process

variable {a b : α}

theorem stepModes_shift {m m' : Machine α} (hm : MachRel m m') {l l' : PyLine α} (hl : ArgShift a b l l') {cmd : Str} (hc : cmd ≠ c!"G20") :
    SameEnd (fun p q => MachRel p.1 q.1 ∧ ArgShift a b p.2 q.2 ∧ p.2.isMove = l.isMove) (stepModes m l cmd) (stepModes m' l' cmd) := by
  have hl0 := hl
  have hm0 := hm
  obtain ⟨l1, l2, l3, l4, l5, l6, l7, l8, l9, l10⟩ := hl
  obtain ⟨m1, m1', m2, m3, m4, m5, m6, m7, m8, m9, m10, m11⟩ := hm
  unfold stepModes
  rw [l7]
  by_cases c0 : l.isMove = true
  · rw [if_pos c0, if_pos c0]
    exact ⟨⟨m1, m1', m2, m3, m4, m5, m6, m7, m8, m9, m10, m11⟩, ⟨l1, l2, l3, l4, l5, l6, rfl, by simp only [m2], by simp only [m3], l10⟩, rfl⟩
  rw [if_neg c0, if_neg c0, if_neg hc, if_neg hc]
  by_cases c1 : cmd = c!"G21"
  · rw [if_pos c1, if_pos c1]
    exact ⟨⟨rfl, rfl, m2, m3, m4, m5, m6, m7, m8, m9, m10, m11⟩, hl0, rfl⟩
  rw [if_neg c1, if_neg c1]
  by_cases c2 : cmd = c!"G90"
  · rw [if_pos c2, if_pos c2]
    exact ⟨⟨m1, m1', rfl, rfl, m4, m5, m6, m7, m8, m9, m10, m11⟩, hl0, rfl⟩
  rw [if_neg c2, if_neg c2]
  by_cases c3 : cmd = c!"G91"
  · rw [if_pos c3, if_pos c3]
    exact ⟨⟨m1, m1', rfl, rfl, m4, m5, m6, m7, m8, m9, m10, m11⟩, hl0, rfl⟩
  rw [if_neg c3, if_neg c3]
  by_cases c4 : cmd = c!"M82"
  · rw [if_pos c4, if_pos c4]
    exact ⟨⟨m1, m1', m2, rfl, m4, m5, m6, m7, m8, m9, m10, m11⟩, hl0, rfl⟩
  rw [if_neg c4, if_neg c4]
  by_cases c5 : cmd = c!"M83"
  · rw [if_pos c5, if_pos c5]
    exact ⟨⟨m1, m1', m2, rfl, m4, m5, m6, m7, m8, m9, m10, m11⟩, hl0, rfl⟩
  rw [if_neg c5, if_neg c5]
  by_cases c6 : cmd.head? = some 'T'
  · rw [if_pos c6, if_pos c6]
    cases parseInt cmd.tail with
    | none => exact rfl
    | some t => exact ⟨⟨m1, m1', m2, m3, rfl, m5, m6, m7, m8, m9, m10, m11⟩, hl0, rfl⟩
  · rw [if_neg c6, if_neg c6]
    exact ⟨hm0, hl0, rfl⟩

theorem stepPos_shift (home : Home α) {m m' : Machine α} (hm : MachRel m m') {l l' : PyLine α} (hl : ArgShift a b l l') (cmd : Str)
    (hmv : l.isMove = true ∨ a = 0 ∧ b = 0) : MachRel (stepPos home m l cmd) (stepPos home m' l' cmd) := by
  have hm0 := hm
  obtain ⟨l1, l2, l3, l4, l5, l6, l7, l8, l9, l10⟩ := hl
  obtain ⟨m1, m1', m2, m3, m4, m5, m6, m7, m8, m9, m10, m11⟩ := hm
  unfold stepPos
  rw [l7]
  by_cases c0 : l.isMove = true
  · rw [if_pos c0, if_pos c0]
    exact ⟨m1, m1', m2, m3, m4, by simp only [m5, m10, l4, l8], m6, m7, m8, by simp only [l6, m9], m10, m11⟩
  rw [if_neg c0, if_neg c0]
  rcases hmv with hmv | ⟨rfl, rfl⟩
  · exact absurd hmv c0
  have ex : l'.x = l.x := by rw [l2]; cases l.x <;> simp
  have ey : l'.y = l.y := by rw [l3]; cases l.y <;> simp
  by_cases c1 : cmd = c!"G28"
  · rw [if_pos c1, if_pos c1]
    simp only [ex, ey, l4]
    generalize (!(truthy l.x || truthy l.y || truthy l.z)) = all
    by_cases k1 : (all || l.x.isSome) = true <;> by_cases k2 : (all || l.y.isSome) = true <;> by_cases k3 : (all || l.z.isSome) = true <;>
      simp only [k1, k2, k3, if_true, if_false, Bool.false_eq_true] <;>
      first
        | exact ⟨m1, m1', m2, m3, m4, m5, m6, m7, m8, m9, m10, m11⟩
        | exact ⟨m1, m1', m2, m3, m4, rfl, m6, m7, m8, m9, rfl, m11⟩
  rw [if_neg c1, if_neg c1]
  by_cases c2 : cmd = c!"G92"
  · rw [if_pos c2, if_pos c2]
    simp only [ex, ey, l4]
    cases l.x <;> cases l.y <;> cases l.z <;>
      first
        | exact ⟨m1, m1', m2, m3, m4, m5, m6, m7, m8, m9, m10, m11⟩
        | exact ⟨m1, m1', m2, m3, m4, m5, m6, m7, m8, m9, by simp only [m5], m11⟩
  · rw [if_neg c2, if_neg c2]; exact hm0

theorem stepExtrusion_shift {m m' : Machine α} (hm : MachRel m m') {l l' : PyLine α} (hl : ArgShift a b l l') (cmd : Str) :
    MachRel (stepExtrusion m l cmd).1 (stepExtrusion m' l' cmd).1 ∧ ArgShift a b (stepExtrusion m l cmd).2 (stepExtrusion m' l' cmd).2 ∧
    (stepExtrusion m l cmd).2.x = l.x ∧ (stepExtrusion m l cmd).2.y = l.y := by
  have hl0 := hl
  have hm0 := hm
  obtain ⟨l1, l2, l3, l4, l5, l6, l7, l8, l9, l10⟩ := hl
  obtain ⟨m1, m1', m2, m3, m4, m5, m6, m7, m8, m9, m10, m11⟩ := hm
  unfold stepExtrusion
  rw [l5]
  cases he : l.e with
  | none => exact ⟨hm0, hl0, rfl, rfl⟩
  | some e =>
    simp only [l7, l9]
    by_cases c0 : l.isMove = true
    · rw [if_pos c0, if_pos c0]
      by_cases c1 : l.relativeE.getD false = true
      · rw [if_pos c1, if_pos c1]
        exact ⟨⟨m1, m1', m2, m3, m4, m5, by simp only [m6], by simp only [m7], by simp only [m7, m8], m9, m10, m11⟩,
          ⟨l1, l2, l3, l4, rfl, l6, rfl, l8, rfl, rfl⟩, rfl, rfl⟩
      · rw [if_neg c1, if_neg c1]
        exact ⟨⟨m1, m1', m2, m3, m4, m5, by simp only [m11], by simp only [m7, m6, m11], by simp only [m7, m8, m6, m11], m9, m10, m11⟩,
          ⟨l1, l2, l3, l4, rfl, l6, rfl, l8, rfl, by simp only [m6, m11]⟩, rfl, rfl⟩
    · rw [if_neg c0, if_neg c0]
      by_cases c1 : cmd = c!"G92"
      · rw [if_pos c1, if_pos c1]
        exact ⟨⟨m1, m1', m2, m3, m4, m5, m6, m7, m8, m9, m10, rfl⟩, hl0, rfl, rfl⟩
      · rw [if_neg c1, if_neg c1]
        exact ⟨hm0, hl0, rfl, rfl⟩

theorem processCore_shift (home : Home α) {m m' : Machine α} (hm : MachRel m m') {l l' : PyLine α} (hl : ArgShift a b l l') {ts ts' : List Tok}
    (ht : List.Forall₂ (TokShift a b) ts ts') (hmv : l.isMove = true ∨ a = 0 ∧ b = 0) (h20 : l.command ≠ some c!"G20") :
    SameEnd (fun p q => MachRel p.1 q.1 ∧ ArgShift a b p.2 q.2 ∧
        ((∀ c, l.command = some c → c.head? ≠ some 'G') → p.2.x = l.x ∧ p.2.y = l.y) ∧
        (∀ c, l.command = some c → c.head? = some 'G' → ∃ u v : PyLine α, u.x = l.x ∧ u.y = l.y ∧ ts.foldlM (parseTok 1) u = .ok v ∧
          v.x = p.2.x ∧ v.y = p.2.y))
      (processCore home m l ts) (processCore home m' l' ts') := by
  unfold processCore
  rw [hl.command]
  cases hc : l.command with
  | none => exact ⟨hm, hl, fun _ => ⟨rfl, rfl⟩, fun c k => by cases k⟩
  | some cmd =>
    simp only
    by_cases he : cmd.isEmpty = true
    · rw [if_pos he, if_pos he]
      refine ⟨hm, hl, fun _ => ⟨rfl, rfl⟩, fun c k kg => ?_⟩
      cases k
      rw [List.isEmpty_iff] at he
      subst he
      cases kg
    rw [if_neg he, if_neg he]
    have hcmd : cmd ≠ c!"G20" := fun k => h20 (by rw [hc, k])
    have hfield : ∀ p, stepModes m l cmd = .ok p → p.2.x = l.x ∧ p.2.y = l.y ∧ p.2.command = l.command := by
      intro p hp
      unfold stepModes at hp
      split_ifs at hp <;> first | (cases hp; exact ⟨rfl, rfl, rfl⟩) | (cases hi : parseInt cmd.tail <;> rw [hi] at hp <;> cases hp; exact ⟨rfl, rfl, rfl⟩)
    rcases (stepModes_shift hm hl hcmd).outcomes with ⟨e, k1, k2⟩ | ⟨⟨n, r⟩, ⟨n', r'⟩, k1, k2, k3, k4, k5⟩
    · rw [k1, k2]; exact rfl
    · obtain ⟨fx, fy, fc⟩ := hfield _ k1
      rw [k1, k2]
      simp only at k3 k4 k5 fx fy fc ⊢
      rw [k3.metric, k3.metric']
      by_cases hg : cmd.head? = some 'G'
      · rw [if_pos hg, if_pos hg]
        rcases (parseCoordinates_shift ht k4).outcomes with ⟨e, j1, j2⟩ | ⟨s, s', j1, j2, j3⟩
        · rw [j1, j2]; exact rfl
        · rw [j1, j2]
          simp only
          have hfold : ts.foldlM (parseTok 1) r = .ok s := by
            unfold parseCoordinates at j1
            rw [fc, hc] at j1
            simp only at j1
            rw [if_neg (by simpa using hg)] at j1
            exact j1
          have hsm : s.isMove = l.isMove := by
            obtain ⟨_, _, _, _, _, _, _, hs⟩ := parseCoordinates_argsOnly j1
            rw [← k5, hs]
          have hst := stepPos_shift home k3 j3 cmd (by rw [hsm]; exact hmv)
          obtain ⟨q1, q2, q3, q4⟩ := stepExtrusion_shift hst (l := stamp (stepPos home n s cmd) s) (l' := stamp (stepPos home n' s' cmd) s')
            ⟨j3.command, j3.x, j3.y, j3.z, j3.e, j3.f, j3.isMove, j3.relative, j3.relativeE, j3.extruding⟩ cmd
          refine ⟨q1, ⟨q2.command, q2.x, q2.y, q2.z, q2.e, q2.f, q2.isMove, q2.relative, q2.relativeE, q2.extruding⟩,
            fun k => absurd hg (k _ rfl), fun _ _ _ => ⟨r, s, fx, fy, hfold, q3.symm, q4.symm⟩⟩
      · rw [if_neg hg, if_neg hg]
        simp only
        have hst := stepPos_shift home k3 k4 cmd (by rw [k5]; exact hmv)
        obtain ⟨q1, q2, q3, q4⟩ := stepExtrusion_shift hst (l := stamp (stepPos home n r cmd) r) (l' := stamp (stepPos home n' r' cmd) r')
          ⟨k4.command, k4.x, k4.y, k4.z, k4.e, k4.f, k4.isMove, k4.relative, k4.relativeE, k4.extruding⟩ cmd
        refine ⟨q1, ⟨q2.command, q2.x, q2.y, q2.z, q2.e, q2.f, q2.isMove, q2.relative, q2.relativeE, q2.extruding⟩,
          fun _ => ⟨by rw [← fx]; exact q3, by rw [← fy]; exact q4⟩, fun c kc kg => ?_⟩
        cases kc
        exact absurd kg hg

theorem split_fields (l : PyLine α) : (split l).1.x = l.x ∧ (split l).1.y = l.y := by
  unfold split
  cases dropN (findall (lower l.raw)) with
  | nil => exact ⟨rfl, rfl⟩
  | cons t ts =>
    cases t with
    | none => exact ⟨rfl, rfl⟩
    | some w => exact ⟨rfl, rfl⟩

theorem split_cmdOf (r : Str) : CmdOf r (split ({ raw := r } : PyLine α)).1.command := by
  unfold CmdOf split toksOf
  simp only
  cases dropN (findall (lower r)) with
  | nil => exact .inr ⟨[], .nil, by simp⟩
  | cons t ts =>
    cases t with
    | none => rfl
    | some w => rfl

theorem ArgShift.refl (l : PyLine α) : ArgShift 0 0 l l :=
  ⟨rfl, by cases l.x <;> simp, by cases l.y <;> simp, rfl, rfl, rfl, rfl, rfl, rfl, rfl⟩

theorem processCore_nones (home : Home α) (m : Machine α) (l : PyLine α) (ts : List Tok) (j : ℕ) :
    processCore home m l (ts ++ List.replicate j none) = processCore home m l ts := by
  have h : ∀ (l : PyLine α) imp, parseCoordinates l (ts ++ List.replicate j none) imp = parseCoordinates l ts imp := by
    intro l imp
    unfold parseCoordinates
    simp only [fold_nones]
  unfold processCore
  simp only [h]

theorem toksOf_mem {r : Str} {t : Tok} (h : t ∈ toksOf r) : t ∈ findall (lower r) := by
  unfold toksOf dropN at h
  split at h
  · split_ifs at h
    · rename_i heq _; rw [heq]; exact List.mem_cons_of_mem _ h
    · rename_i heq _; rw [heq]; exact h
  · exact h

theorem processLine_moved {dx dy : α} (home : Home α) {m m' : Machine α} (hm : MachRel m m') {r r' : Str} (h : MovedMove dx dy r r') :
    SameEnd (fun p q => MachRel p.1 q.1 ∧ Shift dx dy p.2 q.2 ∧ XYMove p.2) (processLine home m { raw := r }) (processLine home m' { raw := r' }) := by
  obtain ⟨n, hd, hd', t, ts, ts', hn, e1, e2, hne, hne', hb, hb', ht, ht1, ht2, hts, hx, hy⟩ := movedMove_toks h
  obtain ⟨j, hj⟩ := toksOf_marks ht hb.clean.1 hb.clean.2
  obtain ⟨j', hj'⟩ := toksOf_marks ht hb'.clean.1 hb'.clean.2
  rw [← e1, ht1, List.cons_append] at hj
  rw [← e2, ht2, List.cons_append] at hj'
  have hG : Char.toUpper 'g' = 'G' := by decide
  have hmv : moveGcodes.contains ('G' :: n) = true := by rcases hn with rfl | rfl <;> decide
  have s1 := split_eq ({ raw := r } : PyLine α) hj
  have s2 := split_eq ({ raw := r' } : PyLine α) hj'
  simp only [hG] at s1 s2
  have hcore := processCore_shift (a := dx) (b := dy) home hm
    (l := { ({ raw := r } : PyLine α) with command := some ('G' :: n), isMove := moveGcodes.contains ('G' :: n) })
    (l' := { ({ raw := r' } : PyLine α) with command := some ('G' :: n), isMove := moveGcodes.contains ('G' :: n) })
    ⟨rfl, rfl, rfl, rfl, rfl, rfl, rfl, rfl, rfl, rfl⟩
    (ts := some ('g', n) :: ts) (ts' := some ('g', n) :: ts') (.cons (.same _ (by intro k; simp) (by intro k; simp)) hts) (.inl hmv)
    (by rcases hn with rfl | rfl <;> simp)
  rw [← processCore_nones _ _ _ _ j, ← processCore_nones _ m' _ _ j', List.cons_append, List.cons_append] at hcore
  have p1 : processLine home m ({ raw := r } : PyLine α) = _ := processLine_eq_core home m _
  have p2 : processLine home m' ({ raw := r' } : PyLine α) = _ := processLine_eq_core home m' _
  rw [s1] at p1
  rw [s2] at p2
  rw [← p1, ← p2] at hcore
  rcases hcore.outcomes with ⟨e, k1, k2⟩ | ⟨p, q, k1, k2, k3, k4, _, k6⟩
  · rw [k1, k2]; exact rfl
  · rw [k1, k2]
    obtain ⟨u, v, ux, uy, hf, vx, vy⟩ := k6 _ rfl rfl
    obtain ⟨_, _, f3, f4, _⟩ := fold_places hf
    have kp := processLine_keeps k1
    have kq := processLine_keeps k2
    have hX : p.2.x.isSome = true := by
      rw [← vx]
      obtain ⟨w, hw, hw'⟩ := hx
      exact f3 ⟨w, List.mem_cons_of_mem _ hw, hw'⟩
    have hC : p.2.command = some ('G' :: n) := by rw [kp.2.1, s1]
    refine ⟨k3, .moved n hd hd' t ts ts' hn (by rw [kp.1, ← e1]) (by rw [kq.1, ← e2]) hne hne' hb hb' ht ht1 ht2 hts k4 hC hX ?_, ?_, .inl fun k => by rw [k] at hX; cases hX⟩
    · rw [← vy]
      obtain ⟨w, hw, hw'⟩ := hy
      exact f4 ⟨w, List.mem_cons_of_mem _ hw, hw'⟩
    · rcases hn with rfl | rfl
      · exact .inl hC
      · exact .inr hC

theorem processLine_shift {dx dy : α} (home : Home α) {m m' : Machine α} (hm : MachRel m m') {r r' : Str} (h : Elsewhere dx dy r r') :
    SameEnd (fun p q => MachRel p.1 q.1 ∧ Shift dx dy p.2 q.2) (processLine home m { raw := r }) (processLine home m' { raw := r' }) := by
  rcases h with h | ⟨rfl, hp, hn, hnl⟩
  · exact (processLine_moved home hm h).mono fun _ _ k => ⟨k.1, k.2.1⟩
  · obtain ⟨g1, g2⟩ := hp _ ((findall_reads (lower r') _).1 rfl)
    have hcmd : (split ({ raw := r' } : PyLine α)).1.command = commandOf r' (findall (lower r')) :=
      C76_command (α := α) r' _ ((findall_reads (lower r') _).1 rfl)
    have hcore := processCore_shift (a := (0 : α)) (b := 0) home hm (ArgShift.refl (split ({ raw := r' } : PyLine α)).1)
      (ts := (split ({ raw := r' } : PyLine α)).2) (ts' := (split ({ raw := r' } : PyLine α)).2)
      (List.forall₂_same.2 fun t _ => TokShift.refl t) (.inr ⟨rfl, rfl⟩) (by rw [hcmd]; exact g1)
    rw [← processLine_eq_core, ← processLine_eq_core] at hcore
    rcases hcore.outcomes with ⟨e, k1, k2⟩ | ⟨p, q, k1, k2, k3, k4, k5, k6⟩
    · rw [k1, k2]; exact rfl
    · rw [k1, k2]
      have kp := processLine_keeps k1
      have kq := processLine_keeps k2
      refine ⟨k3, .kept r' [] (by rw [kp.1, List.append_nil]) (by rw [kq.1, List.append_nil]) .nil hn hnl hp (by rw [kp.2.1]; exact split_cmdOf r') k4 ?_⟩
      rintro ⟨k, hk⟩
      have hG : ∃ c, (split ({ raw := r' } : PyLine α)).1.command = some c ∧ c.head? = some 'G' := by
        rw [← kp.2.1]
        rcases k with k | k
        · exact ⟨_, k, rfl⟩
        · exact ⟨_, k, rfl⟩
      obtain ⟨c, hc1, hc2⟩ := hG
      obtain ⟨u, v, ux, uy, hf, vx, vy⟩ := k6 c hc1 hc2
      obtain ⟨_, _, _, _, _, f6, f7⟩ := fold_places hf
      have hno := g2 (by rw [← hcmd, ← kp.2.1]; exact k)
      have hin : ∀ c m, some (c, m) ∈ (split ({ raw := r' } : PyLine α)).2 → some (c, m) ∈ findall (lower r') := by
        intro c m hm
        apply toksOf_mem
        unfold toksOf
        have : (split ({ raw := r' } : PyLine α)).2 = dropN (findall (lower r')) := by
          unfold split
          simp only
          cases dropN (findall (lower r')) with
          | nil => rfl
          | cons t ts => rfl
        rw [← this]; exact hm
      have sf := split_fields ({ raw := r' } : PyLine α)
      rw [← vx, ← vy, f6 (fun m hm => (hno m).1 (hin _ _ hm)), f7 (fun m hm => (hno m).2 (hin _ _ hm)), ux, uy, sf.1, sf.2] at hk
      rcases hk with hk | hk <;> exact hk rfl

end process

/-! ### layers -/

/-- Closed layers: the same heights, shifted lines. -/
def LayersAlike (dx dy : α) : List (Layer α) → List (Layer α) → Prop :=
  List.Forall₂ (fun L L' => L'.z = L.z ∧ List.Forall₂ (Shift dx dy) L.lines L'.lines)

/-- The states of the layer detection. -/
structure LayerRel (dx dy : α) (s s' : LayerSt α) : Prop where
  layers : LayersAlike dx dy s.allLayers s'.allLayers
  lastZ : s'.lastLayerZ = s.lastLayerZ
  prevZ : s'.prevZ = s.prevZ
  prevBase : s'.prevBaseZ = s.prevBaseZ
  curZ : s'.curZ = s.curZ
  cur : List.Forall₂ (Shift dx dy) s.curLines s'.curLines
  est : s'.est = s.est

section layers

variable {dx dy : α}

theorem estimateHeight_shift (mode : RoundMode) {a b : List (Layer α)} (h : LayersAlike dx dy a b) : estimateHeight mode b = estimateHeight mode a := by
  unfold estimateHeight
  have : b.filterMap (·.z) = a.filterMap (·.z) := by
    unfold LayersAlike at h
    induction h with
    | nil => rfl
    | cons h1 _ ih => rw [List.filterMap_cons, List.filterMap_cons, h1.1, ih]
  rw [this]

theorem baseZ_shift (mode : RoundMode) {s s' : LayerSt α} (h : LayerRel dx dy s s') : baseZ mode s' = baseZ mode s := by
  unfold baseZ
  rw [h.prevZ, h.lastZ, h.est, estimateHeight_shift mode h.layers]

theorem nextCurZ_shift (c : Option α) {l l' : PyLine α} (h : Shift dx dy l l') : nextCurZ c l' = nextCurZ c l := by
  obtain ⟨a, b, ha⟩ := h.args
  unfold nextCurZ
  rw [ha.z, h.isCmd, ha.isMove, ha.relative]

theorem stepLayer_shift (mode : RoundMode) {s s' : LayerSt α} (h : LayerRel dx dy s s') {l l' : PyLine α} (hl : Shift dx dy l l') (t b t' b' : α) :
    LayerRel dx dy (stepLayer mode s l t b).1 (stepLayer mode s' l' t' b').1 := by
  have h1 : LayerRel dx dy { s with curZ := nextCurZ s.curZ l } { s' with curZ := nextCurZ s'.curZ l' } :=
    ⟨h.layers, h.lastZ, h.prevZ, h.prevBase, by simp only [h.curZ, nextCurZ_shift _ hl], h.cur, h.est⟩
  have hb := baseZ_shift mode h1
  unfold stepLayer
  simp only [hb]
  simp only [h.curZ, nextCurZ_shift _ hl, h.prevZ, h.prevBase]
  by_cases c1 : nextCurZ s.curZ l ≠ s.prevZ
  · rw [if_pos c1, if_pos c1]
    generalize baseZ mode { s with curZ := nextCurZ s.curZ l } = q
    obtain ⟨bz, est⟩ := q
    simp only
    by_cases c2 : some bz ≠ s.prevBaseZ
    · rw [if_pos c2, if_pos c2]
      exact ⟨List.rel_append h.layers (.cons ⟨rfl, h.cur⟩ .nil), rfl, rfl, rfl, rfl, .nil, rfl⟩
    · rw [if_neg c2, if_neg c2]
      exact ⟨h.layers, h.lastZ, rfl, rfl, rfl, h.cur, rfl⟩
  · rw [if_neg c1, if_neg c1]
    exact ⟨h.layers, h.lastZ, rfl, rfl, rfl, h.cur, h.est⟩

theorem recordLine_shift {s s' : LayerSt α} (h : LayerRel dx dy s s') {l l' : PyLine α} (hl : Shift dx dy l l') :
    LayerRel dx dy (recordLine s l) (recordLine s' l') :=
  ⟨h.layers, h.lastZ, h.curZ, h.prevBase, h.curZ, List.rel_append h.cur (.cons hl .nil), h.est⟩

/-- The states of the loading loop. -/
def BuildRel (dx dy : α) (s s' : BuildSt α) : Prop := MachRel s.m s'.m ∧ LayerRel dx dy s.ls s'.ls

theorem buildStep_shift (env : Env α) (home : Home α) {s s' t t' : BuildSt α} (h : BuildRel dx dy s s') {r r' : Str} (hr : Elsewhere dx dy r r')
    (ht : buildStep env false home s { raw := r } = .ok t) (ht' : buildStep env false home s' { raw := r' } = .ok t') : BuildRel dx dy t t' := by
  unfold buildStep at ht ht'
  rcases (processLine_shift home h.1 hr).outcomes with ⟨e, k1, k2⟩ | ⟨⟨m, l⟩, ⟨m', l'⟩, k1, k2, k3, k4⟩
  · rw [k1] at ht; cases ht
  · rw [k1] at ht
    rw [k2] at ht'
    simp only at k3 k4 ht ht'
    obtain ⟨a, b, ha⟩ := k4.args
    rw [ha.command] at ht'
    cases hc : l.command with
    | none =>
      rw [hc] at ht ht'
      cases ht; cases ht'
      exact ⟨k3, recordLine_shift h.2 k4⟩
    | some cmd =>
      rw [hc] at ht ht'
      simp only at ht ht'
      by_cases he : cmd.isEmpty = true
      · rw [if_pos he] at ht ht'
        cases ht; cases ht'
        exact ⟨k3, recordLine_shift h.2 k4⟩
      · rw [if_neg he] at ht ht'
        cases hd : stepDur env s.ds l with
        | error er => rw [hd] at ht; cases ht
        | ok d =>
          cases hd' : stepDur env s'.ds l' with
          | error er => rw [hd'] at ht'; cases ht'
          | ok d' =>
            rw [hd] at ht
            rw [hd'] at ht'
            cases ht; cases ht'
            refine ⟨k3, recordLine_shift (stepLayer_shift env.mode ?_ k4 _ _ _ _) k4⟩
            exact ⟨h.2.layers, h.2.lastZ, h.2.prevZ, h.2.prevBase, h.2.curZ, h.2.cur, h.2.est⟩

theorem build_shift (env : Env α) (home : Home α) {rs rs' : List Str} (hr : List.Forall₂ (Elsewhere dx dy) rs rs') :
    ∀ {s s' t t' : BuildSt α}, BuildRel dx dy s s' →
    (rs.map fun r => ({ raw := r } : PyLine α)).foldlM (buildStep env false home) s = .ok t →
    (rs'.map fun r => ({ raw := r } : PyLine α)).foldlM (buildStep env false home) s' = .ok t' → BuildRel dx dy t t' := by
  induction hr with
  | nil =>
    intro s s' t t' h ht ht'
    cases ht; cases ht'
    exact h
  | cons h1 _ ih =>
    intro s s' t t' h ht ht'
    rw [List.map_cons, List.foldlM_cons] at ht ht'
    simp only [bind, Except.bind] at ht ht'
    split at ht
    · cases ht
    split at ht'
    · cases ht'
    rename_i _ v hv _ v' hv'
    exact ih (buildStep_shift env home h h1 hv hv') ht ht'

theorem closeLast_shift {s s' : LayerSt α} (h : LayerRel dx dy s s') (t b t' b' : α) :
    LayersAlike dx dy (closeLast s t b).allLayers (closeLast s' t' b').allLayers := by
  have hlen := h.cur.length_eq
  unfold closeLast
  by_cases hc : s.curLines.isEmpty = true
  · have hc' : s'.curLines.isEmpty = true := by
      rw [List.isEmpty_iff] at hc ⊢
      rw [hc] at hlen
      exact List.eq_nil_of_length_eq_zero hlen.symm
    rw [if_pos hc, if_pos hc']; exact h.layers
  · have hc' : ¬ s'.curLines.isEmpty = true := by
      intro k
      apply hc
      rw [List.isEmpty_iff] at k ⊢
      rw [k] at hlen
      exact List.eq_nil_of_length_eq_zero hlen
    rw [if_neg hc, if_neg hc']
    exact List.rel_append h.layers (.cons ⟨h.prevZ, h.cur⟩ .nil)

theorem load_shift {env : Env α} {home : Home α} {data data' : List Str} {g g' : GCode α} (hg : GCode.load env data false home = .ok g)
    (hg' : GCode.load env data' false home = .ok g') (h : List.Forall₂ (Elsewhere dx dy) (g.lines.map (·.raw)) (g'.lines.map (·.raw))) :
    LayersShift dx dy g.allLayers g'.allLayers := by
  have nil : ∀ {d : List Str} {s : BuildSt α}, (readLines d).foldlM (buildStep env false home) (BuildSt.start (GCode.blank false home)) = .ok s →
      s.done = [] → (finalize (GCode.blank false home) s).allLayers = [{ lines := [], z := none, duration := some 0 }] := by
    intro d s hs hd
    have := fold_raws hs
    rw [hd] at this
    have hr : readLines d = ([] : List (PyLine α)) := by
      simpa [BuildSt.start, GCode.blank] using this.symm
    rw [hr] at hs
    cases hs
    rfl
  rcases load_ok hg with ⟨_, rfl⟩ | ⟨_, s, hs, rfl⟩
  · rcases load_ok hg' with ⟨_, rfl⟩ | ⟨_, s', hs', rfl⟩
    · exact .cons .nil .nil
    · have hd : s'.done = [] := by
        have h0 : List.Forall₂ (Elsewhere dx dy) [] (s'.done.map (·.raw)) := h
        have := h0.length_eq
        simpa using this.symm
      rw [nil hs' hd]
      exact .cons .nil .nil
  · rcases load_ok hg' with ⟨_, rfl⟩ | ⟨_, s', hs', rfl⟩
    · have hd : s.done = [] := by
        have h0 : List.Forall₂ (Elsewhere dx dy) (s.done.map (·.raw)) [] := h
        have := h0.length_eq
        simpa using this
      rw [nil hs hd]
      exact .cons .nil .nil
    · have r1 := fold_raws hs
      have r2 := fold_raws hs'
      have h0 : List.Forall₂ (Elsewhere dx dy) (s.done.map (·.raw)) (s'.done.map (·.raw)) := h
      rw [r1, r2] at h0
      have e : ∀ d : List Str, readLines (α := α) d = ((readLines (α := α) d).map (·.raw)).map (fun r => { raw := r }) := by
        intro d
        unfold readLines
        simp [Function.comp_def]
      have h1 : List.Forall₂ (Elsewhere dx dy) ((readLines (α := α) data).map (·.raw)) ((readLines (α := α) data').map (·.raw)) := h0
      rw [e data] at hs
      rw [e data'] at hs'
      have hb := build_shift env home h1 (s := BuildSt.start (GCode.blank false home)) (s' := BuildSt.start (GCode.blank false home))
        ⟨⟨rfl, rfl, rfl, rfl, rfl, rfl, rfl, rfl, rfl, rfl, rfl, rfl⟩, ⟨.nil, rfl, rfl, rfl, rfl, .nil, rfl⟩⟩ hs hs'
      have hc := closeLast_shift hb.2 s.ds.total s.ds.layerBegin s'.ds.total s'.ds.layerBegin
      have : LayersAlike dx dy (finalize (GCode.blank false home) s).allLayers (finalize (GCode.blank false home) s').allLayers :=
        List.rel_append hc (.cons ⟨rfl, .nil⟩ .nil)
      exact this.imp fun _ _ k => k.2

end layers

end GCodeUtils
