import Verif.Lemmas.MeasuredRel

/-
  The heights of a program, as the loader sees them, depend on the commands and the Z words.
-/

set_option linter.unusedSectionVars false

namespace GCodeUtils

open Spec

variable {α : Type} [Field α] [LinearOrder α] [IsStrictOrderedRing α] [FloorRing α]

/-- What a line does to distance mode, height and offset of the height. -/
def zAfter (home : Home α) (c : Option Str) (x y z : Option α) (s : Bool × α × α) : Bool × α × α :=
  if ∃ k ∈ [c!"G0", c!"G1", c!"G2", c!"G3"], c = some k then (s.1, moveAxis s.1 s.2.1 s.2.2 z, s.2.2)
  else if c = some c!"G90" then (false, s.2)
  else if c = some c!"G91" then (true, s.2)
  else if c = some c!"G28" then (if (!(truthy x || truthy y || truthy z) || z.isSome) = true then (s.1, home.z, 0) else s)
  else if c = some c!"G92" then (match z with | some k => (s.1, s.2.1, s.2.1 - k) | none => s)
  else s

/-- The part of the machine concerned. -/
def zState (m : Machine α) : Bool × α × α := (m.relative, m.currentZ, m.offsetZ)

theorem processLine_Z {home : Home α} {m n : Machine α} {r : Str} {l : PyLine α} (h : processLine home m { raw := r } = .ok (n, l)) :
    zState n = zAfter home l.command l.x l.y l.z (zState m) ∧ l.currentZ = (if l.command = none ∨ l.command = some [] then none else some n.currentZ) ∧
    (l.isMove = true → l.relative = some m.relative) := by
  have h0 : (split ({ raw := r } : PyLine α)).1.currentZ = none := by
    obtain ⟨c, b, hs⟩ := split_shape ({ raw := r } : PyLine α)
    rw [hs]
  have hk := processLine_keeps h
  have hmv := isMove_iff h
  rcases processLine_ok h with ⟨hn, rfl, rfl⟩ | ⟨cmd, hc, hne, m1, l1, l2, m3, l3, h1, h2, h3, rfl, rfl⟩
  · refine ⟨?_, by rw [if_pos hn, h0], fun k => ?_⟩
    · unfold zAfter
      rcases hn with hn | hn <;> rw [hn] <;> simp
    · rw [hmv] at k
      obtain ⟨c, hc, k⟩ := k
      rcases hn with hn | hn <;> rw [hn] at k
      · cases k
      · cases k; exact absurd hc (by decide)
  · have hcl : ({ l3 with currentE := some n.currentE } : PyLine α).command = some cmd := by rw [hk.2.1, hc]
    obtain ⟨x, y, z, e, f, i, j, k2⟩ := ite_coords_argsOnly h2
    obtain ⟨te, ce, me, oe, ex, q⟩ := stepExtrusion_shape (stepPos home m1 l2 cmd) (stamp (stepPos home m1 l2 cmd) l2) cmd
    rw [q] at h3
    simp only [Prod.mk.injEq] at h3
    obtain ⟨rfl, rfl⟩ := h3
    have hm2 : l2.isMove = l1.isMove ∧ l2.relative = l1.relative := by rw [k2]; exact ⟨rfl, rfl⟩
    refine ⟨?_, ?_, ?_⟩
    · rw [hcl]
      show zState (stepPos home m1 l2 cmd) = zAfter home (some cmd) l2.x l2.y l2.z (zState m)
      have hmv2 : l2.isMove = true ↔ ∃ c ∈ [c!"G0", c!"G1", c!"G2", c!"G3"], some cmd = some c := by rw [← hcl]; exact hmv
      unfold zAfter
      unfold stepModes at h1
      by_cases c0 : (split ({ raw := r } : PyLine α)).1.isMove = true
      · rw [if_pos c0] at h1
        cases h1
        have e0 : l2.isMove = true := by rw [hm2.1]; exact c0
        rw [if_pos (hmv2.1 e0)]
        unfold stepPos
        rw [if_pos e0, hm2.2]
        rfl
      · have e0 : ¬ l2.isMove = true := by
          intro k
          exact c0 (by rw [← hk.2.2]; exact k)
        rw [if_neg (fun k => e0 (hmv2.2 k))]
        rw [if_neg c0] at h1
        unfold stepPos
        rw [if_neg e0]
        have fin : ∀ {m1 : Machine α}, zState m1 = zState m → cmd ≠ c!"G90" → cmd ≠ c!"G91" →
            zState (if cmd = c!"G28" then
                let homeAll := !(truthy l2.x || truthy l2.y || truthy l2.z)
                let m := if homeAll || l2.x.isSome then { m1 with offsetX := 0, currentX := home.x } else m1
                let m := if homeAll || l2.y.isSome then { m with offsetY := 0, currentY := home.y } else m
                if homeAll || l2.z.isSome then { m with offsetZ := 0, currentZ := home.z } else m
              else if cmd = c!"G92" then
                let m := match l2.x with | some k => { m1 with offsetX := m1.currentX - k } | none => m1
                let m := match l2.y with | some k => { m with offsetY := m.currentY - k } | none => m
                match l2.z with | some k => { m with offsetZ := m.currentZ - k } | none => m
              else m1) = (if some cmd = some c!"G90" then (false, (zState m).2) else if some cmd = some c!"G91" then (true, (zState m).2)
                else if some cmd = some c!"G28" then (if (!(truthy l2.x || truthy l2.y || truthy l2.z) || l2.z.isSome) = true then ((zState m).1, home.z, 0) else zState m)
                else if some cmd = some c!"G92" then (match l2.z with | some k => ((zState m).1, (zState m).2.1, (zState m).2.1 - k) | none => zState m)
                else zState m) := by
          intro m1 hz n1 n2
          rw [if_neg (show ¬ some cmd = some c!"G90" by simpa using n1), if_neg (show ¬ some cmd = some c!"G91" by simpa using n2), ← hz]
          simp only [Option.some.injEq]
          by_cases c3 : cmd = c!"G28"
          · rw [if_pos c3, if_pos c3]
            split_ifs <;> rfl
          rw [if_neg c3, if_neg c3]
          by_cases c4 : cmd = c!"G92"
          · rw [if_pos c4, if_pos c4]
            cases l2.x <;> cases l2.y <;> cases l2.z <;> rfl
          rw [if_neg c4, if_neg c4]
        by_cases c1 : cmd = c!"G20"
        · rw [if_pos c1] at h1; cases h1
          exact fin rfl (by rw [c1]; decide) (by rw [c1]; decide)
        rw [if_neg c1] at h1
        by_cases c2 : cmd = c!"G21"
        · rw [if_pos c2] at h1; cases h1
          exact fin rfl (by rw [c2]; decide) (by rw [c2]; decide)
        rw [if_neg c2] at h1
        by_cases c3 : cmd = c!"G90"
        · rw [if_pos c3] at h1; cases h1
          rw [if_pos (congrArg some c3), if_neg (show ¬ cmd = c!"G28" by rw [c3]; decide), if_neg (show ¬ cmd = c!"G92" by rw [c3]; decide)]
          rfl
        rw [if_neg c3] at h1
        by_cases c4 : cmd = c!"G91"
        · rw [if_pos c4] at h1; cases h1
          rw [if_neg (show ¬ some cmd = some c!"G90" by simpa using c3), if_pos (congrArg some c4), if_neg (show ¬ cmd = c!"G28" by rw [c4]; decide), if_neg (show ¬ cmd = c!"G92" by rw [c4]; decide)]
          rfl
        rw [if_neg c4] at h1
        split_ifs at h1
        · cases h1; exact fin rfl c3 c4
        · cases h1; exact fin rfl c3 c4
        · split at h1
          · cases h1; exact fin rfl c3 c4
          · cases h1
        · cases h1; exact fin rfl c3 c4
    · rw [hcl, if_neg (by simpa using hne)]
      rfl
    · intro k
      have k' : l2.isMove = true := k
      show l2.relative = some m.relative
      rw [hm2.2]
      rcases stepModes_shape h1 with ⟨_, _, rfl⟩ | ⟨q2, rfl, _⟩
      · rfl
      · rw [hm2.1, q2] at k'; cases k'

/-- The same line, as far as heights are concerned; `M83` stands for `M82`. -/
structure Level (l l' : PyLine α) : Prop where
  command : l'.command = l.command ∨ l.command = some c!"M82" ∧ l'.command = some c!"M83"
  z : l'.command = l.command → l'.z = l.z
  home : l.command = some c!"G28" → l'.x = l.x ∧ l'.y = l.y

theorem zAfter_level (home : Home α) {l l' : PyLine α} (h : Level l l') (s : Bool × α × α) :
    zAfter home l'.command l'.x l'.y l'.z s = zAfter home l.command l.x l.y l.z s := by
  rcases h.command with k | ⟨k1, k2⟩
  · unfold zAfter
    rw [k, h.z k]
    by_cases c : l.command = some c!"G28"
    · rw [(h.home c).1, (h.home c).2]
    · simp only [if_neg c]
  · unfold zAfter
    rw [k1, k2]
    simp

theorem processLine_level {home : Home α} {m m' n n' : Machine α} {r r' : Str} {l l' : PyLine α} (h : processLine home m { raw := r } = .ok (n, l))
    (h' : processLine home m' { raw := r' } = .ok (n', l')) (hm : zState m' = zState m) (hl : Level l l') :
    zState n' = zState n ∧ l'.currentZ = l.currentZ ∧ l'.isMove = l.isMove ∧ (l.isMove = true → l'.relative = l.relative) := by
  obtain ⟨a1, a2, a3⟩ := processLine_Z h
  obtain ⟨b1, b2, b3⟩ := processLine_Z h'
  have e : zState n' = zState n := by rw [a1, b1, hm, zAfter_level home hl]
  have hi : l'.isMove = l.isMove := by
    rw [Bool.eq_iff_iff, isMove_iff h, isMove_iff h']
    rcases hl.command with k | ⟨k1, k2⟩
    · rw [k]
    · rw [k1, k2]; simp
  refine ⟨e, ?_, hi, fun k => ?_⟩
  · have hz : n'.currentZ = n.currentZ := congrArg (·.2.1) e
    rw [a2, b2, hz]
    rcases hl.command with k | ⟨k1, k2⟩
    · rw [k]
    · rw [k1, k2]; simp
  · rw [a3 k, b3 (by rw [hi]; exact k), show m'.relative = m.relative from congrArg (·.1) hm]

/-- The heights of the lines. -/
theorem run_level {home : Home α} (rs : List Str) : ∀ {rs' : List Str} {m m' n n' : Machine α} {ls ls' : List (PyLine α)},
    Run home m (bare rs) n ls → Run home m' (bare rs') n' ls' → zState m' = zState m → List.Forall₂ Level ls ls' →
    ls'.map (·.currentZ) = ls.map (·.currentZ) := by
  induction rs with
  | nil =>
    intro rs' m m' n n' ls ls' h h' _ hl
    cases h
    cases hl
    rfl
  | cons r rs ih =>
    intro rs' m m' n n' ls ls' h h' hm hl
    cases h with
    | cons hp hr =>
      cases hl with
      | cons a b =>
        cases rs' with
        | nil => cases h'
        | cons r' rs' =>
          cases h' with
          | cons hp' hr' =>
            obtain ⟨k1, k2, _⟩ := processLine_level hp hp' hm a
            rw [List.map_cons, List.map_cons, k2, ih hr hr' k1 b]

/-! ### the layers -/

theorem stepLayer_level (mode : RoundMode) {s s' : LayerSt α} (h : LayerSame False s s') {l l' : PyLine α} (hl : ∀ c, nextCurZ c l' = nextCurZ c l) (t b t' b' : α) :
    LayerSame False (stepLayer mode s l t b).1 (stepLayer mode s' l' t' b').1 := by
  have hz : nextCurZ s'.curZ l' = nextCurZ s.curZ l := by rw [h.curZ]; exact hl _
  have h1 : LayerSame False { s with curZ := nextCurZ s.curZ l } { s' with curZ := nextCurZ s'.curZ l' } :=
    ⟨h.layers, h.durations, h.zs, h.idxs, h.lidxs, h.id, h.line, h.lastZ, h.prevZ, h.prevBase, hz, h.cur, h.ext, h.est⟩
  have hb := baseZ_same mode h1
  unfold stepLayer
  simp only [hb]
  simp only [hz, h.prevZ, h.prevBase]
  by_cases c1 : nextCurZ s.curZ l ≠ s.prevZ
  · rw [if_pos c1, if_pos c1]
    generalize baseZ mode { s with curZ := nextCurZ s.curZ l } = q
    obtain ⟨bz, est⟩ := q
    simp only
    by_cases c2 : some bz ≠ s.prevBaseZ
    · rw [if_pos c2, if_pos c2]
      refine ⟨?_, fun k => k.elim, ?_, h.idxs, h.lidxs, ?_, rfl, rfl, rfl, rfl, rfl, rfl, rfl, rfl⟩
      · simp only [List.map_append, h.layers, List.map_cons, List.map_nil, h.cur]
      · simp only [h.ext, h.zs]
      · simp only [h.id]
    · rw [if_neg c2, if_neg c2]
      exact ⟨h.layers, h.durations, h.zs, h.idxs, h.lidxs, h.id, h.line, h.lastZ, rfl, rfl, rfl, h.cur, h.ext, rfl⟩
  · rw [if_neg c1, if_neg c1]
    exact ⟨h.layers, h.durations, h.zs, h.idxs, h.lidxs, h.id, h.line, h.lastZ, rfl, rfl, rfl, h.cur, h.ext, h.est⟩

/-- The extruder of the machine. -/
def eState (m : Machine α) : Bool × α × α := (m.relativeE, m.currentE, m.offsetE)

theorem processLine_feed {home : Home α} {m m' n n' : Machine α} {r r' : Str} {l l' : PyLine α} (h : processLine home m { raw := r } = .ok (n, l))
    (h' : processLine home m' { raw := r' } = .ok (n', l')) (hm : eState m' = eState m) (hi : l'.isMove = l.isMove) (hc : l'.command = l.command) (he : l'.e = l.e) :
    eState n' = eState n ∧ l'.extruding = l.extruding := by
  obtain ⟨a1, a2, a3, a4⟩ := processLine_E h
  obtain ⟨b1, b2, b3, b4⟩ := processLine_E h'
  simp only [eState, Prod.mk.injEq] at hm
  obtain ⟨m1, m2, m3⟩ := hm
  have hr : n'.relativeE = n.relativeE := by rw [a1, b1, hc, m1]
  have hp : ∀ e, pushed m' e = pushed m e := by intro e; unfold pushed; rw [m1, m2, m3]
  by_cases k : l.isMove = true
  · obtain ⟨p1, p2, p3⟩ := a2 k
    obtain ⟨q1, q2, q3⟩ := b2 (by rw [hi]; exact k)
    cases hv : l.e with
    | none =>
      obtain ⟨_, u2, _, u4⟩ := a3 (.inr hv)
      obtain ⟨_, v2, _, v4⟩ := b3 (.inr (by rw [he]; exact hv))
      exact ⟨by simp only [eState, hr, u2, v2, p2, q2, m2, m3], by rw [u4, v4]⟩
    | some e =>
      obtain ⟨_, u2, _, u4⟩ := p3 e hv
      obtain ⟨_, v2, _, v4⟩ := q3 e (by rw [he]; exact hv)
      exact ⟨by simp only [eState, hr, u2, v2, p2, q2, m2, m3, hp], by rw [u4, v4, hp]⟩
  · have k' : l.isMove = false := by simpa using k
    have k2 : l'.isMove = false := by rw [hi]; exact k'
    obtain ⟨_, u2, _, u4⟩ := a3 (.inl k')
    obtain ⟨_, v2, _, v4⟩ := b3 (.inl k2)
    exact ⟨by simp only [eState, hr, u2, v2, a4 k', b4 k2, m2, m3, hc, he], by rw [u4, v4]⟩

/-- The same line, as far as heights and filament are concerned. -/
def SameRise (l l' : PyLine α) : Prop := l'.command = l.command ∧ l'.z = l.z ∧ l'.e = l.e ∧ (l.command = some c!"G28" → l'.x = l.x ∧ l'.y = l.y)

theorem SameRise.level {l l' : PyLine α} (h : SameRise l l') : Level l l' := ⟨.inl h.1, fun _ => h.2.1, h.2.2.2⟩

theorem build_level {env : Env α} {home : Home α} (rs : List Str) : ∀ {rs' : List Str} {b b' c c' : BuildSt α} {ls ls' : List (PyLine α)} {n n' : Machine α},
    (bare rs).foldlM (buildStep env false home) b = .ok c → (bare rs').foldlM (buildStep env false home) b' = .ok c' →
    Run home b.m (bare rs) n ls → Run home b'.m (bare rs') n' ls' → zState b'.m = zState b.m → eState b'.m = eState b.m → LayerSame False b.ls b'.ls →
    List.Forall₂ SameRise ls ls' → LayerSame False c.ls c'.ls := by
  induction rs with
  | nil =>
    intro rs' b b' c c' ls ls' n n' hf hf' hr hr' _ _ hL hl
    cases hr
    cases hl
    cases hf
    cases rs' with
    | nil => cases hf'; exact hL
    | cons r rs' => cases hr'
  | cons r rs ih =>
    intro rs' b b' c c' ls ls' n n' hf hf' hr hr' hz he hL hl
    cases hr with
    | cons hp hr =>
      cases hl with
      | cons a as =>
        cases rs' with
        | nil => cases hr'
        | cons r' rs' =>
          cases hr' with
          | cons hp' hr' =>
            simp only [bare, List.map_cons] at hf hf'
            rw [foldlM_cons_ok] at hf hf'
            obtain ⟨b1, hb, hf⟩ := hf
            obtain ⟨b1', hb', hf'⟩ := hf'
            obtain ⟨m2, l2, q, hs⟩ := buildStep_ok hb
            obtain ⟨m2', l2', q', hs'⟩ := buildStep_ok hb'
            rw [q] at hp
            rw [q'] at hp'
            obtain ⟨rfl, rfl⟩ := Prod.mk.inj (Except.ok.inj hp)
            obtain ⟨rfl, rfl⟩ := Prod.mk.inj (Except.ok.inj hp')
            obtain ⟨k1, _, k3, k4⟩ := processLine_level q q' hz a.level
            obtain ⟨e1, e2⟩ := processLine_feed q q' he k3 a.1 a.2.2.1
            have hcur : ∀ c, nextCurZ c l2' = nextCurZ c l2 := by
              intro c
              unfold nextCurZ
              rw [a.2.1, k3, show l2'.isCmd c!"G92" = l2.isCmd c!"G92" by unfold PyLine.isCmd; rw [a.1]]
              cases l2.z with
              | none => rfl
              | some z =>
                simp only
                by_cases c1 : l2.isCmd c!"G92" = true
                · rw [if_pos c1, if_pos c1]
                rw [if_neg c1, if_neg c1]
                by_cases c2 : l2.isMove = true
                · rw [if_pos c2, if_pos c2, k4 c2]
                · rw [if_neg c2, if_neg c2]
            have h1 : LayerSame False { b.ls with hasExtrusion := b.ls.hasExtrusion || l2.extruding.getD false }
                { b'.ls with hasExtrusion := b'.ls.hasExtrusion || l2'.extruding.getD false } :=
              ⟨hL.layers, hL.durations, hL.zs, hL.idxs, hL.lidxs, hL.id, hL.line, hL.lastZ, hL.prevZ, hL.prevBase, hL.curZ, hL.cur, by simp only [hL.ext, e2], hL.est⟩
            have key : b1.m = m2 ∧ b1'.m = m2' ∧ LayerSame False b1.ls b1'.ls := by
              rcases hs with ⟨hc, rfl⟩ | ⟨cmd, ds, hc, hne, _, rfl⟩
              · rcases hs' with ⟨_, rfl⟩ | ⟨cmd', ds', hc', hne', _⟩
                · exact ⟨rfl, rfl, recordLine_same hL _ _⟩
                · rw [a.1] at hc'
                  rcases hc with hc | hc <;> rw [hc] at hc' <;> cases hc'
                  exact absurd rfl hne'
              · rcases hs' with ⟨hc', _⟩ | ⟨cmd', ds', _, _, _, rfl⟩
                · rw [a.1, hc] at hc'
                  rcases hc' with hc' | hc' <;> cases hc'
                  exact absurd rfl hne
                · exact ⟨rfl, rfl, recordLine_same (stepLayer_level env.mode h1 hcur _ _ _ _) _ _⟩
            obtain ⟨m1, m1', hL'⟩ := key
            subst m1
            subst m1'
            exact ih hf hf' hr hr' k1 e1 hL' as

/-- Two programs whose lines agree in commands, Z and E words have the same layers. -/
theorem load_level {env : Env α} {data data' : List Str} {home : Home α} {g g' : GCode α} (h : GCode.load env data false home = .ok g)
    (h' : GCode.load env data' false home = .ok g') (hne : g.lines ≠ []) (hl : List.Forall₂ SameRise g.lines g'.lines) :
    g'.allZs = g.allZs ∧ g'.zmax = g.zmax ∧ g'.allLayers.map (·.lines.length) = g.allLayers.map (·.lines.length) ∧
      g'.lines.map (·.currentZ) = g.lines.map (·.currentZ) := by
  obtain ⟨out, r1, o1⟩ := load_run' h
  obtain ⟨out', r1', o1'⟩ := load_run' h'
  rw [← o1 rfl] at r1
  rw [← o1' rfl] at r1'
  have hcz := run_level _ r1 r1' rfl (hl.imp fun _ _ k => k.level)
  have e1 : (readLines data : List (PyLine α)) = bare (g.lines.map (·.raw)) := by rw [load_raws h]; rfl
  have e2 : (readLines data' : List (PyLine α)) = bare (g'.lines.map (·.raw)) := by rw [load_raws h']; rfl
  rcases load_ok h with ⟨_, rfl⟩ | ⟨_, s, hs, hg⟩
  · exact absurd rfl hne
  rcases load_ok h' with ⟨_, rfl⟩ | ⟨_, s', hs', hg'⟩
  · cases hl' : g.lines with
    | nil => exact absurd hl' hne
    | cons a as => rw [hl'] at hl; cases hl
  rw [e1] at hs
  rw [e2] at hs'
  have hL := build_level _ hs hs' r1 r1' rfl rfl ⟨rfl, fun k => k.elim, rfl, rfl, rfl, rfl, rfl, rfl, rfl, rfl, rfl, rfl, rfl, rfl⟩ hl
  have L := closeLast_same hL (t := s.ds.total) (b := s.ds.layerBegin) (t' := s'.ds.total) (b' := s'.ds.layerBegin) (fun k => k.elim)
  refine ⟨by rw [hg, hg']; exact L.zs, by rw [hg, hg']; simp only [finalize, L.zs], ?_, hcz⟩
  have := congrArg (List.map Prod.snd) L.layers
  simp only [List.map_map] at this
  rw [hg, hg']
  simp only [finalize, List.map_append]
  rw [show (fun L : Layer α => L.lines.length) = Prod.snd ∘ (fun L : Layer α => (L.z, L.lines.length)) from rfl, this]

end GCodeUtils
