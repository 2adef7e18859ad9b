import Verif.Spec.Inches
import Verif.Lemmas.Meaning
import Verif.Props.Grammar
import Verif.Lemmas.Simulate

/-
  Reading a program in inches and the same program in millimetres.
-/

set_option linter.unusedSectionVars false

namespace GCodeUtils

open Spec

variable {α : Type} [Field α] [LinearOrder α] [IsStrictOrderedRing α] [FloorRing α]

/-- The machine in millimetres. -/
def inMm (m : Machine α) : Machine α := { m with imperial := false }

/-- The result of a line, in millimetres and with another text. -/
def mmRaw (r : Str) (p : Machine α × PyLine α) : Machine α × PyLine α := (inMm p.1, withRaw r p.2)

theorem parseTok_inch {t t' : Tok} (h : InchWord α t t') (l : PyLine α) (r : Str) :
    parseTok (1 : α) (withRaw r l) t' = (parseTok (254 / 10 : α) l t).map (withRaw r) := by
  cases h with
  | comment => rfl
  | code k n hk =>
    unfold parseTok
    have : nonArgLetters.contains k = true := by simpa [nonArgLetters] using hk
    simp only [this]; rfl
  | bare k => unfold parseTok; simp; rfl
  | number k n n' v hk h1 h2 =>
    have p1 := (parseFloat_iff n v).2 h1
    have p2 := (parseFloat_iff n' (254 / 10 * v)).2 h2
    have e1 : n.isEmpty = false := by
      cases n with
      | nil => simp [parseFloat, parseUFloat] at p1
      | cons a b => rfl
    have e2 : n'.isEmpty = false := by
      cases n' with
      | nil => simp [parseFloat, parseUFloat] at p2
      | cons a b => rfl
    have : nonArgLetters.contains k = false := by simpa [nonArgLetters] using hk
    unfold parseTok
    simp only [this, e1, e2, p1, p2, one_mul]
    simp only [Bool.not_false, Bool.and_self, if_true, Except.map]
    congr 1
    rcases l with ⟨raw, command, x, y, z, e, f, i, j, im, rel, relE, cx, cy, cz, ce, cf, ct, ex⟩
    unfold PyLine.setArg withRaw
    split_ifs <;> rfl

theorem foldTok_inch {ts ts' : List Tok} (h : List.Forall₂ (InchWord α) ts ts') (r : Str) : ∀ l : PyLine α,
    ts'.foldlM (parseTok (1 : α)) (withRaw r l) = (ts.foldlM (parseTok (254 / 10 : α)) l).map (withRaw r) := by
  induction h with
  | nil => intro l; rfl
  | cons h _ ih =>
    intro l
    rw [List.foldlM_cons, List.foldlM_cons, parseTok_inch h]
    cases parseTok (254 / 10 : α) l _ with
    | error er => rfl
    | ok l' => exact ih l'

theorem stepPos_inMm (home : Home α) (m : Machine α) (l : PyLine α) (cmd : Str) :
    stepPos home (inMm m) l cmd = inMm (stepPos home m l cmd) := by
  unfold stepPos inMm
  simp only
  cases l.x <;> cases l.y <;> cases l.z <;> simp only <;> split_ifs <;> rfl

theorem stepExtrusion_inMm (m : Machine α) (l : PyLine α) (cmd : Str) :
    stepExtrusion (inMm m) l cmd = (inMm (stepExtrusion m l cmd).1, (stepExtrusion m l cmd).2) := by
  unfold stepExtrusion inMm
  cases l.e with
  | none => rfl
  | some e => simp only; split_ifs <;> rfl

theorem stepModes_inMm {m : Machine α} {l : PyLine α} {cmd : Str} (h1 : cmd ≠ c!"G20") (h2 : cmd ≠ c!"G21") (r : Str) :
    stepModes (inMm m) (withRaw r l) cmd = (stepModes m l cmd).map (mmRaw r) := by
  unfold stepModes
  have : (withRaw r l).isMove = l.isMove := rfl
  rw [this]
  by_cases hm : l.isMove = true
  · rw [if_pos hm, if_pos hm]; rfl
  · rw [if_neg hm, if_neg hm, if_neg h1, if_neg h1, if_neg h2, if_neg h2]
    split_ifs
    · rfl
    · rfl
    · rfl
    · rfl
    · cases parseInt cmd.tail <;> rfl
    · rfl

theorem stepModes_imp {m m' : Machine α} {l l' : PyLine α} {cmd : Str} (h1 : cmd ≠ c!"G20") (h2 : cmd ≠ c!"G21")
    (h : stepModes m l cmd = .ok (m', l')) : m'.imperial = m.imperial := by
  unfold stepModes at h
  rw [if_neg h1, if_neg h2] at h
  split_ifs at h
  · simp only [Except.ok.injEq, Prod.mk.injEq] at h; rw [← h.1]
  · simp only [Except.ok.injEq, Prod.mk.injEq] at h; rw [← h.1]
  · simp only [Except.ok.injEq, Prod.mk.injEq] at h; rw [← h.1]
  · simp only [Except.ok.injEq, Prod.mk.injEq] at h; rw [← h.1]
  · simp only [Except.ok.injEq, Prod.mk.injEq] at h; rw [← h.1]
  · cases hp : parseInt cmd.tail with
    | none => rw [hp] at h; simp at h
    | some t => rw [hp] at h; simp only [Except.ok.injEq, Prod.mk.injEq] at h; rw [← h.1]
  · simp only [Except.ok.injEq, Prod.mk.injEq] at h; rw [← h.1]

theorem processCore_inch (home : Home α) {m : Machine α} (hm : m.imperial = true) (l : PyLine α) (r : Str) {ts ts' : List Tok}
    (h : List.Forall₂ (InchWord α) ts ts') (h1 : l.command ≠ some c!"G20") (h2 : l.command ≠ some c!"G21") :
    processCore home (inMm m) (withRaw r l) ts' = (processCore home m l ts).map (mmRaw r) := by
  unfold processCore
  have : (withRaw r l).command = l.command := rfl
  rw [this]
  cases hc : l.command with
  | none => rfl
  | some cmd =>
    rw [hc] at h1 h2
    have h1' : cmd ≠ c!"G20" := fun e => h1 (by rw [e])
    have h2' : cmd ≠ c!"G21" := fun e => h2 (by rw [e])
    simp only
    by_cases he : cmd.isEmpty = true
    · rw [if_pos he, if_pos he]; rfl
    · rw [if_neg he, if_neg he, stepModes_inMm h1' h2']
      cases hs : stepModes m l cmd with
      | error er => rfl
      | ok p =>
        obtain ⟨m1, l1⟩ := p
        have hi : m1.imperial = true := (stepModes_imp h1' h2' hs).trans hm
        simp only [Except.map, mmRaw]
        have hpc : (if cmd.head? = some 'G' then parseCoordinates (withRaw r l1) ts' (inMm m1).imperial
            else .ok (withRaw r l1)) =
            (if cmd.head? = some 'G' then parseCoordinates l1 ts m1.imperial else .ok l1).map (withRaw r) := by
          split_ifs
          · unfold parseCoordinates
            have : (withRaw r l1).command = l1.command := rfl
            rw [this, hi]
            cases l1.command with
            | none => rfl
            | some c =>
              simp only
              split_ifs
              · rfl
              · rename_i hx; exact absurd hx (by simp [inMm])
              · exact foldTok_inch h r l1
          · rfl
        rw [hpc]
        cases (if cmd.head? = some 'G' then parseCoordinates l1 ts m1.imperial else .ok l1) with
        | error er => rfl
        | ok l2 =>
          simp only [Except.map]
          rw [stepPos_inMm]
          have e1 : stepPos home m1 (withRaw r l2) cmd = stepPos home m1 l2 cmd := rfl
          have e2 : stamp (inMm (stepPos home m1 l2 cmd)) (withRaw r l2) = withRaw r (stamp (stepPos home m1 l2 cmd) l2) := rfl
          rw [e1, e2, stepExtrusion_inMm, stepExtrusion_withRaw]
          rfl

theorem dropN_inch {ts ts' : List Tok} (h : List.Forall₂ (InchWord α) ts ts') : List.Forall₂ (InchWord α) (dropN ts) (dropN ts') := by
  cases h with
  | nil => exact .nil
  | cons h1 h2 =>
    cases h1 with
    | comment => exact .cons .comment h2
    | code k n hk =>
      unfold dropN
      simp only
      split_ifs
      · exact h2
      · exact .cons (.code k n hk) h2
    | bare k =>
      unfold dropN
      simp only
      split_ifs
      · exact h2
      · exact .cons (.bare k) h2
    | number k n n' v hk d1 d2 =>
      unfold dropN
      have : k ≠ 'n' := by rintro rfl; exact hk (by decide)
      simp only [if_neg this]
      exact .cons (.number k n n' v hk d1 d2) h2

theorem split_inch {r s : Str} {ws vs : List Tok} (h1 : Reads letters true (lower r) ws) (h2 : Reads letters true (lower s) vs)
    (h : List.Forall₂ (InchWord α) ws vs) (hc : commandOf r ws = commandOf s vs) :
    (split ({ raw := s } : PyLine α)).1 = withRaw s (split ({ raw := r } : PyLine α)).1 ∧
    (split ({ raw := r } : PyLine α)).1.command = commandOf r ws ∧
    List.Forall₂ (InchWord α) (split ({ raw := r } : PyLine α)).2 (split ({ raw := s } : PyLine α)).2 := by
  have f1 := (findall_reads _ _).2 h1
  have f2 := (findall_reads _ _).2 h2
  have hd := dropN_inch h
  have hcs : ∀ {q : Str} {us : List Tok}, findall (lower q) = us → (split ({ raw := q } : PyLine α)).1.command = commandOf q us := by
    intro q us hq
    unfold split commandOf
    simp only [hq]
    rw [← afterNumber_eq]
    cases dropN us with
    | nil => rfl
    | cons t rest => cases t with
      | none => rfl
      | some w => rfl
  have c1 := hcs f1
  have c2 := hcs f2
  refine ⟨?_, c1, ?_⟩
  · have hc' : (split ({ raw := s } : PyLine α)).1.command = (split ({ raw := r } : PyLine α)).1.command := by rw [c1, c2, hc]
    clear c1 c2 hcs
    unfold split at hc' ⊢
    simp only [f1, f2] at hc' ⊢
    cases hws : dropN ws with
    | nil =>
      rw [hws] at hd hc'
      cases hvs : dropN vs with
      | nil =>
        rw [hvs] at hc'
        simp only [Option.some.injEq] at hc'
        simp only [withRaw, hc']
      | cons t rest => rw [hvs] at hd; cases hd
    | cons t rest =>
      rw [hws] at hd hc'
      cases hvs : dropN vs with
      | nil => rw [hvs] at hd; cases hd
      | cons t' rest' =>
        rw [hvs] at hd hc'
        cases hd with
        | cons hw _ =>
          cases t with
          | none => cases hw; rfl
          | some w =>
            cases t' with
            | none => cases hw
            | some w' =>
              simp only [Option.some.injEq] at hc'
              simp only [withRaw, PyLine.inMoves, hc']
  · unfold split
    simp only [f1, f2]
    cases hws : dropN ws with
    | nil =>
      rw [hws] at hd
      cases hvs : dropN vs with
      | nil => exact .nil
      | cons t rest => rw [hvs] at hd; cases hd
    | cons t rest =>
      rw [hws] at hd
      cases hvs : dropN vs with
      | nil => rw [hvs] at hd; cases hd
      | cons t' rest' => rw [hvs] at hd; exact hd

theorem process_inch (home : Home α) {m : Machine α} (hm : m.imperial = true) {r s : Str} (h : InchLine α r s) :
    processLine home (inMm m) { raw := s } = (processLine home m { raw := r }).map (mmRaw s) := by
  obtain ⟨ws, vs, h1, h2, h3, h4, h5, h6, _⟩ := h
  obtain ⟨e1, e2, e3⟩ := split_inch h1 h2 h3 h4
  rw [processLine_eq_core, processLine_eq_core, e1]
  exact processCore_inch home hm _ s e3 (by rw [e2]; exact h5) (by rw [e2]; exact h6)

/-- The text matters to the duration only for `G4`. -/
theorem stepDur_text (env : Env α) (d : DurSt α) (l : PyLine α) (r : Str) (h : l.command = some c!"G4" → l.raw = r) :
    stepDur env d (withRaw r l) = stepDur env d l := by
  by_cases h4 : l.command = some c!"G4"
  · have : withRaw r l = l := by rw [← h h4]; rfl
    rw [this]
  · unfold stepDur
    have e0 : (withRaw r l).isCmd c!"G0" = l.isCmd c!"G0" := rfl
    have e1 : (withRaw r l).isCmd c!"G1" = l.isCmd c!"G1" := rfl
    have e4 : (withRaw r l).isCmd c!"G4" = l.isCmd c!"G4" := rfl
    have hn : ¬ l.isCmd c!"G4" = true := by simpa [PyLine.isCmd] using h4
    rw [e0, e1, e4]
    split_ifs
    · rfl
    · rfl

/-- Layers of related lines. -/
def LayerWith (R : PyLine α → PyLine α → Prop) (L L' : Layer α) : Prop :=
  L'.z = L.z ∧ L'.duration = L.duration ∧ List.Forall₂ R L.lines L'.lines

/-- Layer constructions on related lines. -/
structure LsWith (R : PyLine α → PyLine α → Prop) (s s' : LayerSt α) : Prop where
  rest : s' = { s with allLayers := s'.allLayers, curLines := s'.curLines }
  layers : List.Forall₂ (LayerWith R) s.allLayers s'.allLayers
  cur : List.Forall₂ R s.curLines s'.curLines

theorem forall₂_snoc {β γ : Type} {R : β → γ → Prop} {a : List β} {b : List γ} (h : List.Forall₂ R a b) {x : β} {y : γ} (hx : R x y) :
    List.Forall₂ R (a ++ [x]) (b ++ [y]) := List.rel_append h (.cons hx .nil)

theorem estimateHeight_with {R : PyLine α → PyLine α → Prop} (mode : RoundMode) {a b : List (Layer α)} (h : List.Forall₂ (LayerWith R) a b) :
    estimateHeight mode b = estimateHeight mode a := by
  have : b.filterMap (·.z) = a.filterMap (·.z) := by
    induction h with
    | nil => rfl
    | cons h _ ih => rw [List.filterMap_cons, List.filterMap_cons, h.1, ih]
  unfold estimateHeight
  rw [this]

theorem stepLayer_with {R : PyLine α → PyLine α → Prop} (mode : RoundMode) {s s' : LayerSt α} (h : LsWith R s s') (l : PyLine α) (t b : α) :
    (stepLayer mode s' l t b).2 = (stepLayer mode s l t b).2 ∧ LsWith R (stepLayer mode s l t b).1 (stepLayer mode s' l t b).1 := by
  obtain ⟨hr, hl, hc⟩ := h
  obtain ⟨al, az, li, ni, id, ll, lz, pz, pb, cz, cl, he, es⟩ := s
  obtain ⟨al', az', li', ni', id', ll', lz', pz', pb', cz', cl', he', es'⟩ := s'
  simp only [LayerSt.mk.injEq, true_and] at hr
  obtain ⟨rfl, rfl, rfl, rfl, rfl, rfl, rfl, rfl, rfl, rfl, rfl⟩ := hr
  simp only at hl hc
  have hb : baseZ mode (⟨al', az', li', ni', id', ll', lz', pz', pb', nextCurZ cz' l, cl', he', es'⟩ : LayerSt α) =
      baseZ mode ⟨al, az', li', ni', id', ll', lz', pz', pb', nextCurZ cz' l, cl, he', es'⟩ := by
    unfold baseZ
    simp only [estimateHeight_with mode hl]
  unfold stepLayer
  simp only
  rw [hb]
  split_ifs
  · refine ⟨rfl, rfl, ?_, .nil⟩
    exact forall₂_snoc hl ⟨rfl, rfl, hc⟩
  · exact ⟨rfl, rfl, hl, hc⟩
  · exact ⟨rfl, rfl, hl, hc⟩

theorem recordLine_with {R : PyLine α → PyLine α → Prop} {s s' : LayerSt α} (h : LsWith R s s') {l l' : PyLine α} (hl : R l l') :
    LsWith R (recordLine s l) (recordLine s' l') := by
  obtain ⟨hr, h1, h2⟩ := h
  refine ⟨?_, h1, forall₂_snoc h2 hl⟩
  unfold recordLine
  rw [hr]

/-- The loops, in inches and in millimetres. -/
structure UnitRel (s s' : BuildSt α) : Prop where
  imp : s.m.imperial = true
  m : s'.m = inMm s.m
  bb : s'.bb = s.bb
  ds : s'.ds = s.ds
  ls : LsWith SameButUnit s.ls s'.ls
  done : List.Forall₂ SameButUnit s.done s'.done

theorem buildStep_inch {env : Env α} {light : Bool} {home : Home α} {s s' : BuildSt α} (h : UnitRel s s') {r t : Str} (hr : InchLine α r t) :
    (∃ er, buildStep env light home s { raw := r } = .error er ∧ buildStep env light home s' { raw := t } = .error er) ∨
    ∃ u u', buildStep env light home s { raw := r } = .ok u ∧ buildStep env light home s' { raw := t } = .ok u' ∧ UnitRel u u' := by
  have hp := process_inch home h.imp hr
  unfold buildStep
  rw [h.m, hp]
  cases hq : processLine home s.m { raw := r } with
  | error er => exact .inl ⟨er, rfl, rfl⟩
  | ok p =>
    obtain ⟨m, l⟩ := p
    obtain ⟨ws, vs, h1, h2, h3, h4, h5, h6, h7⟩ := hr
    obtain ⟨e1, e2, e3⟩ := split_inch h1 h2 h3 h4
    obtain ⟨k1, k2, _⟩ := processLine_keeps hq
    have hm : m.imperial = true := by
      rw [(process_imperial hq).1, k2, e2, if_neg h5, if_neg h6]
      exact h.imp
    have hst : SameButUnit (if light then ({ raw := r } : PyLine α) else l) (if light then ({ raw := t } : PyLine α) else withRaw t l) := by
      cases light
      · exact .inl rfl
      · exact .inl rfl
    simp only [Except.map, mmRaw]
    have hcw : (withRaw t l).command = l.command := rfl
    rw [hcw]
    cases hc : l.command with
    | none =>
      exact .inr ⟨_, _, rfl, rfl, hm, rfl, h.bb, h.ds, recordLine_with h.ls hst, forall₂_snoc h.done hst⟩
    | some cmd =>
      simp only
      by_cases he : cmd.isEmpty = true
      · rw [if_pos he, if_pos he]
        exact .inr ⟨_, _, rfl, rfl, hm, rfl, h.bb, h.ds, recordLine_with h.ls hst, forall₂_snoc h.done hst⟩
      · rw [if_neg he, if_neg he, h.ds, stepDur_text env s.ds l t (by
          intro h4'
          rw [k2, e2] at h4'
          rw [k1]; exact h7 h4')]
        cases stepDur env s.ds l with
        | error er => exact .inl ⟨er, rfl, rfl⟩
        | ok ds =>
          simp only
          have hls : LsWith SameButUnit { s.ls with hasExtrusion := s.ls.hasExtrusion || l.extruding.getD false }
              { s'.ls with hasExtrusion := s'.ls.hasExtrusion || (withRaw t l).extruding.getD false } := by
            have hx : (withRaw t l).extruding = l.extruding := rfl
            obtain ⟨q1, q2, q3⟩ := h.ls
            refine ⟨?_, q2, q3⟩
            rw [q1, hx]
          have hz : ∀ (a : LayerSt α) (x y : α), stepLayer env.mode a (withRaw t l) x y = stepLayer env.mode a l x y := fun _ _ _ => rfl
          rw [hz]
          obtain ⟨w1, w2⟩ := stepLayer_with env.mode hls l ds.total ds.layerBegin
          refine .inr ⟨_, _, rfl, rfl, hm, rfl, ?_, ?_, recordLine_with w2 hst, forall₂_snoc h.done hst⟩
          · rw [h.bb]; rfl
          · rw [w1]

end GCodeUtils
