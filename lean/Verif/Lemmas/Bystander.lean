import Verif.Lemmas.Build
import Verif.Lemmas.Meaning
import Verif.Lemmas.Grammar
import Verif.Props.Grammar
import Verif.Props.Load
import Verif.Spec.Bystander

/-
  Loading a program with bystander lines added.
-/

set_option linter.unusedSectionVars false

namespace GCodeUtils

open Spec

variable {α : Type} [Field α] [LinearOrder α] [IsStrictOrderedRing α] [FloorRing α]

theorem Spec.Added.snoc {β : Type} {P : β → Prop} {a b : List β} (h : Added P a b) (x : β) : Added P (a ++ [x]) (b ++ [x]) := by
  induction h with
  | nil => exact .same x .nil
  | same y _ ih => exact .same y ih
  | extra y hy _ ih => exact .extra y hy ih

theorem Spec.Added.snoc_extra {β : Type} {P : β → Prop} {a b : List β} (h : Added P a b) {y : β} (hy : P y) : Added P a (b ++ [y]) := by
  induction h with
  | nil => exact .extra y hy .nil
  | same z _ ih => exact .same z ih
  | extra z hz _ ih => exact .extra z hz ih

theorem Spec.Added.ne_nil {β : Type} {P : β → Prop} {a b : List β} (h : Added P a b) (ha : a ≠ []) : b ≠ [] := by
  cases h with
  | nil => exact ha
  | same => simp
  | extra => simp

/-- Processing a bystander changes nothing. -/
theorem processLine_bystander {r : Str} (h : Bystander r) (home : Home α) (m : Machine α) :
    ∃ l : PyLine α, processLine home m { raw := r } = .ok (m, l) ∧ l.raw = r ∧ l.isMove = false ∧ l.z = none ∧ l.extruding = none ∧
      (∀ c, l.command = some c → c.head? ≠ some 'G') := by
  have hcmd : (split ({ raw := r } : PyLine α)).1.command = commandOf r (findall (lower r)) :=
    C76_command (α := α) r _ ((findall_reads (lower r) _).1 rfl)
  have hb := h _ ((findall_reads (lower r) _).1 rfl)
  have hfields : (split ({ raw := r } : PyLine α)).1.raw = r ∧ (split ({ raw := r } : PyLine α)).1.e = none ∧
      (split ({ raw := r } : PyLine α)).1.z = none ∧ (split ({ raw := r } : PyLine α)).1.extruding = none := by
    unfold split
    simp only
    cases dropN (findall (lower r)) with
    | nil => exact ⟨rfl, rfl, rfl, rfl⟩
    | cons t ts =>
      cases t with
      | none => exact ⟨rfl, rfl, rfl, rfl⟩
      | some w => exact ⟨rfl, rfl, rfl, rfl⟩
  have hmove : (split ({ raw := r } : PyLine α)).1.isMove = false := by
    have hq : ∀ c : Str, c.head? ≠ some 'G' → moveGcodes.contains c = false := by
      intro c hc
      by_contra hk
      rw [Bool.not_eq_false, List.contains_iff_mem] at hk
      simp only [moveGcodes, List.mem_cons, List.not_mem_nil, or_false] at hk
      rcases hk with rfl | rfl | rfl | rfl <;> exact hc rfl
    rw [← hcmd] at hb
    revert hb
    unfold split
    simp only
    cases dropN (findall (lower r)) with
    | nil => intro _; rfl
    | cons t ts =>
      cases t with
      | none => intro _; rfl
      | some w => intro hb; exact hq _ (hb _ rfl).1
  obtain ⟨f1, f2, f3, f4⟩ := hfields
  rw [processLine_eq_core]
  unfold processCore
  rw [← hcmd] at hb
  generalize hs : (split ({ raw := r } : PyLine α)).1 = l at *
  cases hc : l.command with
  | none => exact ⟨l, rfl, f1, hmove, f3, f4, fun c k => by rw [hc] at k; cases k⟩
  | some cmd =>
    obtain ⟨b1, b2, b3, b4⟩ := hb cmd hc
    simp only
    by_cases he : cmd.isEmpty = true
    · rw [if_pos he]
      exact ⟨l, rfl, f1, hmove, f3, f4, fun c k => by rw [hc] at k; cases k; exact b1⟩
    · rw [if_neg he]
      have hg : ∀ n : Str, cmd ≠ 'G' :: n := by rintro n rfl; exact b1 rfl
      have hm : stepModes m l cmd = .ok (m, l) := by
        unfold stepModes
        rw [if_neg (by rw [hmove]; simp), if_neg (hg _), if_neg (hg _), if_neg (hg _), if_neg (hg _), if_neg b3, if_neg b4, if_neg b2]
      rw [hm]
      simp only
      rw [if_neg b1]
      simp only
      have hp : stepPos home m l cmd = m := by
        unfold stepPos
        rw [if_neg (by rw [hmove]; simp), if_neg (hg _), if_neg (hg _)]
      rw [hp]
      have hx : stepExtrusion m (stamp m l) cmd = (m, stamp m l) := by
        unfold stepExtrusion
        have : (stamp m l).e = none := f2
        rw [this]
      rw [hx]
      exact ⟨_, rfl, f1, hmove, f3, f4, fun c k => by
        have k' : l.command = some c := k
        rw [hc] at k'; cases k'; exact b1⟩

/-- The states of the loading loop, without and with the added lines. -/
structure MoreRel (s s' : BuildSt α) : Prop where
  m : s'.m = s.m
  bb : s'.bb = s.bb
  ds : s'.ds = s.ds
  layers : List.Forall₂ LayerWithMore s.ls.allLayers s'.ls.allLayers
  zs : s'.ls.allZs = s.ls.allZs
  lastZ : s'.ls.lastLayerZ = s.ls.lastLayerZ
  prevZ : s'.ls.prevZ = s.ls.prevZ
  prevBase : s'.ls.prevBaseZ = s.ls.prevBaseZ
  curZ : s'.ls.curZ = s.ls.curZ
  settled : s.ls.prevZ = s.ls.curZ
  cur : Added (fun l => Bystander l.raw) s.ls.curLines s'.ls.curLines
  ext : s'.ls.hasExtrusion = s.ls.hasExtrusion
  est : s'.ls.est = s.ls.est
  done : Added (fun l => Bystander l.raw) s.done s'.done
  some_line : s.done ≠ [] → s.ls.curLines ≠ []

theorem estimateHeight_more (mode : RoundMode) {a b : List (Layer α)} (h : List.Forall₂ LayerWithMore a b) : estimateHeight mode b = estimateHeight mode a := by
  unfold estimateHeight
  have : b.filterMap (·.z) = a.filterMap (·.z) := by
    induction h with
    | nil => rfl
    | cons h1 _ ih => rw [List.filterMap_cons, List.filterMap_cons, h1.1, ih]
  rw [this]

theorem buildStep_extra {env : Env α} {light : Bool} {home : Home α} {s s' : BuildSt α} (h : MoreRel s s') {r : Str} (hr : Bystander r) :
    ∃ t, buildStep env light home s' { raw := r } = .ok t ∧ MoreRel s t := by
  obtain ⟨l, h1, h2, h3, h4, h5, h6⟩ := processLine_bystander hr home s'.m
  have hst : Bystander (if light = true then ({ raw := r } : PyLine α) else l).raw := by
    by_cases hl : light = true
    · rw [if_pos hl]; exact hr
    · rw [if_neg hl, h2]; exact hr
  unfold buildStep
  rw [h1]
  simp only
  cases hc : l.command with
  | none =>
    refine ⟨_, rfl, ⟨h.m, h.bb, h.ds, h.layers, h.zs, h.lastZ, ?_, h.prevBase, h.curZ, h.settled, h.cur.snoc_extra hst, h.ext, h.est, h.done.snoc_extra hst, h.some_line⟩⟩
    exact h.curZ.trans h.settled.symm
  | some cmd =>
    simp only
    by_cases he : cmd.isEmpty = true
    · rw [if_pos he]
      refine ⟨_, rfl, ⟨h.m, h.bb, h.ds, h.layers, h.zs, h.lastZ, ?_, h.prevBase, h.curZ, h.settled, h.cur.snoc_extra hst, h.ext, h.est, h.done.snoc_extra hst, h.some_line⟩⟩
      exact h.curZ.trans h.settled.symm
    · rw [if_neg he]
      have hg := h6 cmd hc
      have hcm : ∀ n : Str, l.isCmd ('G' :: n) = false := by
        intro n
        unfold PyLine.isCmd
        rw [hc]
        rw [beq_eq_false_iff_ne]
        rintro k
        cases k
        exact hg rfl
      have hd : stepDur env s'.ds l = .ok s'.ds := by
        unfold stepDur
        rw [if_neg (by rw [hcm, hcm]; simp), if_neg (by rw [hcm]; simp)]
      have hbb : stepBBox s'.m.maxE s'.bb l = s'.bb := by
        unfold stepBBox
        rw [if_neg (by rw [h3]; simp)]
      rw [hd, hbb, h5]
      simp only [Option.getD_none, Bool.or_false]
      have hz : ∀ c, nextCurZ c l = c := by
        intro c; unfold nextCurZ; rw [h4]
      have hcz : s'.ls.curZ = s'.ls.prevZ := by rw [h.curZ, h.prevZ, h.settled]
      have hL : ∀ a b : α, stepLayer env.mode s'.ls l a b = (s'.ls, false) := by
        intro a b
        unfold stepLayer
        simp only [hz]
        rw [if_neg (by rw [hcz]; simp)]
      rw [hL]
      refine ⟨_, rfl, ⟨h.m, h.bb, h.ds, h.layers, h.zs, h.lastZ, ?_, h.prevBase, h.curZ, h.settled, h.cur.snoc_extra hst, h.ext, h.est, h.done.snoc_extra hst, h.some_line⟩⟩
      exact h.curZ.trans h.settled.symm

theorem buildStep_same {env : Env α} {light : Bool} {home : Home α} {s s' : BuildSt α} (h : MoreRel s s') (l0 : PyLine α) :
    (∃ e, buildStep env light home s l0 = .error e ∧ buildStep env light home s' l0 = .error e) ∨
    ∃ t t', buildStep env light home s l0 = .ok t ∧ buildStep env light home s' l0 = .ok t' ∧ MoreRel t t' := by
  unfold buildStep
  rw [h.m]
  cases hp : processLine home s.m l0 with
  | error e => exact .inl ⟨e, rfl, rfl⟩
  | ok q =>
    obtain ⟨m, l⟩ := q
    simp only
    generalize (if light = true then l0 else l) = st
    cases hc : l.command with
    | none =>
      exact .inr ⟨_, _, rfl, rfl, ⟨rfl, h.bb, h.ds, h.layers, h.zs, h.lastZ, h.curZ, h.prevBase, h.curZ, rfl, h.cur.snoc st, h.ext, h.est, h.done.snoc st, fun _ => by simp [recordLine]⟩⟩
    | some cmd =>
      simp only
      by_cases he : cmd.isEmpty = true
      · rw [if_pos he, if_pos he]
        exact .inr ⟨_, _, rfl, rfl, ⟨rfl, h.bb, h.ds, h.layers, h.zs, h.lastZ, h.curZ, h.prevBase, h.curZ, rfl, h.cur.snoc st, h.ext, h.est, h.done.snoc st, fun _ => by simp [recordLine]⟩⟩
      · rw [if_neg he, if_neg he, h.ds, h.bb, h.ext]
        cases hd : stepDur env s.ds l with
        | error e => exact .inl ⟨e, rfl, rfl⟩
        | ok ds =>
          simp only
          generalize (s.ls.hasExtrusion || l.extruding.getD false) = ex
          unfold stepLayer
          have hbz : baseZ env.mode { s'.ls with hasExtrusion := ex, curZ := nextCurZ s'.ls.curZ l } =
              baseZ env.mode { s.ls with hasExtrusion := ex, curZ := nextCurZ s.ls.curZ l } := by
            unfold baseZ
            simp only [h.prevZ, h.lastZ, h.est, estimateHeight_more env.mode h.layers]
          simp only [hbz]
          simp only [h.curZ, h.prevZ, h.prevBase]
          by_cases c1 : nextCurZ s.ls.curZ l ≠ s.ls.prevZ
          · rw [if_pos c1, if_pos c1]
            generalize baseZ env.mode { s.ls with hasExtrusion := ex, curZ := nextCurZ s.ls.curZ l } = q
            obtain ⟨bz, est⟩ := q
            simp only
            by_cases c2 : some bz ≠ s.ls.prevBaseZ
            · rw [if_pos c2, if_pos c2]
              exact .inr ⟨_, _, rfl, rfl, ⟨rfl, rfl, rfl, List.rel_append h.layers (.cons ⟨rfl, rfl, h.cur⟩ .nil), by simp [recordLine, h.zs], rfl, rfl, rfl, rfl, rfl, .same st .nil, rfl, rfl, h.done.snoc st, fun _ => by simp [recordLine]⟩⟩
            · rw [if_neg c2, if_neg c2]
              exact .inr ⟨_, _, rfl, rfl, ⟨rfl, rfl, rfl, h.layers, h.zs, h.lastZ, rfl, rfl, rfl, rfl, h.cur.snoc st, rfl, rfl, h.done.snoc st, fun _ => by simp [recordLine]⟩⟩
          · rw [if_neg c1, if_neg c1]
            exact .inr ⟨_, _, rfl, rfl, ⟨rfl, rfl, rfl, h.layers, h.zs, h.lastZ, rfl, rfl, rfl, rfl, h.cur.snoc st, rfl, h.est, h.done.snoc st, fun _ => by simp [recordLine]⟩⟩

theorem build_more {env : Env α} {light : Bool} {home : Home α} {rs rs' : List Str} (hr : Added Bystander rs rs') :
    ∀ {s s' : BuildSt α}, MoreRel s s' →
    (∃ e, (rs.map fun r => ({ raw := r } : PyLine α)).foldlM (buildStep env light home) s = .error e ∧
      (rs'.map fun r => ({ raw := r } : PyLine α)).foldlM (buildStep env light home) s' = .error e) ∨
    ∃ t t', (rs.map fun r => ({ raw := r } : PyLine α)).foldlM (buildStep env light home) s = .ok t ∧
      (rs'.map fun r => ({ raw := r } : PyLine α)).foldlM (buildStep env light home) s' = .ok t' ∧ MoreRel t t' := by
  induction hr with
  | nil => intro s s' h; exact .inr ⟨s, s', rfl, rfl, h⟩
  | same r _ ih =>
    intro s s' h
    simp only [List.map_cons, List.foldlM_cons, bind, Except.bind]
    rcases buildStep_same (env := env) (light := light) (home := home) h { raw := r } with ⟨e, h1, h2⟩ | ⟨t, t', h1, h2, h3⟩
    · rw [h1, h2]; exact .inl ⟨e, rfl, rfl⟩
    · rw [h1, h2]; exact ih h3
  | extra r hy _ ih =>
    intro s s' h
    obtain ⟨t, h1, h2⟩ := buildStep_extra (env := env) (light := light) (home := home) h hy
    simp only [List.map_cons, List.foldlM_cons, bind, Except.bind]
    rw [h1]
    exact ih h2

theorem readLines_more {data data' : List Str} (h : Added IdleText data data') :
    Added Bystander ((data.map strip).filter (fun s => !s.isEmpty)) ((data'.map strip).filter (fun s => !s.isEmpty)) := by
  induction h with
  | nil => exact .nil
  | same d _ ih =>
    simp only [List.map_cons, List.filter_cons]
    by_cases hd : (!(strip d).isEmpty) = true
    · rw [if_pos hd, if_pos hd]; exact .same _ ih
    · rw [if_neg hd, if_neg hd]; exact ih
  | extra d hy _ ih =>
    simp only [List.map_cons, List.filter_cons]
    by_cases hd : (!(strip d).isEmpty) = true
    · rw [if_pos hd]
      rcases hy with hy | ⟨s, hs, hb⟩
      · rw [(strip_eq_nil_iff d).2 hy] at hd; cases hd
      · rw [C01_strip_unique _ _ hs] at hb
        exact .extra _ hb ih
    · rw [if_neg hd]; exact ih

theorem finalize_more {g : GCode α} {s s' : BuildSt α} (h : MoreRel s s') (hs : s.done ≠ []) :
    SameFindings (finalize g s) (finalize g s') ∧ List.Forall₂ LayerWithMore (finalize g s).allLayers (finalize g s').allLayers ∧
    Added (fun l => Bystander l.raw) (finalize g s).lines (finalize g s').lines := by
  have hne := h.some_line hs
  have hne' := h.cur.ne_nil hne
  have cl : ∀ (t : LayerSt α) (x y : α), t.curLines ≠ [] → (closeLast t x y).allLayers = t.allLayers ++ [⟨t.curLines, t.prevZ, some (x - y)⟩] ∧
      (closeLast t x y).allZs = addZ t.hasExtrusion t.allZs t.prevZ ∧ (closeLast t x y).est = t.est := by
    intro t x y ht
    unfold closeLast
    rw [if_neg (by simpa [List.isEmpty_iff] using ht)]
    exact ⟨rfl, rfl, rfl⟩
  obtain ⟨a1, a2, a3⟩ := cl s.ls s.ds.total s.ds.layerBegin hne
  obtain ⟨b1, b2, b3⟩ := cl s'.ls s.ds.total s.ds.layerBegin hne'
  rw [h.zs, h.prevZ, h.ext] at b2
  rw [h.prevZ] at b1
  rw [h.est] at b3
  refine ⟨?_, ?_, h.done⟩
  · unfold finalize
    simp only [SameFindings, h.m, h.bb, h.ds, a2, a3, b2, b3, and_self]
  · unfold finalize
    simp only [h.ds, a1, b1]
    have c1 : LayerWithMore ⟨s.ls.curLines, s.ls.prevZ, some (s.ds.total - s.ds.layerBegin)⟩ ⟨s'.ls.curLines, s.ls.prevZ, some (s.ds.total - s.ds.layerBegin)⟩ := ⟨rfl, rfl, h.cur⟩
    have c2 : LayerWithMore (⟨[], none, some 0⟩ : Layer α) ⟨[], none, some 0⟩ := ⟨rfl, rfl, .nil⟩
    exact List.rel_append (List.rel_append h.layers (.cons c1 .nil)) (.cons c2 .nil)

theorem more_start (g : GCode α) : MoreRel (BuildSt.start g) (BuildSt.start g) :=
  ⟨rfl, rfl, rfl, .nil, rfl, rfl, rfl, rfl, rfl, rfl, .nil, rfl, rfl, .nil, fun h => absurd rfl h⟩

end GCodeUtils
