import Verif.Spec.LayerTime
import Verif.Lemmas.Duration
import Verif.Lemmas.Filter

/-
  The duration estimate of the loader, line by line and layer by layer.
-/

set_option linter.unusedSectionVars false

namespace GCodeUtils

open Spec

variable {α : Type} [Field α] [LinearOrder α] [IsStrictOrderedRing α] [FloorRing α]

/-- The state after a list of lines. -/
def paceAfter (p : Pace α) (ls : List (PyLine α)) : Pace α := ls.foldl Pace.next p

theorem lineTimes_append (hyp : α → α → α) (a b : List (PyLine α)) : ∀ p : Pace α,
    lineTimes hyp p (a ++ b) = lineTimes hyp p a ++ lineTimes hyp (paceAfter p a) b := by
  induction a with
  | nil => intro p; rfl
  | cons l a ih => intro p; simp only [List.cons_append, lineTimes, ih]; rfl

theorem lineTimes_length (hyp : α → α → α) (a : List (PyLine α)) : ∀ p : Pace α, (lineTimes hyp p a).length = a.length := by
  induction a with
  | nil => intro p; rfl
  | cons l a ih => intro p; simp [lineTimes, ih]

theorem timeUpTo_append {hyp : α → α → α} {a b : List (PyLine α)} {n : ℕ} (h : n ≤ a.length) :
    timeUpTo hyp (a ++ b) n = timeUpTo hyp a n := by
  unfold timeUpTo
  rw [lineTimes_append, List.take_append_of_le_length (by rw [lineTimes_length]; exact h)]

theorem timeUpTo_all {hyp : α → α → α} {a : List (PyLine α)} {n : ℕ} (h : a.length ≤ n) :
    timeUpTo hyp a n = (lineTimes hyp .rest a).sum := by
  unfold timeUpTo
  rw [List.take_of_length_le (by rw [lineTimes_length]; exact h)]

theorem moveDuration_ramp {v0 v s T : α} (h : moveDuration v0 v s = .ok T) : T = rampTime v0 v s := by
  have hd : 2 * |((v0 + v) * (v - v0) * (1 / 2)) / (acceleration : α)| = |v ^ 2 - v0 ^ 2| / 2000 := by
    have : ((v0 + v) * (v - v0) * (1 / 2)) / (acceleration : α) = (v ^ 2 - v0 ^ 2) / 4000 := by
      unfold acceleration; ring
    rw [this, abs_div, abs_of_pos (by norm_num : (0 : α) < 4000)]
    ring
  unfold moveDuration at h
  unfold rampTime
  simp only at h ⊢
  rw [hd] at h
  by_cases h1 : v = v0
  · rw [if_pos h1] at h ⊢
    simp only [Except.ok.injEq] at h
    rw [← h]
    split_ifs with h2
    · rfl
    · rw [not_not.1 h2]; simp
  · rw [if_neg h1] at h ⊢
    by_cases h3 : v0 + v = 0
    · simp [h3] at h
    · by_cases h2 : |v ^ 2 - v0 ^ 2| / 2000 ≤ s ∧ v ≠ 0
      · rw [if_pos ⟨h2.1, h3, h2.2⟩] at h
        rw [if_pos h2]
        simp only [Except.ok.injEq] at h
        rw [← h]
        field_simp
      · rw [if_neg (fun hh => h2 ⟨hh.1, hh.2.2⟩), if_neg h3] at h
        rw [if_neg h2]
        simp only [Except.ok.injEq] at h
        rw [← h]
        field_simp

/-- The estimate of the loader remembers the same things. -/
structure Paced (p : Pace α) (d : DurSt α) : Prop where
  x : d.lastx = p.x
  y : d.lasty = p.y
  z : d.lastz = p.z
  e : d.laste = p.e
  dx : d.lastdx = p.dx
  dy : d.lastdy = p.dy
  v : d.lastf = p.v

theorem travel_length {env : Env α} {p : Pace α} {d : DurSt α} {l : PyLine α} (hp : Paced p d) :
    moveTravel env d l (l.x.getD p.x - p.x) (l.y.getD p.y - p.y) = paceLength env.hypot p l := by
  unfold moveTravel paceLength
  simp only
  by_cases h0 : env.hypot (l.x.getD p.x - p.x) (l.y.getD p.y - p.y) = 0
  · rw [if_pos h0, if_neg (not_not.2 h0), hp.z, hp.e]
    cases l.z with
    | some z =>
      simp only
      cases l.relative with
      | none => simp
      | some b => cases b <;> simp
    | none =>
      cases l.e with
      | some e =>
        simp only
        cases l.relativeE with
        | none => simp
        | some b => cases b <;> simp
      | none => exact h0
  · rw [if_neg h0, if_pos h0]

theorem stepDur_pace {env : Env α} {p : Pace α} {d d' : DurSt α} {l : PyLine α} (hp : Paced p d) (h : stepDur env d l = .ok d') :
    Paced (p.next l) d' ∧ d'.total = d.total + lineTime env.hypot p l := by
  unfold stepDur at h
  by_cases h1 : (l.isCmd c!"G0" || l.isCmd c!"G1") = true
  · have hL : Linear l := by
      rw [Bool.or_eq_true, isCmd_iff, isCmd_iff] at h1; exact h1
    rw [if_pos h1] at h
    simp only at h
    split at h
    · simp at h
    · next T hT =>
      simp only [Except.ok.injEq] at h
      subst h
      have hT : moveDuration (if (l.x.getD d.lastx - d.lastx) * d.lastdx + (l.y.getD d.lasty - d.lasty) * d.lastdy ≤ 0 then 0 else d.lastf)
          ((l.f.map (· / 60)).getD d.lastf) (moveTravel env d l (l.x.getD d.lastx - d.lastx) (l.y.getD d.lasty - d.lasty)) = .ok T := by
        rw [← hT]; cases l.f <;> rfl
      rw [hp.x, hp.y, hp.dx, hp.dy, travel_length hp] at hT
      have hs : (if (l.x.getD p.x - p.x) * p.dx + (l.y.getD p.y - p.y) * p.dy ≤ 0 then (0 : α) else d.lastf)
          = if 0 < (l.x.getD p.x - p.x) * p.dx + (l.y.getD p.y - p.y) * p.dy then p.v else 0 := by
        rw [hp.v]
        by_cases hq : (l.x.getD p.x - p.x) * p.dx + (l.y.getD p.y - p.y) * p.dy ≤ 0
        · rw [if_pos hq, if_neg (not_lt.2 hq)]
        · rw [if_neg hq, if_pos (not_le.1 hq)]
      rw [hs, hp.v] at hT
      have hn : p.next l = { x := l.x.getD p.x, y := l.y.getD p.y, z := l.z.getD p.z, e := l.e.getD p.e
                             dx := l.x.getD p.x - p.x, dy := l.y.getD p.y - p.y, v := (l.f.map (· / 60)).getD p.v } := by
        unfold Pace.next; rw [if_pos hL]
      refine ⟨?_, ?_⟩
      · rw [hn]
        exact ⟨by simp [hp.x], by simp [hp.y], by simp [hp.z], by simp [hp.e], by simp [hp.x], by simp [hp.y],
          by rw [hp.v]; cases l.f <;> rfl⟩
      · unfold lineTime
        rw [if_pos hL, hn, moveDuration_ramp hT]
  · have hL : ¬ Linear l := by
      intro hh; apply h1; rw [Bool.or_eq_true, isCmd_iff, isCmd_iff]; exact hh
    have hn : p.next l = p := by unfold Pace.next; rw [if_neg hL]
    have ht : lineTime env.hypot p l = dwell l := by unfold lineTime; rw [if_neg hL]
    rw [if_neg h1] at h
    rw [hn, ht]
    by_cases h4 : l.isCmd c!"G4" = true
    · rw [if_pos h4] at h
      have h4' := (isCmd_iff _ _).1 h4
      cases hv : (findSpecificCode l.raw 'P' : Except Err (Option α)) with
      | error e => rw [hv] at h; simp at h
      | ok o =>
        rw [hv] at h
        have hdw := dwell_step hv h4'
        cases o with
        | none =>
          simp only [Except.ok.injEq] at h; subst h
          refine ⟨hp, ?_⟩
          rw [hdw]; simp
        | some q =>
          simp only [Except.ok.injEq] at h
          subst h
          rw [hdw]
          by_cases hq : q = 0
          · rw [if_neg (not_not.2 hq)]
            exact ⟨hp, by simp [hq]⟩
          · rw [if_pos hq]
            exact ⟨⟨hp.x, hp.y, hp.z, hp.e, hp.dx, hp.dy, hp.v⟩, rfl⟩
    · rw [if_neg h4] at h
      simp only [Except.ok.injEq] at h; subst h
      refine ⟨hp, ?_⟩
      unfold dwell
      rw [if_neg (fun hh => h4 ((isCmd_iff _ _).2 hh))]; simp

/-- The closed layers carry the times that the specification gives them, and the layer under construction began when they
were over. -/
structure Clocked (hyp : α → α → α) (s : BuildSt α) : Prop where
  pace : Paced (paceAfter .rest s.done) s.ds
  total : s.ds.total = (lineTimes hyp .rest s.done).sum
  flat : s.done.length = lineCount s.ls.allLayers + s.ls.curLines.length
  cur : s.ls.allLayers ≠ [] → s.ls.curLines ≠ []
  began : s.ds.layerBegin = overAt hyp s.done s.ls.allLayers
  each : ∀ pre L post, s.ls.allLayers = pre ++ L :: post →
    L.duration = some (overAt hyp s.done (pre ++ [L]) - overAt hyp s.done pre)

theorem lineCount_append (a b : List (Layer α)) : lineCount (a ++ b) = lineCount a + lineCount b := by
  simp [lineCount]

theorem overAt_append {hyp : α → α → α} {a b : List (PyLine α)} {Ls : List (Layer α)} (h : Ls ≠ [] → lineCount Ls + 1 ≤ a.length) :
    overAt hyp (a ++ b) Ls = overAt hyp a Ls := by
  unfold overAt
  split_ifs with h0
  · rfl
  · exact timeUpTo_append (h h0)

/-- Enough lines have been read for the end of each closed layer to be known. -/
theorem Clocked.enough {hyp : α → α → α} {s : BuildSt α} (h : Clocked hyp s) {Ls post : List (Layer α)}
    (hs : s.ls.allLayers = Ls ++ post) (hne : Ls ≠ []) : lineCount Ls + 1 ≤ s.done.length := by
  have h1 : s.ls.allLayers ≠ [] := by rw [hs]; simp [hne]
  have h2 := List.length_pos_iff.2 (h.cur h1)
  have h3 := h.flat
  rw [hs, lineCount_append] at h3
  omega

theorem clocked_quiet {hyp : α → α → α} {s s' : BuildSt α} {l : PyLine α} (h : Clocked hyp s)
    (h1 : s'.done = s.done ++ [l]) (h2 : s'.ls.allLayers = s.ls.allLayers) (h3 : s'.ls.curLines = s.ls.curLines ++ [l])
    (h4 : Paced ((paceAfter .rest s.done).next l) s'.ds)
    (h5 : s'.ds.total = s.ds.total + lineTime hyp (paceAfter .rest s.done) l) (h6 : s'.ds.layerBegin = s.ds.layerBegin) :
    Clocked hyp s' where
  pace := by rw [h1]; unfold paceAfter at h4 ⊢; rw [List.foldl_append]; exact h4
  total := by rw [h1, lineTimes_append, h5, h.total]; simp [lineTimes]
  flat := by rw [h1, h2, h3]; simp [h.flat]; omega
  cur := by rw [h3]; simp
  began := by
    rw [h1, h2, h6, h.began, overAt_append]
    exact fun hne => h.enough (post := []) (by simp) hne
  each := by
    intro pre L post hs
    rw [h2] at hs
    rw [h1, overAt_append, overAt_append]
    · exact h.each pre L post hs
    · exact fun hne => h.enough hs hne
    · exact fun hne => h.enough (post := post) (by simp [hs]) hne

theorem snoc_split {β : Type} {A pre post : List β} {B L : β} (h : A ++ [B] = pre ++ L :: post) :
    (post = [] ∧ pre = A ∧ L = B) ∨ ∃ post', post = post' ++ [B] ∧ A = pre ++ L :: post' := by
  rcases List.eq_nil_or_concat post with rfl | ⟨q, b, rfl⟩
  · obtain ⟨h1, h2⟩ := List.append_inj' h rfl
    simp only [List.cons.injEq, and_true] at h2
    exact Or.inl ⟨rfl, h1.symm, h2.symm⟩
  · right
    have : A ++ [B] = (pre ++ L :: q) ++ [b] := by rw [h]; simp
    obtain ⟨h1, h2⟩ := List.append_inj' this rfl
    simp only [List.cons.injEq, and_true] at h2
    exact ⟨q, by rw [h2]; simp, h1⟩

theorem clocked_closed {hyp : α → α → α} {s s' : BuildSt α} {l : PyLine α} {z : Option α} {t : α} (h : Clocked hyp s)
    (h1 : s'.done = s.done ++ [l])
    (h2 : s'.ls.allLayers = s.ls.allLayers ++ [{ lines := s.ls.curLines, z := z, duration := some (t - s.ds.layerBegin) }])
    (h3 : s'.ls.curLines = [l])
    (h4 : Paced ((paceAfter .rest s.done).next l) s'.ds)
    (h5 : t = s.ds.total + lineTime hyp (paceAfter .rest s.done) l) (h6 : s'.ds.total = t) (h7 : s'.ds.layerBegin = t) :
    Clocked hyp s' := by
  have hT : t = (lineTimes hyp .rest (s.done ++ [l])).sum := by rw [lineTimes_append, h5, h.total]; simp [lineTimes]
  have hO : overAt hyp (s.done ++ [l]) (s.ls.allLayers ++ [{ lines := s.ls.curLines, z := z, duration := some (t - s.ds.layerBegin) }]) = t := by
    unfold overAt
    rw [if_neg (by simp), hT, timeUpTo_all]
    rw [lineCount_append]
    simp [lineCount, h.flat]
  refine ⟨?_, ?_, ?_, ?_, ?_, ?_⟩
  · rw [h1]; unfold paceAfter at h4 ⊢; rw [List.foldl_append]; exact h4
  · rw [h6, h1, hT]
  · rw [h1, h2, h3, lineCount_append]; simp [h.flat, lineCount]
  · rw [h3]; simp
  · rw [h7, h1, h2, hO]
  · intro pre L post hs
    rw [h2] at hs
    rcases snoc_split hs with ⟨_, rfl, rfl⟩ | ⟨post', _, hA⟩
    · rw [h1, hO]
      simp only [Option.some.injEq, sub_right_inj]
      rw [h.began, overAt_append]
      exact fun hne => h.enough (post := []) (by simp) hne
    · rw [h1, overAt_append, overAt_append]
      · exact h.each pre L post' hA
      · exact fun hne => h.enough hA hne
      · exact fun hne => h.enough (post := post') (by simp [hA]) hne

theorem clocked_step {env : Env α} {home : Home α} {s s' : BuildSt α} {l0 : PyLine α} (hi : Clocked env.hypot s)
    (h : buildStep env false home s l0 = .ok s') : Clocked env.hypot s' := by
  obtain ⟨m, l, hp, ⟨hc, rfl⟩ | ⟨cmd, ds, hc, hne, hd, rfl⟩⟩ := buildStep_ok h
  · have hno : ∀ c : Str, c ≠ [] → ¬ HasCmd l c := by
      intro c hcn hh
      unfold HasCmd at hh
      rcases hc with e | e <;> rw [e] at hh <;> simp at hh
      exact hcn hh
    have hL : ¬ Linear l := fun hh => hh.elim (hno _ (by decide)) (hno _ (by decide))
    have hn : (paceAfter .rest s.done).next l = paceAfter .rest s.done := by unfold Pace.next; rw [if_neg hL]
    refine clocked_quiet (l := l) hi rfl rfl rfl (by rw [hn]; exact hi.pace) ?_ rfl
    unfold lineTime dwell
    rw [if_neg hL, if_neg (hno _ (by decide))]; simp
  · obtain ⟨hq, ht⟩ := stepDur_pace hi.pace hd
    have hb := stepDur_begin hd
    rcases stepLayer_cases env.mode { s.ls with hasExtrusion := s.ls.hasExtrusion || l.extruding.getD false } l ds.total ds.layerBegin with
      ⟨p, est, he⟩ | ⟨bz, est, _, he⟩
    · refine clocked_quiet (l := l) hi rfl ?_ ?_ ?_ ?_ ?_
      · simp only [he, recordLine]
      · simp only [he, recordLine]; rfl
      · simp only [he]; exact hq
      · simp only [he]; exact ht
      · simp only [he]; exact hb
    · refine clocked_closed (l := l) (z := bz) (t := ds.total) hi rfl ?_ ?_ ?_ ht ?_ ?_
      · rw [← hb]; simp only [he]; rfl
      · simp only [he, recordLine]; rfl
      · simp only [he, if_true]
        exact ⟨hq.x, hq.y, hq.z, hq.e, hq.dx, hq.dy, hq.v⟩
      · simp only [he, if_true]
      · simp only [he, if_true]

theorem clocked_start (hyp : α → α → α) (g : GCode α) : Clocked hyp (BuildSt.start g) where
  pace := ⟨rfl, rfl, rfl, rfl, rfl, rfl, rfl⟩
  total := by simp [BuildSt.start, DurSt.init, lineTimes]
  flat := by simp [BuildSt.start, lineCount]
  cur := by simp [BuildSt.start]
  began := by simp [BuildSt.start, DurSt.init, overAt]
  each := by simp [BuildSt.start]

theorem clocked_fold {env : Env α} {home : Home α} {g : GCode α} {ls : List (PyLine α)} {s : BuildSt α}
    (h : ls.foldlM (buildStep env false home) (BuildSt.start g) = .ok s) : Clocked env.hypot s :=
  foldlM_inv (buildStep env false home) (fun _ s => Clocked env.hypot s) (fun _ _ _ _ hp hs => clocked_step hp hs) _ [] _ s
    (clocked_start _ g) h

end GCodeUtils
