import Verif.Lemmas.Layered

set_option linter.unusedSectionVars false

namespace GCodeUtils

open Spec

variable {α : Type} [Field α] [LinearOrder α] [IsStrictOrderedRing α] [FloorRing α]

theorem changes_append (z : Option α) (a b : List (PyLine α)) : changes z (a ++ b) = changes z a ++ changes (a.foldl heightStep z) b := by
  induction a generalizing z with
  | nil => rfl
  | cons l r ih => simp only [List.cons_append, changes, List.foldl_cons, ih, List.append_assoc]

theorem changesIn_append (z : Option α) (A B : List (List (PyLine α))) :
    changesIn z (A ++ B) = changesIn z A ++ changesIn (A.flatten.foldl heightStep z) B := by
  induction A generalizing z with
  | nil => rfl
  | cons L r ih => simp only [List.cons_append, changesIn, List.flatten_cons, List.foldl_append, ih]

/-- What the layers so far depend on: recorded heights and changes of the closed layers, changes of the current one, the estimate and the
heights the code remembers. -/
structure HView (α : Type) where
  zs : List (Option α) := []
  cls : List (List (Option α)) := []
  cur : List (Option α) := []
  est : Option α := none
  lastZ : Option α := none
  prevBase : Option (Option α) := none
  h : Option α := none

def viewOf (s : BuildSt α) : HView α :=
  { zs := s.ls.allLayers.map (·.z), cls := changesIn none (closedLines s.ls), cur := changes (heightAfter (closedLines s.ls).flatten) s.ls.curLines,
    est := s.ls.est, lastZ := s.ls.lastLayerZ, prevBase := s.ls.prevBaseZ, h := s.ls.curZ }

/-- The layer state with the same recorded heights. -/
def HView.state (V : HView α) : LayerSt α :=
  { allLayers := V.zs.map fun z => { lines := [], z := z, duration := none }, prevZ := V.h, lastLayerZ := V.lastZ, est := V.est }

/-- What a change of height makes of it. -/
def viewStep (mode : RoundMode) (V : HView α) (u : Option α) : HView α :=
  if some (baseZ mode V.state).1 = V.prevBase then { V with cur := V.cur ++ [u], est := (baseZ mode V.state).2, h := u }
  else { zs := V.zs ++ [(baseZ mode V.state).1], cls := V.cls ++ [V.cur], cur := [u], est := (baseZ mode V.state).2, lastZ := (baseZ mode V.state).1,
         prevBase := some (baseZ mode V.state).1, h := u }

theorem baseZ_view {mode : RoundMode} {s : BuildSt α} (hh : HeightInv s) : baseZ mode (viewOf s).state = baseZ mode s.ls := by
  have he : estimateHeight mode (viewOf s).state.allLayers = estimateHeight mode s.ls.allLayers := by
    unfold estimateHeight
    have : (viewOf s).state.allLayers.filterMap (·.z) = s.ls.allLayers.filterMap (·.z) := by
      simp [viewOf, HView.state, List.filterMap_map, Function.comp_def]
    rw [this]
  unfold baseZ
  rw [he]
  simp only [HView.state, viewOf, hh.prev]
  cases s.ls.curZ <;> cases s.ls.lastLayerZ <;> rfl

theorem view_step {env : Env α} {home : Home α} {s s' : BuildSt α} {l0 : PyLine α} (hh : HeightInv s) (hl0 : l0.extruding = none)
    (h : buildStep env false home s l0 = .ok s') : ∃ l, s'.done = s.done ++ [l] ∧ viewOf s' = (changes s.ls.curZ [l]).foldl (viewStep env.mode) (viewOf s) := by
  obtain ⟨l, hd, hc, hp, hcase⟩ := buildStep_layer h hh.prev hl0
  refine ⟨l, hd, ?_⟩
  have hfl : (closedLines s.ls).flatten ++ s.ls.curLines = s.done := hh.inv.1.flat.symm
  have hcur : s.ls.curLines.foldl heightStep (heightAfter (closedLines s.ls).flatten) = s.ls.curZ := by
    rw [hh.cur, ← hfl]; unfold heightAfter; rw [List.foldl_append]
  have hch : changes s.ls.curZ [l] = if s'.ls.curZ ≠ s.ls.curZ then [s'.ls.curZ] else [] := by
    simp [changes, ← hc]
  rcases hcase with ⟨a1, a2, a3, a4, a5, ⟨b1, b2, b3⟩ | ⟨b1, b2, b3, b4⟩⟩ | ⟨d, a1, a2, a3, a4, a5, a6, a7, a8, a9⟩
  · rw [hch, if_neg (by simpa using b1), List.foldl_nil]
    have hcl : closedLines s'.ls = closedLines s.ls := by unfold closedLines; rw [a1]
    unfold viewOf
    rw [hcl, a1, a2, a4, b1, b2, b3, changes_append, hcur]
    rw [hch, if_neg (by simpa using b1), List.append_nil]
  · rw [hch, if_pos b1, List.foldl_cons, List.foldl_nil]
    have hcl : closedLines s'.ls = closedLines s.ls := by unfold closedLines; rw [a1]
    unfold viewStep
    rw [baseZ_view hh, if_pos (show some (baseZ env.mode s.ls).1 = (viewOf s).prevBase from b3)]
    unfold viewOf
    rw [hcl, a1, a2, a4, b2, b4, changes_append, hcur, hch, if_pos b1]
  · rw [hch, if_pos a5, List.foldl_cons, List.foldl_nil]
    have hcl : closedLines s'.ls = closedLines s.ls ++ [s.ls.curLines] := by unfold closedLines; rw [a1]; simp
    unfold viewStep
    rw [baseZ_view hh, if_neg (show ¬ some (baseZ env.mode s.ls).1 = (viewOf s).prevBase from a6)]
    unfold viewOf
    have hz : heightAfter (closedLines s.ls ++ [s.ls.curLines]).flatten = s.ls.curZ := by
      rw [hh.cur, ← hfl]; simp
    rw [hcl, a1, a2, a7, a8, a9, hz, hch, if_pos a5, changesIn_append]
    simp [changesIn, heightAfter]

theorem load_view {env : Env α} {data : List Str} {home : Home α} {s : BuildSt α}
    (hs : (readLines data).foldlM (buildStep env false home) (BuildSt.start (GCode.blank false home)) = .ok s) :
    HeightInv s ∧ viewOf s = (changes none s.done).foldl (viewStep env.mode) {} := by
  have := foldlM_inv (buildStep env false home) (fun pre s => (∀ l ∈ pre, l.extruding = none) → HeightInv s ∧ viewOf s = (changes none s.done).foldl (viewStep env.mode) {})
    (fun pre b s s' hp hs hl => by
      have hb := hl b (by simp)
      obtain ⟨h1, h2⟩ := hp (fun l hx => hl l (by simp [hx]))
      obtain ⟨l, e1, e2⟩ := view_step h1 hb hs
      refine ⟨heightInv_step h1 hb hs, ?_⟩
      have hz : List.foldl heightStep none s.done = s.ls.curZ := h1.cur.symm
      rw [e2, e1, changes_append, hz, List.foldl_append, h2]) _ [] _ s (fun _ => ⟨(start_height _ rfl).1, rfl⟩) hs
  exact this (by simpa using readLines_fresh data)

end GCodeUtils
