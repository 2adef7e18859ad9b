import Verif.Lemmas.Run
import Verif.Lemmas.Text
import Verif.Spec.Stream

set_option linter.unusedSectionVars false

namespace GCodeUtils

open Spec

variable {α : Type} [Field α] [LinearOrder α] [IsStrictOrderedRing α] [FloorRing α]

theorem readLines_nil : (readLines [] : List (PyLine α)) = [] := rfl

theorem readLines_cons (c : Str) (cs : List Str) :
    (readLines (c :: cs) : List (PyLine α)) =
      if strip c = [] then readLines cs else { raw := strip c } :: readLines cs := by
  unfold readLines
  by_cases h : strip c = []
  · simp [h]
  · have : (strip c).isEmpty = false := by simpa [List.isEmpty_iff] using h
    simp [h, this]

theorem readLines_append (a b : List Str) :
    (readLines (a ++ b) : List (PyLine α)) = readLines a ++ readLines b := by
  simp [readLines]

/-- What `n` stored appends do to an object whose append layer is `L`. -/
structure Appended (g : GCode α) (L : Layer α) (new : List (PyLine α)) (g' : GCode α) : Prop where
  light : g'.light = g.light
  home : g'.home = g.home
  id : g'.appendLayerId = g.appendLayerId
  lines : g'.lines = g.lines ++ new
  layers : g'.allLayers = g.allLayers.set g.appendLayerId { L with lines := L.lines ++ new }
  lay : g'.layerIdxs = g.layerIdxs ++ List.replicate new.length g.appendLayerId
  lin : g'.lineIdxs = g.lineIdxs ++ (List.range new.length).map (fun j => L.lines.length + 1 + j)

theorem append_blank {g : GCode α} {c : Str} (h : strip c = []) : g.append c = .ok (g, none) := by
  unfold GCode.append
  simp [h]

theorem append_cmd {g : GCode α} {c : Str} {L : Layer α} (h : strip c ≠ [])
    (hL : g.allLayers[g.appendLayerId]? = some L) :
    g.append c = match processLine g.home g.m { raw := strip c } with
      | .error er => .error er
      | .ok (m, l) =>
        .ok ({ g with m := m
                      lines := g.lines ++ [storedLine g.light { raw := strip c } l]
                      allLayers := g.allLayers.set g.appendLayerId
                        { L with lines := L.lines ++ [storedLine g.light { raw := strip c } l] }
                      layerIdxs := g.layerIdxs ++ [g.appendLayerId]
                      lineIdxs := g.lineIdxs ++ [L.lines.length + 1] },
              some (storedLine g.light { raw := strip c } l)) := by
  unfold GCode.append
  have he : ¬ ((strip c).isEmpty = true) := by simpa [List.isEmpty_iff] using h
  simp only
  rw [if_neg he]
  cases hp : processLine g.home g.m { raw := strip c } with
  | error er => rfl
  | ok p =>
    obtain ⟨m, l⟩ := p
    simp [hL, storedLine]

theorem appendAll_ok {g g' : GCode α} {b : List Str} {L : Layer α}
    (hL : g.allLayers[g.appendLayerId]? = some L) (h : appendAll g b = .ok g') :
    ∃ out, Run g.home g.m (readLines b) g'.m out ∧
      Appended g L (if g.light then readLines b else out) g' := by
  induction b generalizing g L with
  | nil =>
    simp only [appendAll, Except.ok.injEq] at h
    subst h
    refine ⟨[], Run.nil _, rfl, rfl, rfl, ?_, ?_, ?_, ?_⟩
    · simp [readLines]
    · simp only [readLines, List.map_nil, List.filter_nil, ite_self, List.append_nil]
      obtain ⟨hlt, he⟩ := List.getElem?_eq_some_iff.1 hL
      rw [← he, List.set_getElem_self]
    · simp [readLines]
    · simp [readLines]
  | cons c cs ih =>
    rw [readLines_cons]
    by_cases hc : strip c = []
    · rw [appendAll, append_blank hc] at h
      simp only at h
      rw [if_pos hc]
      exact ih hL h
    · rw [if_neg hc]
      rw [appendAll, append_cmd hc hL] at h
      cases hp : processLine g.home g.m { raw := strip c } with
      | error er => rw [hp] at h; simp at h
      | ok p =>
        obtain ⟨m, l⟩ := p
        rw [hp] at h
        simp only at h
        obtain ⟨out, hr, ha⟩ := ih (L := { L with lines := L.lines ++ [storedLine g.light { raw := strip c } l] })
          (by
            obtain ⟨hlt, he⟩ := List.getElem?_eq_some_iff.1 hL
            simp [hlt]) h
        refine ⟨l :: out, Run.cons hp hr, ?_⟩
        obtain ⟨h1, h2, h3, h4, h5, h6, h7⟩ := ha
        simp only at h1 h2 h3 h4 h5 h6 h7
        have hnew : (if g.light then ({ raw := strip c } : PyLine α) :: readLines cs else l :: out) =
            storedLine g.light { raw := strip c } l :: (if g.light then readLines cs else out) := by
          unfold storedLine; split_ifs <;> rfl
        refine ⟨h1, h2, h3, ?_, ?_, ?_, ?_⟩
        · rw [h4, hnew]; simp
        · rw [h5, hnew]; simp
        · rw [h6, hnew]; simp [List.replicate_succ]
        · rw [h7, hnew]
          simp only [List.length_append, List.length_cons, List.length_nil, List.append_assoc,
            List.range_succ_eq_map, List.map_cons, List.map_map, List.singleton_append]
          congr 2
          apply List.map_congr_left
          intro j _
          simp only [Function.comp]
          omega

/-- Streaming succeeds whenever the machine can run over the lines. -/
theorem appendAll_of_run {g : GCode α} {b : List Str} {L : Layer α} {m' : Machine α} {out : List (PyLine α)}
    (hL : g.allLayers[g.appendLayerId]? = some L) (h : Run g.home g.m (readLines b) m' out) :
    ∃ g', appendAll g b = .ok g' := by
  induction b generalizing g L out with
  | nil => exact ⟨g, rfl⟩
  | cons c cs ih =>
    rw [readLines_cons] at h
    by_cases hc : strip c = []
    · rw [appendAll, append_blank hc]
      rw [if_pos hc] at h
      exact ih hL h
    · rw [if_neg hc] at h
      rw [appendAll, append_cmd hc hL]
      cases h with
      | cons hp hr =>
        rename_i m1 l1 out1
        rw [hp]
        simp only
        refine ih (L := { L with lines := L.lines ++ [storedLine g.light { raw := strip c } l1] }) ?_ hr
        obtain ⟨hlt, he⟩ := List.getElem?_eq_some_iff.1 hL
        simp [hlt]

/-- Streaming stops with the exception of the machine. -/
theorem appendAll_error {g : GCode α} {b : List Str} {L : Layer α} {m' : Machine α} {e : Err}
    {pre post : List (PyLine α)} {l : PyLine α} {out : List (PyLine α)}
    (hL : g.allLayers[g.appendLayerId]? = some L) (hb : readLines b = pre ++ l :: post)
    (h : Run g.home g.m pre m' out) (he : processLine g.home m' l = .error e) :
    appendAll g b = .error e := by
  induction b generalizing g L out pre with
  | nil => simp [readLines] at hb
  | cons c cs ih =>
    rw [readLines_cons] at hb
    by_cases hc : strip c = []
    · rw [appendAll, append_blank hc]
      rw [if_pos hc] at hb
      exact ih hL hb h he
    · rw [if_neg hc] at hb
      rw [appendAll, append_cmd hc hL]
      cases pre with
      | nil =>
        cases h
        simp only [List.nil_append, List.cons.injEq] at hb
        rw [hb.1, he]
      | cons p pre =>
        simp only [List.cons_append, List.cons.injEq] at hb
        cases h with
        | cons hp hr =>
          rename_i m1 l1 out1
          rw [hb.1, hp]
          simp only
          refine ih (L := { L with lines := L.lines ++ [storedLine g.light p l1] }) ?_ hb.2 hr he
          obtain ⟨hlt, he⟩ := List.getElem?_eq_some_iff.1 hL
          simp [hlt]

end GCodeUtils
