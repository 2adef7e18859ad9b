import Verif.Lemmas.Build
import Verif.Spec.Callback

set_option linter.unusedSectionVars false

namespace GCodeUtils

open Spec

variable {α β : Type} [Field α] [LinearOrder α] [IsStrictOrderedRing α] [FloorRing α]

/-- Forgetting the calls gives the loop without callbacks. -/
theorem buildStepCb_erase (env : Env α) (light : Bool) (home : Home α) (s : BuildSt α) (l0 : PyLine α) :
    (buildStepCb env light home s l0).map (·.1) = buildStep env light home s l0 := by
  unfold buildStepCb buildStep
  cases processLine home s.m l0 with
  | error er => rfl
  | ok p =>
    obtain ⟨m, l⟩ := p
    simp only
    cases l.command with
    | none => rfl
    | some cmd =>
      simp only
      by_cases he : cmd.isEmpty = true
      · rw [if_pos he, if_pos he]; rfl
      · rw [if_neg he, if_neg he]
        cases stepDur env s.ds l with
        | error er => rfl
        | ok ds => rfl

theorem buildLoopCb_erase (env : Env α) (light : Bool) (home : Home α) (ls : List (PyLine α)) (s : BuildSt α) :
    (buildLoopCb env light home s ls).2 = ls.foldlM (buildStep env light home) s := by
  induction ls generalizing s with
  | nil => rfl
  | cons l ls ih =>
    rw [List.foldlM_cons, ← buildStepCb_erase]
    unfold buildLoopCb
    cases buildStepCb env light home s l with
    | error er => rfl
    | ok p => exact ih p.1

theorem loadCb_erase (env : Env α) (data : List Str) (light : Bool) (home : Home α) :
    (GCode.loadCb env data light home).2 = GCode.load env data light home := by
  unfold GCode.loadCb GCode.load prepare
  by_cases hd : data.isEmpty = true
  · rw [if_pos hd, if_pos hd]
  · rw [if_neg hd, if_neg hd]
    unfold preprocessAll
    have hl : (GCode.blank light home : GCode α).light = light := rfl
    have hh : (GCode.blank light home : GCode α).home = home := rfl
    rw [hl, hh, ← buildLoopCb_erase]
    generalize buildLoopCb env light home (BuildSt.start (GCode.blank light home)) (readLines data) = r
    obtain ⟨calls, r⟩ := r
    cases r <;> rfl

theorem announcedFrom_append (view : PyLine α → β) (a b before : List (Layer α)) :
    announcedFrom view before (a ++ b) = announcedFrom view before a ++ announcedFrom view (before ++ a) b := by
  induction a generalizing before with
  | nil => simp [announcedFrom]
  | cons L a ih => simp [announcedFrom, ih]

/-- What the calls so far are, given the state of the loop. -/
def CallsInv (view : PyLine α → β) (s : BuildSt α) (calls : List (Callback α)) : Prop :=
  calls.map (seen view) = reports view s.ls.allLayers s.ls.curLines

theorem buildStepCb_calls {view : PyLine α → β} {env : Env α} {light : Bool} {home : Home α} {s s' : BuildSt α}
    {l0 : PyLine α} {calls new : List (Callback α)} (hi : CallsInv view s calls)
    (hv : ∀ m l, processLine home s.m l0 = .ok (m, l) → view (if light then l0 else l) = view l)
    (h : buildStepCb env light home s l0 = .ok (s', new)) : CallsInv view s' (calls ++ new) := by
  unfold buildStepCb at h
  unfold CallsInv at hi ⊢
  cases hp : processLine home s.m l0 with
  | error er => rw [hp] at h; simp at h
  | ok p =>
    obtain ⟨m, l⟩ := p
    have hv := hv m l hp
    rw [hp] at h
    simp only at h
    cases hc : l.command with
    | none =>
      rw [hc] at h
      simp only [Except.ok.injEq, Prod.mk.injEq] at h
      obtain ⟨rfl, rfl⟩ := h
      rw [List.map_append, hi]
      simp [recordLine, reports, seen, hv]
    | some cmd =>
      rw [hc] at h
      simp only at h
      by_cases he : cmd.isEmpty = true
      · rw [if_pos he] at h
        simp only [Except.ok.injEq, Prod.mk.injEq] at h
        obtain ⟨rfl, rfl⟩ := h
        rw [List.map_append, hi]
        simp [recordLine, reports, seen, hv]
      · rw [if_neg he] at h
        cases hd : stepDur env s.ds l with
        | error er => rw [hd] at h; simp at h
        | ok ds =>
          rw [hd] at h
          simp only [Except.ok.injEq, Prod.mk.injEq] at h
          obtain ⟨rfl, rfl⟩ := h
          rw [List.map_append, hi]
          rcases stepLayer_cases env.mode { s.ls with hasExtrusion := s.ls.hasExtrusion || l.extruding.getD false } l
            ds.total ds.layerBegin with ⟨p, est, e⟩ | ⟨bz, est, _, e⟩
          · rw [e]
            simp [recordLine, reports, seen, hv]
          · rw [e]
            simp [recordLine, reports, seen, hv, announcedFrom_append, announcedFrom]

theorem buildLoopCb_calls {view : PyLine α → β} {env : Env α} {light : Bool} {home : Home α}
    (hv : ∀ m l0 m' l, processLine home m l0 = .ok (m', l) → view (if light then l0 else l) = view l)
    (ls : List (PyLine α)) (s s' : BuildSt α) (calls : List (Callback α)) (hi : CallsInv view s calls)
    (h : (buildLoopCb env light home s ls).2 = .ok s') :
    CallsInv view s' (calls ++ (buildLoopCb env light home s ls).1) := by
  induction ls generalizing s calls with
  | nil =>
    simp only [buildLoopCb, Except.ok.injEq] at h
    subst h
    simpa [buildLoopCb] using hi
  | cons l ls ih =>
    unfold buildLoopCb at h ⊢
    cases hb : buildStepCb env light home s l with
    | error er => rw [hb] at h; simp at h
    | ok p =>
      obtain ⟨t, new⟩ := p
      rw [hb] at h
      simp only at h ⊢
      rw [← List.append_assoc]
      exact ih t _ (buildStepCb_calls hi (hv s.m l) hb) h

theorem loadCb_calls {view : PyLine α → β} {env : Env α} {light : Bool} {home : Home α} {data : List Str} {g : GCode α}
    (hv : ∀ m l0 m' l, processLine home m l0 = .ok (m', l) → view (if light then l0 else l) = view l)
    (h : GCode.load env data light home = .ok g) :
    ∃ (done last : List (Layer α)) (app : Layer α), g.allLayers = done ++ last ++ [app] ∧ app.lines = [] ∧
      ((g.lines = [] ∧ done = [] ∧ last = []) ∨ (∃ L, last = [L] ∧ L.lines ≠ [])) ∧
      (GCode.loadCb env data light home).1.map (seen view) = reports view done (last.flatMap (·.lines)) := by
  rcases load_ok h with ⟨rfl, rfl⟩ | ⟨hd, s, hs, rfl⟩
  · refine ⟨[], [], _, rfl, rfl, Or.inl ⟨rfl, rfl, rfl⟩, rfl⟩
  · have hcalls := buildLoopCb_calls (env := env) hv (readLines data) (BuildSt.start (GCode.blank light home)) s []
      rfl (by rw [buildLoopCb_erase]; exact hs)
    have hinv := fold_inv (start_inv _) hs
    have hreq : (GCode.loadCb env data light home).1 =
        (buildLoopCb env light home (BuildSt.start (GCode.blank light home)) (readLines data)).1 := by
      have hne : ¬ data.isEmpty = true := by simpa [List.isEmpty_iff] using hd
      unfold GCode.loadCb
      rw [if_neg hne]
      generalize buildLoopCb env light home (BuildSt.start (GCode.blank light home)) (readLines data) = r
      obtain ⟨calls, r⟩ := r
      cases r <;> rfl
    rw [hreq]
    unfold CallsInv at hcalls
    rw [List.nil_append] at hcalls
    by_cases hc : s.ls.curLines = []
    · have hnil : s.ls.allLayers = [] := by
        by_contra hne
        exact hinv.2 hne hc
      refine ⟨[], [], ⟨[], none, some 0⟩, ?_, rfl, Or.inl ⟨?_, rfl, rfl⟩, ?_⟩
      · simp [finalize, closeLast, hc, hnil]
      · have : (finalize (GCode.blank light home) s).lines = s.done := rfl
        rw [this, hinv.1.flat]
        simp [closedLines, hc, hnil]
      · rw [hcalls, hc, hnil]; rfl
    · refine ⟨s.ls.allLayers, [⟨s.ls.curLines, s.ls.prevZ, some (s.ds.total - s.ds.layerBegin)⟩],
        ⟨[], none, some 0⟩, ?_, rfl,
        Or.inr ⟨_, rfl, hc⟩, ?_⟩
      · simp [finalize, closeLast, hc]
      · rw [hcalls]; simp

/-- The layers announced are numbered without gaps. -/
theorem announced_numbers (view : PyLine α → β) (calls : List (Callback α)) (layers : List (Layer α))
    (last : List (PyLine α)) (h : calls.map (seen view) = reports view layers last) :
    announcedLayers calls = List.range layers.length := by
  have h1 : announcedLayers calls = (calls.map (seen view)).filterMap (fun | .inr p => some p.1 | .inl _ => none) := by
    unfold announcedLayers
    rw [List.filterMap_map]
    congr 1
    funext c
    cases c <;> rfl
  rw [h1, h]
  have key : ∀ (Ls before : List (Layer α)),
      (announcedFrom view before Ls).filterMap (fun | .inr p => some p.1 | .inl _ => none) =
        (List.range Ls.length).map (· + before.length) := by
    intro Ls
    induction Ls with
    | nil => intro before; rfl
    | cons L Ls ih =>
      intro before
      simp only [announcedFrom, List.filterMap_append, ih]
      rw [List.filterMap_map, List.length_cons, List.range_succ_eq_map, List.map_cons, List.map_map]
      simp only [List.length_append, List.length_singleton, Function.comp_def, List.filterMap_none, List.nil_append]
      simp only [List.filterMap_cons, List.filterMap_nil, List.singleton_append, Nat.zero_add, List.cons.injEq, true_and]
      apply List.map_congr_left
      intro k _
      omega
  unfold reports
  rw [List.filterMap_append, key]
  simp

theorem reported_texts (calls : List (Callback α)) (layers : List (Layer α)) (last : List (PyLine α))
    (h : calls.map (seen (·.raw)) = reports (·.raw) layers last) :
    reportedTexts calls = ((layers.flatMap (·.lines)) ++ last).map (·.raw) := by
  have h1 : reportedTexts calls = (calls.map (seen (·.raw))).filterMap (fun | .inl p => some p | .inr _ => none) := by
    unfold reportedTexts
    rw [List.filterMap_map]
    congr 1
    funext c
    cases c <;> rfl
  rw [h1, h]
  have key : ∀ (Ls before : List (Layer α)),
      (announcedFrom (·.raw) before Ls).filterMap (fun | .inl p => some p | .inr _ => none) =
        (Ls.flatMap (·.lines)).map (·.raw) := by
    intro Ls
    induction Ls with
    | nil => intro before; rfl
    | cons L Ls ih =>
      intro before
      simp only [announcedFrom, List.filterMap_append, ih]
      simp [List.filterMap_map]
  unfold reports
  rw [List.filterMap_append, key]
  simp [List.filterMap_map]

/-- A loop that fails has gone through the lines before the bad one. -/
theorem buildLoopCb_error {env : Env α} {light : Bool} {home : Home α} {er : Err} (ls : List (PyLine α)) (s : BuildSt α)
    (h : (buildLoopCb env light home s ls).2 = .error er) :
    ∃ a b rest s', ls = a ++ b :: rest ∧ buildLoopCb env light home s a = ((buildLoopCb env light home s ls).1, .ok s') ∧
      buildStep env light home s' b = .error er := by
  induction ls generalizing s with
  | nil => simp [buildLoopCb] at h
  | cons l ls ih =>
    unfold buildLoopCb at h
    cases hb : buildStepCb env light home s l with
    | error e =>
      rw [hb] at h
      simp only [Except.error.injEq] at h
      subst h
      refine ⟨[], l, ls, s, rfl, ?_, ?_⟩
      · conv_rhs => unfold buildLoopCb
        rw [hb]
        rfl
      · rw [← buildStepCb_erase, hb]; rfl
    | ok p =>
      obtain ⟨t, new⟩ := p
      rw [hb] at h
      simp only at h
      obtain ⟨a, b, rest, s', rfl, h1, h2⟩ := ih t h
      refine ⟨l :: a, b, rest, s', rfl, ?_, h2⟩
      conv_lhs => unfold buildLoopCb
      conv_rhs => unfold buildLoopCb
      rw [hb]
      simp only [h1]

end GCodeUtils
