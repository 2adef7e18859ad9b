import Verif.Lemmas.Callback
import Verif.Lemmas.Write
import Verif.Props.Common

/-
  C85: what the callbacks given to a load report.
-/

set_option linter.unusedSectionVars false

namespace GCodeUtils

open Spec

variable {α : Type} [Field α] [LinearOrder α] [IsStrictOrderedRing α] [FloorRing α]

/-- C85, result. Giving callbacks does not change the outcome of loading. -/
theorem C85_same_program (env : Env α) (data : List Str) (light : Bool) (home : Home α) :
    (GCode.loadCb env data light home).2 = GCode.load env data light home :=
  loadCb_erase env data light home

/-- C85, reports. The layers of a loaded program are `done`, then at most one layer `last` with lines, then the empty
append layer.  The calls are: every line of the first layer, the first layer with its number 0 and the layers so far,
every line of the second layer, and so on through `done`; then the lines of `last`.  The lines reported are the stored
lines. What is missing: `last` is not announced, see `C85_last_refuted`. -/
theorem C85_reports_partial (env : Env α) (data : List Str) (home : Home α) (g : GCode α)
    (h : GCode.load env data false home = .ok g) :
    ∃ (done last : List (Layer α)) (app : Layer α), g.allLayers = done ++ last ++ [app] ∧ app.lines = [] ∧
      ((g.lines = [] ∧ done = [] ∧ last = []) ∨ (∃ L, last = [L] ∧ L.lines ≠ [])) ∧
      (GCode.loadCb env data false home).1.map (seen id) = reports id done (last.flatMap (·.lines)) ∧
      announcedLayers (GCode.loadCb env data false home).1 = List.range done.length := by
  obtain ⟨done, last, app, h1, h2, h3, h4⟩ := loadCb_calls (view := id) (light := false) (by intros; rfl) h
  exact ⟨done, last, app, h1, h2, h3, h4, announced_numbers id _ _ _ h4⟩

/-- C85, light programs: the same with the texts of the lines. -/
theorem C85_light_partial (env : Env α) (data : List Str) (light : Bool) (home : Home α) (g : GCode α)
    (h : GCode.load env data light home = .ok g) :
    ∃ (done last : List (Layer α)) (app : Layer α), g.allLayers = done ++ last ++ [app] ∧ app.lines = [] ∧
      ((g.lines = [] ∧ done = [] ∧ last = []) ∨ (∃ L, last = [L] ∧ L.lines ≠ [])) ∧
      (GCode.loadCb env data light home).1.map (seen (·.raw)) = reports (·.raw) done (last.flatMap (·.lines)) ∧
      announcedLayers (GCode.loadCb env data light home).1 = List.range done.length := by
  obtain ⟨done, last, app, h1, h2, h3, h4⟩ := loadCb_calls (view := (·.raw)) (light := light) (by
    intro m l0 m' l hp
    have := (processLine_keeps hp).1
    split_ifs
    · exact this.symm
    · rfl) h
  exact ⟨done, last, app, h1, h2, h3, h4, announced_numbers _ _ _ _ h4⟩

/-- C85, lines. Every stored line is reported exactly once and in order, in every program. -/
theorem C85_lines (env : Env α) (data : List Str) (light : Bool) (home : Home α) (g : GCode α)
    (h : GCode.load env data light home = .ok g) :
    reportedTexts (GCode.loadCb env data light home).1 = g.lines.map (·.raw) := by
  obtain ⟨done, last, app, h1, h2, h3, h4⟩ := loadCb_calls (view := (·.raw)) (light := light) (by
    intro m l0 m' l hp
    have := (processLine_keeps hp).1
    split_ifs
    · exact this.symm
    · rfl) h
  rw [reported_texts _ _ _ h4, (load_indexed h).flat]
  unfold layerLines
  rw [h1]
  simp [h2, List.flatMap_def]

/-- C85 is false for the last layer: in every program that has a line, the layer holding the last line is not
announced, although it is a layer of the program. -/
theorem C85_last_refuted (env : Env α) (data : List Str) (light : Bool) (home : Home α) (g : GCode α)
    (h : GCode.load env data light home = .ok g) (hl : g.lines ≠ []) :
    ∃ k L, g.allLayers[k]? = some L ∧ L.lines ≠ [] ∧ L.lines.getLast? = g.lines.getLast? ∧
      k ∉ announcedLayers (GCode.loadCb env data light home).1 := by
  obtain ⟨done, last, app, h1, h2, h3, h4⟩ := loadCb_calls (view := fun _ => ()) (light := light) (by intros; rfl) h
  rcases h3 with ⟨h3, _⟩ | ⟨L, rfl, hL⟩
  · exact absurd h3 hl
  · refine ⟨done.length, L, ?_, hL, ?_, ?_⟩
    · rw [h1]; simp
    · rw [(load_indexed h).flat]
      unfold layerLines
      rw [h1]
      simp [h2, List.getLast?_append, List.getLast?_eq_some_getLast hL]
    · rw [announced_numbers _ _ _ _ h4]; simp

theorem readLines_split {data : List Str} {a rest : List (PyLine α)} {b : PyLine α}
    (h : readLines data = a ++ b :: rest) :
    ∃ pre bad post, data = pre ++ bad :: post ∧ (readLines pre : List (PyLine α)) = a ∧ readLines [bad] = [b] := by
  induction data generalizing a with
  | nil => simp [readLines] at h
  | cons d ds ih =>
    have hc : (readLines (d :: ds) : List (PyLine α)) = readLines [d] ++ readLines ds := by
      simp only [readLines, List.map_cons, List.map_nil, List.filter_cons, List.filter_nil]
      split_ifs <;> rfl
    by_cases hd : strip d = []
    · have hn : (readLines [d] : List (PyLine α)) = [] := by simp [readLines, hd]
      rw [hc, hn, List.nil_append] at h
      obtain ⟨pre, bad, post, rfl, h1, h2⟩ := ih h
      refine ⟨d :: pre, bad, post, rfl, ?_, h2⟩
      have : (readLines (d :: pre) : List (PyLine α)) = readLines [d] ++ readLines pre := by
        simp only [readLines, List.map_cons, List.map_nil, List.filter_cons, List.filter_nil]
        split_ifs <;> rfl
      rw [this, hn, h1]; rfl
    · have hn : (readLines [d] : List (PyLine α)) = [{ raw := strip d }] := by simp [readLines, hd]
      rw [hc, hn, List.singleton_append] at h
      cases a with
      | nil =>
        simp only [List.nil_append, List.cons.injEq] at h
        exact ⟨[], d, ds, rfl, rfl, by rw [hn, h.1]⟩
      | cons x a =>
        simp only [List.cons_append, List.cons.injEq] at h
        obtain ⟨pre, bad, post, rfl, h1, h2⟩ := ih h.2
        refine ⟨d :: pre, bad, post, rfl, ?_, h2⟩
        have : (readLines (d :: pre) : List (PyLine α)) = readLines [d] ++ readLines pre := by
          simp only [readLines, List.map_cons, List.map_nil, List.filter_cons, List.filter_nil]
          split_ifs <;> rfl
        rw [this, hn, h1, ← h.1]; rfl

/-- C85, failure. When loading raises at a line, the calls made are those of loading the texts before that line, which
succeeds. -/
theorem C85_failure (env : Env α) (data : List Str) (light : Bool) (home : Home α) (er : Err)
    (h : GCode.load env data light home = .error er) :
    ∃ pre bad post g, data = pre ++ bad :: post ∧
      GCode.loadCb env pre light home = ((GCode.loadCb env data light home).1, .ok g) ∧
      GCode.load env (pre ++ [bad]) light home = .error er := by
  have hne : ¬ data.isEmpty = true := by
    intro hd
    unfold GCode.load prepare at h
    rw [if_pos hd] at h
    simp at h
  rw [← loadCb_erase] at h
  have hloop : (buildLoopCb env light home (BuildSt.start (GCode.blank light home)) (readLines data)).2 = .error er ∧
      (GCode.loadCb env data light home).1 =
        (buildLoopCb env light home (BuildSt.start (GCode.blank light home)) (readLines data)).1 := by
    unfold GCode.loadCb at h ⊢
    rw [if_neg hne] at h ⊢
    revert h
    generalize buildLoopCb env light home (BuildSt.start (GCode.blank light home)) (readLines data) = r
    obtain ⟨calls, r⟩ := r
    cases r with
    | error e => intro h; exact ⟨by simpa using h, rfl⟩
    | ok s => intro h; simp at h
  obtain ⟨a, b, rest, s', hab, hloopA, hstep⟩ := buildLoopCb_error _ _ hloop.1
  obtain ⟨pre, bad, post, rfl, hpre, hbad⟩ := readLines_split hab
  refine ⟨pre, bad, post, ?_⟩
  rw [hloop.2]
  have herr : GCode.load env (pre ++ [bad]) light home = .error er := by
    have hread : (readLines (pre ++ [bad]) : List (PyLine α)) = a ++ [b] := by
      rw [← hpre, ← hbad]; simp [readLines]
    unfold GCode.load prepare
    rw [if_neg (by simp)]
    unfold preprocessAll
    rw [hread, List.foldlM_append]
    have hA : a.foldlM (buildStep env light home) (BuildSt.start (GCode.blank light home)) = .ok s' := by
      rw [← buildLoopCb_erase, hloopA]
    have hl : (GCode.blank light home : GCode α).light = light := rfl
    have hh : (GCode.blank light home : GCode α).home = home := rfl
    rw [hl, hh, hA]
    simp [bind, Except.bind, hstep]
  cases hpn : pre with
  | nil =>
    subst hpn
    have ha : a = [] := by rw [← hpre]; rfl
    subst ha
    have hcalls : (buildLoopCb env light home (BuildSt.start (GCode.blank light home))
        (readLines ([] ++ bad :: post))).1 = [] := by
      have := congrArg Prod.fst hloopA
      simpa [buildLoopCb] using this.symm
    exact ⟨_, rfl, by rw [hcalls]; rfl, herr⟩
  | cons d ds =>
    rw [← hpn]
    refine ⟨finalize (GCode.blank light home) s', rfl, ?_, herr⟩
    conv_lhs => unfold GCode.loadCb
    rw [if_neg (by rw [hpn]; simp), hpre, hloopA]

/-- The sample has an (empty) layer before the first height, two printed ones and the append layer; two are announced,
the second printed one is not. -/
example : announcedLayers (GCode.loadCb qEnv sample).1 = [0, 1] ∧ sampleG.allLayers.length = 4 ∧
    ((GCode.loadCb qEnv sample).1.take 8).map (seen (·.raw)) =
      [.inl c!"; start", .inl c!"G21", .inl c!"G90", .inl c!"M82", .inl c!"G28",
       .inr (0, sampleG.allLayers.take 1), .inl c!"G1 Z0.3 F1200", .inl c!"G1 X10 Y10 E1"] := by decide +kernel

example : sampleG.lines ≠ [] := by decide +kernel

/-- A failing load: the calls stop before the bad line. -/
example : GCode.load qEnv [c!"G1 Z1", c!"G1 X1", c!"T1.5", c!"G1 X2"] = .error .valueError ∧
    reportedTexts (GCode.loadCb qEnv [c!"G1 Z1", c!"G1 X1", c!"T1.5", c!"G1 X2"]).1 = [c!"G1 Z1", c!"G1 X1"] := by
  decide +kernel

end GCodeUtils
