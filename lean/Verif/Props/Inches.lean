import Verif.Lemmas.Inches
import Verif.Props.Common

/-
  C131: a program in inches and the same program in millimetres.
-/

set_option linter.unusedSectionVars false

namespace GCodeUtils

open Spec

variable {α : Type} [Field α] [LinearOrder α] [IsStrictOrderedRing α] [FloorRing α]

theorem process_unit (home : Home α) (m : Machine α) (b : Bool) :
    processLine home m { raw := if b then c!"G20" else c!"G21" } =
      .ok ({ m with imperial := b }, { raw := if b then c!"G20" else c!"G21", command := some (if b then c!"G20" else c!"G21")
                                       currentX := some m.currentX, currentY := some m.currentY, currentZ := some m.currentZ
                                       currentE := some m.currentE, currentF := some m.currentF }) := by
  cases b
  · have h : dropN (findall (lower c!"G21")) = some ('g', c!"21") :: [] := by decide
    rw [processLine_eq_core]
    rw [show (if false = true then c!"G20" else c!"G21") = c!"G21" from rfl]
    rw [split_eq ({ raw := c!"G21" } : PyLine α) h]
    rfl
  · have h : dropN (findall (lower c!"G20")) = some ('g', c!"20") :: [] := by decide
    rw [processLine_eq_core]
    rw [show (if true = true then c!"G20" else c!"G21") = c!"G20" from rfl]
    rw [split_eq ({ raw := c!"G20" } : PyLine α) h]
    rfl

theorem unit_start (env : Env α) (light : Bool) (home : Home α) :
    ∃ s s' : BuildSt α, buildStep env light home (BuildSt.start (GCode.blank light home)) { raw := c!"G20" } = .ok s ∧
      buildStep env light home (BuildSt.start (GCode.blank light home)) { raw := c!"G21" } = .ok s' ∧ UnitRel s s' := by
  have h20 := process_unit home (BuildSt.start (GCode.blank light home)).m true
  have h21 := process_unit home (BuildSt.start (GCode.blank light home)).m false
  simp only [if_true] at h20
  simp only [Bool.false_eq_true, if_false] at h21
  unfold buildStep
  rw [h20, h21]
  refine ⟨_, _, rfl, rfl, rfl, rfl, rfl, rfl, ?_, ?_⟩
  · refine ⟨rfl, .nil, .cons ?_ .nil⟩
    cases light
    · exact .inr ⟨rfl, rfl⟩
    · exact .inl rfl
  · refine .cons ?_ .nil
    cases light
    · exact .inr ⟨rfl, rfl⟩
    · exact .inl rfl

theorem readLines_inch {rs ss : List Str} (h : List.Forall₂ (InchText α) rs ss) :
    ∃ ps qs : List Str, readLines (α := α) rs = ps.map (fun s => { raw := s }) ∧ readLines (α := α) ss = qs.map (fun s => { raw := s }) ∧
      List.Forall₂ (InchLine α) ps qs := by
  induction h with
  | nil => exact ⟨[], [], rfl, rfl, .nil⟩
  | cons h _ ih =>
    obtain ⟨ps, qs, h1, h2, h3⟩ := ih
    rcases h with ⟨e1, e2⟩ | ⟨n1, n2, hl⟩
    · refine ⟨ps, qs, ?_, ?_, h3⟩
      · rw [← h1]; simp [readLines, e1]
      · rw [← h2]; simp [readLines, e2]
    · refine ⟨_ :: ps, _ :: qs, ?_, ?_, .cons hl h3⟩
      · rw [List.map_cons, ← h1]; simp [readLines, n1]
      · rw [List.map_cons, ← h2]; simp [readLines, n2]

theorem build_inch {env : Env α} {light : Bool} {home : Home α} {ps qs : List Str} (h : List.Forall₂ (InchLine α) ps qs) :
    ∀ {s s' : BuildSt α}, UnitRel s s' →
    (∃ er, (ps.map (fun s => ({ raw := s } : PyLine α))).foldlM (buildStep env light home) s = .error er ∧
      (qs.map (fun s => ({ raw := s } : PyLine α))).foldlM (buildStep env light home) s' = .error er) ∨
    ∃ u u', (ps.map (fun s => ({ raw := s } : PyLine α))).foldlM (buildStep env light home) s = .ok u ∧
      (qs.map (fun s => ({ raw := s } : PyLine α))).foldlM (buildStep env light home) s' = .ok u' ∧ UnitRel u u' := by
  induction h with
  | nil => intro s s' hs; exact .inr ⟨s, s', rfl, rfl, hs⟩
  | cons h _ ih =>
    intro s s' hs
    simp only [List.map_cons, List.foldlM_cons]
    rcases buildStep_inch (env := env) (light := light) (home := home) hs h with ⟨er, e1, e2⟩ | ⟨u, u', e1, e2, hu⟩
    · rw [e1, e2]; exact .inl ⟨er, rfl, rfl⟩
    · rw [e1, e2]; exact ih hu

theorem closeLast_with {R : PyLine α → PyLine α → Prop} {s s' : LayerSt α} (h : LsWith R s s') (t b : α) :
    LsWith R (closeLast s t b) (closeLast s' t b) := by
  obtain ⟨hr, h1, h2⟩ := h
  have he : s'.curLines.isEmpty = s.curLines.isEmpty := by
    have key : ∀ {a b : List (PyLine α)}, List.Forall₂ R a b → b.isEmpty = a.isEmpty := by
      intro a b h; cases h <;> rfl
    exact key h2
  unfold closeLast
  rw [he]
  split_ifs
  · exact ⟨hr, h1, h2⟩
  · refine ⟨?_, forall₂_snoc h1 ⟨by rw [hr], rfl, h2⟩, h2⟩
    rw [hr]

theorem forall₂_inch_map {β γ δ : Type} {R : β → γ → Prop} {f : β → δ} {g : γ → δ} (hf : ∀ a b, R a b → g b = f a) {a : List β} {b : List γ}
    (h : List.Forall₂ R a b) : b.map g = a.map f := by
  induction h with
  | nil => rfl
  | cons h _ ih => rw [List.map_cons, List.map_cons, hf _ _ h, ih]

/-- **C131**.  A program that begins with `G20` and the same program with `G21` and all lengths and feed rates multiplied by 25.4
either fail with the same exception or have the same analysis, in every respect: filament, bounding box, heights, layers and
durations; line by line they have the same words (in millimetres) and the head is recorded at the same places. -/
theorem C131_inches (env : Env α) (light : Bool) (home : Home α) {rs ss : List Str} (h : List.Forall₂ (InchText α) rs ss) :
    (∃ er, GCode.load env (c!"G20" :: rs) light home = .error er ∧ GCode.load env (c!"G21" :: ss) light home = .error er) ∨
    ∃ g g', GCode.load env (c!"G20" :: rs) light home = .ok g ∧ GCode.load env (c!"G21" :: ss) light home = .ok g' ∧
      SameAnalysis g g' ∧ SameDuration g g' ∧ List.Forall₂ SameButUnit g.lines g'.lines ∧
      List.Forall₂ (fun L L' => List.Forall₂ SameButUnit L.lines L'.lines) g.allLayers g'.allLayers ∧
      g.m.imperial = true ∧ g'.m = { g.m with imperial := false } := by
  obtain ⟨ps, qs, h1, h2, h3⟩ := readLines_inch h
  have r1 : readLines (α := α) (c!"G20" :: rs) = { raw := c!"G20" } :: ps.map (fun s => { raw := s }) := by
    rw [← h1]
    have : strip c!"G20" = c!"G20" := by decide
    simp [readLines, this]
  have r2 : readLines (α := α) (c!"G21" :: ss) = { raw := c!"G21" } :: qs.map (fun s => { raw := s }) := by
    rw [← h2]
    have : strip c!"G21" = c!"G21" := by decide
    simp [readLines, this]
  obtain ⟨s, s', e1, e2, hs⟩ := unit_start env light home
  unfold GCode.load prepare preprocessAll
  rw [r1, r2]
  simp only [List.isEmpty_cons, Bool.false_eq_true, if_false, List.foldlM_cons]
  have b1 : (GCode.blank light home : GCode α).light = light := rfl
  have b2 : (GCode.blank light home : GCode α).home = home := rfl
  rw [b1, b2, e1, e2]
  rcases build_inch (env := env) (light := light) (home := home) h3 hs with ⟨er, f1, f2⟩ | ⟨u, u', f1, f2, hu⟩
  · simp only [bind, Except.bind] at f1 f2 ⊢
    rw [f1, f2]
    exact .inl ⟨er, rfl, rfl⟩
  · simp only [bind, Except.bind] at f1 f2 ⊢
    rw [f1, f2]
    refine .inr ⟨_, _, rfl, rfl, ?_, ?_, hu.done, ?_, hu.imp, hu.m⟩
    · obtain ⟨q1, q2, q3⟩ := closeLast_with hu.ls u.ds.total u.ds.layerBegin
      have hz : (closeLast u'.ls u.ds.total u.ds.layerBegin).allZs = (closeLast u.ls u.ds.total u.ds.layerBegin).allZs := by rw [q1]
      have hE : u'.m.maxE = u.m.maxE := by rw [hu.m]; rfl
      constructor
      all_goals simp only [finalize, hu.bb, hu.ds, hz, hE]
      · exact ⟨trivial, trivial, trivial⟩
      · exact ⟨trivial, trivial, trivial⟩
      · exact ⟨trivial, trivial, trivial⟩
      · rw [q1]
      · exact hu.done.length_eq.symm
      · rw [List.map_append, List.map_append]
        congr 1
        exact forall₂_inch_map (fun a b hab => by rw [hab.1, hab.2.2.length_eq]) q2
      · exact ⟨by rw [q1], by rw [q1]⟩
    · obtain ⟨q1, q2, q3⟩ := closeLast_with hu.ls u.ds.total u.ds.layerBegin
      refine ⟨by simp only [finalize, hu.ds], ?_⟩
      simp only [finalize, hu.ds, List.map_append]
      congr 1
      exact forall₂_inch_map (fun a b hab => hab.2.1) q2
    · obtain ⟨q1, q2, q3⟩ := closeLast_with hu.ls u.ds.total u.ds.layerBegin
      simp only [finalize, hu.ds]
      exact forall₂_snoc (q2.imp fun a b hab => hab.2.2) .nil

/-- A program in inches and the same one in millimetres. -/
def inchText : List Str := [c!"G1 Z.1 F30 ; down", c!"G1 X2 Y-1.5 E.5", c!"", c!"G4 P500", c!"g92 e0", c!"G1 Z0.2", c!"G28 X"]
def mmText : List Str := [c!"G1 Z2.54 F762 ; down", c!"G1 X50.8 Y-38.1 E12.7", c!" ", c!"G4 P500", c!"g92 e0", c!"G1 Z5.08", c!"G28 X"]

/-- A test for `InchWord`, for examples. -/
def inchWordB : Tok → Tok → Bool
  | none, none => true
  | some (k, n), some (k', n') => k == k' && ((k ∈ c!"gtmn" && n == n') || (n == [] && n' == []) ||
      (decide (k ∉ c!"gtmn") && match (parseFloat n : Option ℚ), (parseFloat n' : Option ℚ) with
        | some v, some v' => v' == 254 / 10 * v
        | _, _ => false))
  | _, _ => false

theorem inchWordB_sound {t t' : Tok} (h : inchWordB t t' = true) : InchWord ℚ t t' := by
  rcases t with _ | ⟨k, n⟩ <;> rcases t' with _ | ⟨k', n'⟩
  · exact .comment
  · simp [inchWordB] at h
  · simp [inchWordB] at h
  · unfold inchWordB at h
    simp only [Bool.and_eq_true, Bool.or_eq_true, beq_iff_eq, decide_eq_true_eq] at h
    obtain ⟨rfl, (⟨h1, rfl⟩ | ⟨rfl, rfl⟩) | ⟨h1, h2⟩⟩ := h
    · exact .code _ _ h1
    · exact .bare _
    · split at h2
      · rename_i v v' e1 e2
        rw [beq_iff_eq] at h2
        subst h2
        exact .number _ _ _ v h1 ((parseFloat_iff _ _).1 e1) ((parseFloat_iff _ _).1 e2)
      · simp at h2

/-- A test for `InchText`, for examples. -/
def inchTextB (t u : Str) : Bool :=
  let ws := findall (lower (strip t)); let vs := findall (lower (strip u))
  (strip t == [] && strip u == []) || (strip t != [] && strip u != [] && ws.length == vs.length && (ws.zip vs).all (fun p => inchWordB p.1 p.2) &&
    commandOf (strip t) ws == commandOf (strip u) vs && commandOf (strip t) ws != some c!"G20" && commandOf (strip t) ws != some c!"G21" &&
    (commandOf (strip t) ws != some c!"G4" || strip t == strip u))

theorem inchTextB_sound {t u : Str} (h : inchTextB t u = true) : InchText ℚ t u := by
  unfold inchTextB at h
  simp only [Bool.and_eq_true, Bool.or_eq_true, beq_iff_eq, bne_iff_ne] at h
  rcases h with h | ⟨⟨⟨⟨⟨⟨⟨h1, h2⟩, h3⟩, h4⟩, h5⟩, h6⟩, h7⟩, h8⟩
  · exact .inl h
  · refine .inr ⟨h1, h2, _, _, (findall_reads _ _).1 rfl, (findall_reads _ _).1 rfl, ?_, h5, h6, h7, fun e => h8.resolve_left (fun n => n e)⟩
    refine List.forall₂_iff_zip.2 ⟨h3, fun {a b} hab => inchWordB_sound ?_⟩
    rw [List.all_eq_true] at h4
    exact h4 _ hab

theorem inchText_mm : List.Forall₂ (InchText ℚ) inchText mmText :=
  List.forall₂_iff_zip.2 ⟨rfl, fun {a b} hab => inchTextB_sound
    ((show ∀ p ∈ inchText.zip mmText, inchTextB p.1 p.2 = true by decide +kernel) (a, b) hab)⟩

example : GCode.load qEnv (c!"G20" :: inchText) = .ok (loadQ (c!"G20" :: inchText)) ∧
    ((loadQ (c!"G20" :: inchText)).xmax, (loadQ (c!"G21" :: mmText)).xmax) = (some (254 / 5), some (254 / 5)) ∧
    ((loadQ (c!"G20" :: inchText)).duration, (loadQ (c!"G21" :: mmText)).duration) = (some 7, some 7) := by decide +kernel

end GCodeUtils
