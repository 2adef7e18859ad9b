import Verif.Lemmas.Meaning
import Verif.Props.Load

/-
  C09–C11: comments and letter case.
-/

set_option linter.unusedSectionVars false

namespace GCodeUtils

open Spec

variable {α : Type} [Field α] [LinearOrder α] [IsStrictOrderedRing α] [FloorRing α]

/-- C09. A trailing semicolon comment changes nothing but the text: the command, and for every machine state the
outcome of processing the line (coordinates, position, extrusion, new machine state, exception). -/
theorem C09_semicolon_line (s t : Str) (hs : Plain s) (hc : HasCommand s) (ht : '\n' ∉ t) :
    (rawToLine (s ++ ';' :: t) : PyLine α) = { (rawToLine s : PyLine α) with raw := s ++ ';' :: t } ∧
    ∀ (home : Home α) (m : Machine α),
      processLine home m { raw := s ++ ';' :: t } =
        (processLine home m { raw := s }).map (fun p => (p.1, { p.2 with raw := s ++ ';' :: t })) := by
  have h := sameMeaning_semicolon (sp := []) hs hc (by simp) ht
  rw [List.nil_append] at h
  exact ⟨sameMeaning_command h, fun home m => sameMeaning_process h home m⟩

example : Plain c!"N10 G1 X10 Y-2.5" ∧ HasCommand c!"N10 G1 X10 Y-2.5" := by decide
example : (rawToLine c!"N10 G1 X10 Y-2.5;move (G0" : PyLine ℚ).command = some c!"G1" := by decide +kernel


/-- C09, whole programs: adding semicolon comments at the end of any lines leaves everything the loaded object
holds unchanged except the texts (commands, coordinates, positions, layers, heights, durations, indices, bounding
box, machine state), and does not change whether loading raises. -/
theorem C09_semicolon_load (env : Env α) (light : Bool) (home : Home α) (data data' : List Str)
    (h : List.Forall₂ (fun a b => a = b ∨ ∃ s sp t, IsStrip a s ∧ Plain s ∧ HasCommand s ∧
      (∀ c ∈ sp, c ∈ blanks) ∧ '\n' ∉ t ∧ IsStrip b (s ++ (sp ++ ';' :: t))) data data') :
    (GCode.load env data' light home).map GCode.eraseText = (GCode.load env data light home).map GCode.eraseText := by
  refine load_sameMeaning env light home data data' (h.imp ?_)
  rintro a b (rfl | ⟨s, sp, t, h1, h2, h3, h4, h5, h6⟩)
  · exact .inl rfl
  · right
    rw [← C01_strip_unique _ _ h1, ← C01_strip_unique _ _ h6]
    refine ⟨HasCommand.ne_nil h3, ?_, sameMeaning_semicolon h2 h3 h4 h5⟩
    simp [HasCommand.ne_nil h3]

example : IsStrip c!" G1 X1\n" c!"G1 X1" ∧ IsStrip c!"G1 X1  ; hello\n" (c!"G1 X1" ++ (c!"  " ++ ';' :: c!" hello")) := by
  refine ⟨⟨⟨c!" ", c!"\n", by decide⟩, by decide⟩, ⟨⟨[], c!"\n", by decide⟩, by decide⟩⟩
example : GCode.load qEnv (sample.map (fun l => if l = c!"G28" then c!"G28 ; home\n" else l)) ≠ GCode.load qEnv sample ∧
    (GCode.load qEnv (sample.map (fun l => if l = c!"G28" then c!"G28 ; home\n" else l))).map GCode.eraseText =
      (GCode.load qEnv sample).map GCode.eraseText := by decide +kernel

/-- C10. Inserting a parenthesised comment after the command word, between complete tokens, changes nothing but
the text.  `p` carries the command, `q` may hold more words and comments, `s` is the rest of the line (any text
that does not continue a number, possibly itself with comments). -/
theorem C10_paren_line (p q t s : Str) (hp : Plain p) (hc : HasCommand p) (hq : Closed q) (hqn : NotNumeric q)
    (ht : ∀ c ∈ t, c ≠ '(' ∧ c ≠ ')') (hs : NotNumeric s) :
    (rawToLine (p ++ q ++ (paren t ++ s)) : PyLine α) =
      { (rawToLine (p ++ q ++ s) : PyLine α) with raw := p ++ q ++ (paren t ++ s) } ∧
    ∀ (home : Home α) (m : Machine α),
      processLine home m { raw := p ++ q ++ (paren t ++ s) } =
        (processLine home m { raw := p ++ q ++ s }).map
          (fun r => (r.1, { r.2 with raw := p ++ q ++ (paren t ++ s) })) := by
  have h := sameMeaning_paren hp hc hq hqn ht hs
  exact ⟨sameMeaning_command h, fun home m => sameMeaning_process h home m⟩

/-- C10, whole programs. -/
theorem C10_paren_load (env : Env α) (light : Bool) (home : Home α) (data data' : List Str)
    (h : List.Forall₂ (fun a b => a = b ∨ ∃ p q t s, Plain p ∧ HasCommand p ∧ Closed q ∧ NotNumeric q ∧
      (∀ c ∈ t, c ≠ '(' ∧ c ≠ ')') ∧ NotNumeric s ∧
      IsStrip a (p ++ q ++ s) ∧ IsStrip b (p ++ q ++ (paren t ++ s))) data data') :
    (GCode.load env data' light home).map GCode.eraseText = (GCode.load env data light home).map GCode.eraseText := by
  refine load_sameMeaning env light home data data' (h.imp ?_)
  rintro a b (rfl | ⟨p, q, t, s, h1, h2, h3, h4, h5, h6, h7, h8⟩)
  · exact .inl rfl
  · right
    rw [← C01_strip_unique _ _ h7, ← C01_strip_unique _ _ h8]
    have := HasCommand.ne_nil h2
    exact ⟨by simp [this], by simp [this], sameMeaning_paren h1 h2 h3 h4 h5 h6⟩

example : Plain c!"G1 X10 " ∧ HasCommand c!"G1 X10 " ∧ Closed (paren c!"a" ++ c!" Y2") ∧
    NotNumeric (paren c!"a" ++ c!" Y2") ∧ NotNumeric c!" E1 ;z" := by
  refine ⟨by decide, by decide, Closed.paren _ _ (by decide) ?_, ?_, ?_⟩
  · exact Plain.closed (show Plain c!" Y2" by decide)
  · exact notNumeric_paren _ _
  · intro c hc; simp at hc; subst hc; decide
example : (rawToLine (c!"G1 X10 " ++ (paren c!"a" ++ c!" Y2") ++ (paren c!"Z3" ++ c!" E1 ;z")) : PyLine ℚ).command =
    some c!"G1" := by decide +kernel

/-- The "after the command word" condition is needed: a leading parenthesised comment hides the command. -/
theorem C10_before_command_refuted :
    (rawToLine c!"G1 X1" : PyLine ℚ).command = some c!"G1" ∧
      (rawToLine (paren c!"a" ++ c!"G1 X1") : PyLine ℚ).command = none := by decide +kernel

/-- C11. Changing the ASCII case of the letters of a line that holds a word letter changes nothing but the text
(comments allowed anywhere). -/
theorem C11_case_line (s s' : Str) (h : s.map Char.toLower = s'.map Char.toLower) (hc : HasCommand s) :
    (rawToLine s' : PyLine α) = { (rawToLine s : PyLine α) with raw := s' } ∧
    ∀ (home : Home α) (m : Machine α),
      processLine home m { raw := s' } =
        (processLine home m { raw := s }).map (fun r => (r.1, { r.2 with raw := s' })) := by
  refine ⟨?_, fun home m => process_case h hc home m⟩
  unfold rawToLine
  rw [split_case h hc]
  rfl

example : c!"g1 x1 Y2 (Zz)".map Char.toLower = c!"G1 X1 y2 (zZ)".map Char.toLower ∧ HasCommand c!"g1 x1 Y2 (Zz)" := by
  decide

/-- C11, whole programs, for lines without the letter `P`. -/
theorem C11_case_load_partial (env : Env α) (light : Bool) (home : Home α) (data data' : List Str)
    (h : List.Forall₂ (fun a b => a = b ∨ ∃ s s', IsStrip a s ∧ IsStrip b s' ∧
      s.map Char.toLower = s'.map Char.toLower ∧ Plain s ∧ HasCommand s ∧ 'P' ∉ s ∧ 'P' ∉ s') data data') :
    (GCode.load env data' light home).map GCode.eraseText = (GCode.load env data light home).map GCode.eraseText := by
  refine load_sameMeaning env light home data data' (h.imp ?_)
  rintro a b (rfl | ⟨s, s', h1, h2, h3, h4, h5, h6, h7⟩)
  · exact .inl rfl
  · right
    rw [← C01_strip_unique _ _ h1, ← C01_strip_unique _ _ h2]
    refine ⟨HasCommand.ne_nil h5, ?_, sameMeaning_case h3 h4 h5 h6 h7⟩
    rintro rfl
    simp only [List.map_nil, List.map_eq_nil_iff] at h3
    exact HasCommand.ne_nil h5 h3

/-- The duration estimate does depend on letter case: a lower-case dwell is not counted. -/
theorem C11_duration_refuted :
    (GCode.load qEnv [c!"G4 P5000"]).map GCode.duration = .ok (some 5) ∧
      (GCode.load qEnv [c!"g4 p5000"]).map GCode.duration = .ok (some 0) := by decide +kernel

end GCodeUtils
