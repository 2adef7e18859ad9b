import Verif.Lemmas.Framing
import Verif.Props.Lex
import Verif.Props.Filter

/-
  C98: line numbers and checksums.
-/

set_option linter.unusedSectionVars false

namespace GCodeUtils

open Spec

variable {α : Type} [Field α] [LinearOrder α] [IsStrictOrderedRing α] [FloorRing α]

/-- C98, one line.  A line number in front of a command text and a checksum behind it change nothing but the
text: the command, and for every machine state the outcome of processing the line. -/
theorem C98_line (s b : Str) (hs : Plain s) (hw : StartsWord s) (hf : Framed s b) (hn : '\n' ∉ b) :
    (rawToLine b : PyLine α) = { (rawToLine s : PyLine α) with raw := b } ∧
    ∀ (home : Home α) (m : Machine α),
      processLine home m { raw := b } = (processLine home m { raw := s }).map (fun p => (p.1, { p.2 with raw := b })) := by
  have h := sameMeaning_framed hs hw hf hn
  exact ⟨sameMeaning_command h, fun home m => sameMeaning_process h home m⟩

/-- C98, whole programs: a program read back from a log of what a host sent, where any of the lines are numbered
and checksummed, loads to the same object as the plain program, texts apart, and raises in the same cases. -/
theorem C98_load (env : Env α) (light : Bool) (home : Home α) (data data' : List Str)
    (h : List.Forall₂ (fun a b => a = b ∨ ∃ s t, IsStrip a s ∧ Plain s ∧ StartsWord s ∧ Framed s t ∧ '\n' ∉ t ∧
      IsStrip b t) data data') :
    (GCode.load env data' light home).map GCode.eraseText = (GCode.load env data light home).map GCode.eraseText := by
  refine load_sameMeaning env light home data data' (h.imp ?_)
  rintro a b (rfl | ⟨s, t, h1, h2, h3, h4, h5, h6⟩)
  · exact .inl rfl
  · right
    rw [← C01_strip_unique _ _ h1, ← C01_strip_unique _ _ h6]
    refine ⟨h3.ne_nil, ?_, sameMeaning_framed h2 h3 h4 h5⟩
    obtain ⟨p, q, _, _, rfl⟩ := h4
    simp [h3.ne_nil]

/-- The framing of the examples. -/
theorem frame_example : Framed c!"G1 X10 Y-2.5 E0.4" c!"N12 G1 X10 Y-2.5 E0.4*57" :=
  ⟨c!"N12 ", c!"*57", .inr ⟨'N', c!"12", c!" ", by decide, by decide, by decide, rfl⟩,
    .inr ⟨[], c!"57", by decide, by decide, rfl⟩, by decide⟩

example : Plain c!"G1 X10 Y-2.5 E0.4" ∧ StartsWord c!"G1 X10 Y-2.5 E0.4" ∧ '\n' ∉ c!"N12 G1 X10 Y-2.5 E0.4*57" :=
  ⟨by decide, ⟨'G', c!"1 X10 Y-2.5 E0.4", rfl, by decide⟩, by decide⟩
example : (rawToLine c!"N12 G1 X10 Y-2.5 E0.4*57" : PyLine ℚ).command = some c!"G1" := by decide +kernel

/-- A small program, plain and as a host sends it. -/
def plainSend : List Str := [c!"G90", c!"M83", c!"G1 Z0.2 F1800", c!"G1 X10 Y5 E0.4", c!"G4 P2000"]
def hostSend : List Str :=
  [c!"N1 G90*17", c!"N2 M83*21", c!"n3G1 Z0.2 F1800 *94", c!"N4 G1 X10 Y5 E0.4*57", c!"N5 G4 P2000*3"]

example : GCode.load qEnv hostSend ≠ GCode.load qEnv plainSend ∧
    (GCode.load qEnv hostSend).map GCode.eraseText = (GCode.load qEnv plainSend).map GCode.eraseText ∧
    (GCode.load qEnv plainSend).map (·.duration) = .ok (some 2) := by decide +kernel

/-- The condition on the beginning of the text is needed: in front of a line that starts with its own line number
another one is taken for the command. -/
theorem C98_twice_refuted : ∃ s b : Str, Plain s ∧ HasCommand s ∧ Framed s b ∧ '\n' ∉ b ∧
    (rawToLine b : PyLine ℚ).command ≠ (rawToLine s : PyLine ℚ).command := by
  refine ⟨c!"N7 G28", c!"N1 N7 G28", by decide, by decide, ⟨c!"N1 ", [], .inr ⟨'N', c!"1", c!" ", by decide,
    by decide, by decide, rfl⟩, .inl rfl, by decide⟩, by decide, by decide +kernel⟩

/-- Filters rewrite the lines they change without number and checksum and leave the others alone, so the output
of a numbered program is numbered in part only. -/
theorem C98_filters_refuted : ∃ g : GCode ℚ, GCode.load qEnv hostSend = .ok g ∧
    texts (transQ g 1 0) =
      [c!"N1 G90*17", c!"N2 M83*21", c!"n3G1 Z0.2 F1800 *94", c!"G1 X11.000 Y5.000 E0.40000", c!"N5 G4 P2000*3"] := by
  refine ⟨loadQ hostSend, by decide +kernel, by decide +kernel⟩

end GCodeUtils
