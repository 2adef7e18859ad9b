import Verif.Lemmas.Words
import Verif.Props.Lex

/-
  C99: spacing and the order of words.
-/

set_option linter.unusedSectionVars false

namespace GCodeUtils

open Spec

variable {α : Type} [Field α] [LinearOrder α] [IsStrictOrderedRing α] [FloorRing α]

/-- C99, one line.  Two lines with the same command word and, letter by letter, the same further words in any
order and with any blanks between them mean the same: same command, and for every machine state the same outcome of
processing. -/
theorem C99_line (w : Str) (ws ws' : List Str) (t t' : Str) (hs : StartsWord w) (hw : WordText w)
    (h1 : ∀ x ∈ ws, WordText x) (h2 : ∀ x ∈ ws', WordText x) (hsame : SameWords ws ws') (ht : SpacedAs w ws t)
    (ht' : SpacedAs w ws' t') :
    (rawToLine t' : PyLine α) = { (rawToLine t : PyLine α) with raw := t' } ∧
    ∀ (home : Home α) (m : Machine α),
      processLine home m { raw := t' } = (processLine home m { raw := t }).map (fun p => (p.1, { p.2 with raw := t' })) := by
  have h := sameMeaning_words hs hw h1 h2 hsame ht ht'
  exact ⟨sameMeaning_command h, fun home m => sameMeaning_process h home m⟩

/-- C99, whole programs: respacing any lines and rearranging their words keeps everything the loaded object holds
except the texts, and whether loading raises. -/
theorem C99_load (env : Env α) (light : Bool) (home : Home α) (data data' : List Str)
    (h : List.Forall₂ (fun a b => a = b ∨ ∃ w ws ws' t t', IsStrip a t ∧ IsStrip b t' ∧ StartsWord w ∧ WordText w ∧
      (∀ x ∈ ws, WordText x) ∧ (∀ x ∈ ws', WordText x) ∧ SameWords ws ws' ∧ SpacedAs w ws t ∧ SpacedAs w ws' t')
      data data') :
    (GCode.load env data' light home).map GCode.eraseText = (GCode.load env data light home).map GCode.eraseText := by
  refine load_sameMeaning env light home data data' (h.imp ?_)
  rintro a b (rfl | ⟨w, ws, ws', t, t', h1, h2, h3, h4, h5, h6, h7, h8, h9⟩)
  · exact .inl rfl
  · right
    rw [← C01_strip_unique _ _ h1, ← C01_strip_unique _ _ h2]
    have hne := h3.ne_nil
    refine ⟨?_, ?_, sameMeaning_words h3 h4 h5 h6 h7 h8 h9⟩
    · obtain ⟨gs, -, -, rfl⟩ := h8
      simp [written, hne]
    · obtain ⟨gs, -, -, rfl⟩ := h9
      simp [written, hne]

/-- C99: words with different letters can be written in any order. -/
theorem C99_order (ws ws' : List Str) (hp : ws.Perm ws') (hd : (ws.map (fun w => w.head?.map Char.toLower)).Nodup) :
    SameWords ws ws' := sameWords_perm hp hd

/-- `G1 X10 Y-2.5 E0.4`, squeezed and turned around. -/
theorem words_example : SpacedAs c!"G1" [c!"X10", c!"Y-2.5", c!"E0.4"] c!"G1 X10 Y-2.5 E0.4" ∧
    SpacedAs c!"G1" [c!"E0.4", c!"X10", c!"Y-2.5"] c!"G1E0.4X10   Y-2.5" :=
  ⟨⟨[(c!" ", c!"X10"), (c!" ", c!"Y-2.5"), (c!" ", c!"E0.4")], by decide, by decide, by decide⟩,
    ⟨[([], c!"E0.4"), ([], c!"X10"), (c!"   ", c!"Y-2.5")], by decide, by decide, by decide⟩⟩

example : StartsWord c!"G1" ∧ WordText c!"G1" ∧ (∀ x ∈ [c!"X10", c!"Y-2.5", c!"E0.4"], WordText x) ∧
    SameWords [c!"X10", c!"Y-2.5", c!"E0.4"] [c!"E0.4", c!"X10", c!"Y-2.5"] := by
  refine ⟨⟨'G', c!"1", rfl, by decide⟩, ⟨'G', c!"1", rfl, by decide, by decide⟩, ?_, ?_⟩
  · intro x hx
    simp only [List.mem_cons, List.not_mem_nil, or_false] at hx
    rcases hx with rfl | rfl | rfl
    · exact ⟨'X', c!"10", rfl, by decide, by decide⟩
    · exact ⟨'Y', c!"-2.5", rfl, by decide, by decide⟩
    · exact ⟨'E', c!"0.4", rfl, by decide, by decide⟩
  · exact C99_order _ _ (by decide) (by decide)

example : (GCode.load qEnv [c!"M83", c!"G1 F1800 Z0.2", c!"G1E0.4X10   Y-2.5", c!"G4P2000"]).map GCode.eraseText =
    (GCode.load qEnv [c!"M83", c!"G1 Z0.2 F1800", c!"G1 X10 Y-2.5 E0.4", c!"G4 P2000"]).map GCode.eraseText := by
  decide +kernel

/-- The order of words with the same letter counts: the last one wins. -/
theorem C99_repeated_refuted : ∃ ws ws' : List Str, ws.Perm ws' ∧ (∀ x ∈ ws, WordText x) ∧
    ∃ t t' : Str, SpacedAs c!"G1" ws t ∧ SpacedAs c!"G1" ws' t' ∧
    (processLine Home.init Machine.init ({ raw := t } : PyLine ℚ)).map (fun p => p.2.x) ≠
      (processLine Home.init Machine.init ({ raw := t' } : PyLine ℚ)).map (fun p => p.2.x) := by
  refine ⟨[c!"X1", c!"X2"], [c!"X2", c!"X1"], by decide, ?_, c!"G1 X1 X2", c!"G1 X2 X1",
    ⟨[(c!" ", c!"X1"), (c!" ", c!"X2")], by decide, by decide, by decide⟩,
    ⟨[(c!" ", c!"X2"), (c!" ", c!"X1")], by decide, by decide, by decide⟩, by decide +kernel⟩
  intro x hx
  simp only [List.mem_cons, List.not_mem_nil, or_false] at hx
  rcases hx with rfl | rfl
  · exact ⟨'X', c!"1", rfl, by decide, by decide⟩
  · exact ⟨'X', c!"2", rfl, by decide, by decide⟩

/-- A blank inside a word loses its number, silently. -/
theorem C99_inside_refuted :
    (processLine Home.init Machine.init ({ raw := c!"G1 X10 Y5" } : PyLine ℚ)).map (fun p => (p.2.x, p.2.y)) =
      .ok (some 10, some 5) ∧
    (processLine Home.init Machine.init ({ raw := c!"G1 X 10 Y5" } : PyLine ℚ)).map (fun p => (p.2.x, p.2.y)) =
      .ok (none, some 5) := by decide +kernel

end GCodeUtils
