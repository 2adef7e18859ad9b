import Verif.Model.Cli

/-
  Texts as sequences of lines, and what a command may do to files.
-/

set_option linter.unusedSectionVars false

namespace GCodeUtils.Spec

open GCodeUtils

/-- A text cut into lines: put together they are the text, a newline is only at the end of a line, and every line but the last
ends with one. -/
def IsLines (t : Str) (ls : List Str) : Prop :=
  ls.flatten = t ∧ (∀ l ∈ ls, l ≠ [] ∧ '\n' ∉ l.dropLast) ∧ ∀ l ∈ ls.dropLast, l.getLast? = some '\n'

/-- Nothing but these files has changed. -/
def OnlyFiles (ps : List Str) (w w' : World) : Prop := (∀ q, q ∉ ps → w'.files q = w.files q) ∧ w'.stdout = w.stdout

/-- A text was added to where the output goes: a file that was emptied first, or standard output. -/
def Wrote (out : Option Str) (t : Str) (w w' : World) : Prop :=
  match out with
  | some p => OnlyFiles [p] w w' ∧ w'.files p = some t
  | none => w'.files = w.files ∧ w'.stdout = w.stdout ++ t

end GCodeUtils.Spec
