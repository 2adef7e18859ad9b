import Verif.Spec.Text
import Verif.Model.Cli

/-
  Texts that differ only in line endings, indentation and blank lines (specification of C117).
-/

namespace GCodeUtils.Spec

open GCodeUtils

/-- The second list has the pieces of the first that are not blank, without their surrounding blanks. -/
inductive Trimmed : List Str → List Str → Prop
  | nil : Trimmed [] []
  | blank {p ps ls} : IsBlank p → Trimmed ps ls → Trimmed (p :: ps) ls
  | line {p l ps ls} : IsStrip p l → l ≠ [] → Trimmed ps ls → Trimmed (p :: ps) (l :: ls)

/-- The text, cut at its newlines, has these lines. -/
def HasContent (text : Str) (ls : List Str) : Prop :=
  ∃ ps : List Str, text = List.intercalate ['\n'] ps ∧ (∀ p ∈ ps, '\n' ∉ p) ∧ Trimmed ps ls

/-- Two texts with the same lines, apart from line endings, blanks around the lines and blank lines. -/
def SameContent (text text' : Str) : Prop := ∃ ls, HasContent text ls ∧ HasContent text' ls

/-- The two worlds have the same standard output and the same files, except for the file `f`. -/
def SameElsewhere (f : Str) (w w' : World) : Prop := w.stdout = w'.stdout ∧ ∀ q, q ≠ f → w.files q = w'.files q

/-- Moreover both have the file `f`, not empty, with texts that differ only in their layout. -/
structure SameUpToLayout (f : Str) (w w' : World) : Prop where
  elsewhere : SameElsewhere f w w'
  there : ∃ t t', w.files f = some t ∧ w'.files f = some t' ∧ SameContent t t' ∧ t ≠ [] ∧ t' ≠ []

end GCodeUtils.Spec
