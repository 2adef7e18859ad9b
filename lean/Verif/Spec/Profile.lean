import Verif.Model.Text

/-
  The text of a Cura profile (specification of C118): options `key=value` separated by backspaces, then a form feed, then the
  alterations.
-/

namespace GCodeUtils.Spec

open GCodeUtils

/-- The options before the first form feed of a profile. -/
def ProfileOptions (text : Str) (os : List Str) : Prop :=
  ∃ alt, text = List.intercalate ['\x08'] os ++ '\x0c' :: alt ∧ os ≠ [] ∧ ∀ o ∈ os, '\x08' ∉ o ∧ '\x0c' ∉ o

/-- An option that is empty or sets something else than the nozzle size. -/
def OtherOption (o : Str) : Prop := o = [] ∨ ∃ key value, o = key ++ '=' :: value ∧ '=' ∉ key ∧ key ≠ c!"nozzle_size"

/-- The first option for the nozzle size has this value; the options before it are well-formed. -/
def StatesNozzle (text value : Str) : Prop :=
  ∃ a b, ProfileOptions text (a ++ (c!"nozzle_size=" ++ value) :: b) ∧ ∀ o ∈ a, OtherOption o

/-- The profile is well-formed and says nothing about the nozzle. -/
def NoNozzle (text : Str) : Prop := ∃ os, ProfileOptions text os ∧ ∀ o ∈ os, OtherOption o

end GCodeUtils.Spec
