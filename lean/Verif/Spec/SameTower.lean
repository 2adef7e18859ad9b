import Verif.Model.Text

/-
  Two towers with the same temperatures at the same lines (specification of C139).
-/

namespace GCodeUtils.Spec

open GCodeUtils

/-- A program with a text, or nothing, inserted in front of each of its lines. -/
def heated : List (Option Str) → List Str → List Str
  | i :: is, l :: ls => i.toList ++ l :: heated is ls
  | _, ls => ls

end GCodeUtils.Spec
