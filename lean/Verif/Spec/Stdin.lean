import Verif.Spec.Layout

/-
  Commands joined by a pipe (specification of C135).
-/

namespace GCodeUtils.Spec

open GCodeUtils

/-- `a | b`: the second command reads what the first one prints. The first one has ended before the second one opens its output
(a shell starts both at once; this matters only if the second one writes a file the first one reads). The outcome is that
of the second command. -/
def piped (a b : Str → World → World × Except Err Unit) (stdin : Str) (w : World) : World × Except Err Unit :=
  let r := a stdin { w with stdout := [] }
  b r.1.stdout { r.1 with stdout := w.stdout }

/-- The line endings of Unix, Windows and old Macintosh systems. -/
def lineEndings : List Str := [['\n'], ['\r', '\n'], ['\r']]

end GCodeUtils.Spec
