import Verif.Model.Cli

/-
  Reading text files and standard input: newline translation, and the command lines with an optional input argument
  (gcode_mod.py:35-38,57,71; gcode_stretch.py:25-28,67,79; gcode_optimize_arcs.py:16-20,38,47; gcode_tempcal.py:154-157,194-198).
  Argument syntax and logging are not modelled. Standard input is a text that can be read once, to its end.
-/

namespace GCodeUtils

variable {α : Type} [Field α] [LinearOrder α] [IsStrictOrderedRing α] [FloorRing α]

/-- Text files are read by `open(p, "rU")` (gcoder.py:864, Python 2 and 3), `argparse.FileType('r')` and `sys.stdin`
(gcode_mod.py:35-36 and the other command lines): with newline translation in Python 3 and with `"rU"`, without it in Python 2
with mode `'r'` on POSIX. -/
inductive Newlines
  | translated
  | asIs
  deriving DecidableEq, Repr

/-- Newline translation of text mode: "\r\n" and "\r" become "\n" (gcoder.py:864; done by Python's file object). -/
def translateNewlines : Str → Str
  | [] => []
  | '\r' :: '\n' :: cs => '\n' :: translateNewlines cs
  | '\r' :: cs => '\n' :: translateNewlines cs
  | c :: cs => c :: translateNewlines cs

/-- The text the program sees (gcoder.py:864, gcode_mod.py:57). -/
def Newlines.read : Newlines → Str → Str
  | .translated, t => translateNewlines t
  | .asIs, t => t

/-- The common shape of the filtering command lines with all the cases of their two file arguments
(gcode_mod.py:35-38,57,71; gcode_stretch.py:25-28,67,79; gcode_optimize_arcs.py:16-20,38,47). `inp = none` is `sys.stdin`,
`out = none` is `sys.stdout`. With `--inplace` the result goes to the input file, unless the input is standard input.
Only gcode_optimize_arcs.py has `--inplace`. -/
def toolMain (nl : Newlines) (pipeline : List Str → Except Err Str) (inplace : Bool) (inp out : Option Str) (stdin : Str) (w : World) :
    World × Except Err Unit :=
  match inp with
  | some p =>
    match w.files p with
    | none => (w, .error .ioError)
    | some _ =>
      let w := w.openW out
      match pipeline (readlines (nl.read ((w.files p).getD []))) with
      | .error er => (w, .error er)
      | .ok t => if inplace then ((w.openW (some p)).emit (some p) t, .ok ()) else (w.emit out t, .ok ())
  | none =>
    let w := w.openW out
    match pipeline (readlines (nl.read stdin)) with
    | .error er => (w, .error er)
    | .ok t => (w.emit out t, .ok ())

/-- gcode_tempcal.py:144-198 `main` with all the cases of its two file arguments; the file is read (154-155, 194) before any
of the temperature lines is written (197-198). -/
def tempcalTool (nl : Newlines) (env : Env α) (startT endT minZ : α) (continuous : Bool) (steps : Option Str) (inp out : Option Str)
    (stdin : Str) (w : World) : World × Except Err Unit :=
  let run (text : Str) (w : World) : World × Except Err Unit :=
    match (GCode.load env (readlines (nl.read text)) : Except Err (GCode α)) with
    | .error er => (w, .error er)
    | .ok g =>
      let (lines, r) :=
        if continuous then writeContinuous env.mode startT endT minZ g
        else match steps with
          | some t => ([], (stepInitFromText t).map (fun _ => ({} : TempSt α)))
          | none => writeStep env.mode startT endT minZ 10 g
      (w.emit out (printed lines), r.map (fun _ => ()))
  match inp with
  | some p =>
    match w.files p with
    | none => (w, .error .ioError)
    | some _ =>
      let w := w.openW out
      run ((w.files p).getD []) w
  | none => run stdin (w.openW out)

end GCodeUtils
