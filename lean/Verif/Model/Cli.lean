import Verif.Model.Arc
import Verif.Model.Stretch
import Verif.Model.TempCal
import Verif.Model.Visit

/-
  Command lines and Cura plugins: gcodeutils/gcode_mod.py, gcode_tempcal.py (main), gcode_stretch.py,
  gcode_optimize_arcs.py, cura_plugins/stretch_plugin.py, cura_plugins/tempcal_plugin.py.
  Argument syntax and logging are not modelled; the order of file operations is.
-/

namespace GCodeUtils

variable {α : Type} [Field α] [LinearOrder α] [IsStrictOrderedRing α] [FloorRing α]

/-- `file.readlines()` / iteration over a text file: the text cut after every newline. -/
def readlines : Str → List Str
  | [] => []
  | c :: cs =>
    if c = '\n' then ['\n'] :: readlines cs
    else match readlines cs with
      | [] => [[c]]
      | l :: ls => (c :: l) :: ls

/-- Files and standard output. -/
structure World where
  files : Str → Option Str
  stdout : Str

/-- Replace the contents of a file. -/
def World.put (w : World) (p : Str) (t : Str) : World :=
  { w with files := fun q => if q = p then some t else w.files q }

/-- Where a program writes: a file already opened (and truncated) with mode 'w', or standard output. -/
def World.emit (w : World) (out : Option Str) (t : Str) : World :=
  match out with
  | some p => w.put p ((w.files p).getD [] ++ t)
  | none => { w with stdout := w.stdout ++ t }

/-- `argparse.FileType('w')` / `open(p, 'w')`: the file exists and is empty from now on. -/
def World.openW (w : World) (out : Option Str) : World :=
  match out with
  | some p => w.put p []
  | none => w

/-- The common shape of the three filtering command lines (gcode_mod.py:35-38,57-71, gcode_stretch.py:25-28,
66-79, gcode_optimize_arcs.py:16-19,38-47 without `--inplace`): argparse opens the input for reading and then
the output for writing; the input is read, processed, and the result written. -/
def filterMain (pipeline : List Str → Except Err Str) (inp : Str) (out : Option Str) (w : World) :
    World × Except Err Unit :=
  match w.files inp with
  | none => (w, .error .ioError)
  | some _ =>
    let w := w.openW out
    match pipeline (readlines ((w.files inp).getD [])) with
    | .error er => (w, .error er)
    | .ok t => (w.emit out t, .ok ())

/-- gcode_mod.py:56-71: load, translate if `-x`/`-y`, convert if `-e`, construct the iterator, pause if `-p`,
write. -/
def modPipeline (env : Env α) (x y : Option α) (e : Bool) (p : Option ℤ) (data : List Str) :
    Except Err Str := do
  let g ← GCode.load env data
  let g ← if x.isSome || y.isSome then g.translate x y else .ok g
  let g ← if e then g.toRelativeE else .ok g
  let zs ← iteratorZs env.mode 2 g
  match p with
  | some n =>
    let (_, g) ← accept env.mode 2 zs (pauseVisitor [n]) () g
    .ok g.write
  | none => .ok g.write

/-- gcode_stretch.py:12-18 `is_cura_gcode`. -/
def isCuraGcode (g : GCode α) : Bool := g.allLines.any (fun l => hasSub c!"CURA_PROFILE_STRING" l.raw)

/-- gcode_stretch.py:66-79. -/
def stretchPipeline (env : Env α) (sqrt : α → α) (fuel : ℕ) (repo : StretchRepo α)
    (profile : ProfileOracle α) (data : List Str) : Except Err Str := do
  let g ← GCode.load env data
  let g ← g.toRelativeE
  let g ← g.stretch sqrt fuel (if isCuraGcode g then .cura else .slic3r) repo profile
  .ok g.write

/-- gcode_optimize_arcs.py:38-47. -/
def arcPipeline (env : Env α) (t : Trig α) (data : List Str) : Except Err Str := do
  let g ← GCode.load env data
  let g ← g.optimizeArcs t
  .ok g.write

/-- gcode_optimize_arcs.py:20,47 with `--inplace` and a named input file: the output argument (if given) is
still opened for writing by argparse, but the result goes to the input file, which is opened for writing only
after the filter has run. -/
def inplaceMain (pipeline : List Str → Except Err Str) (inp : Str) (out : Option Str) (w : World) :
    World × Except Err Unit :=
  match w.files inp with
  | none => (w, .error .ioError)
  | some _ =>
    let w := w.openW out
    match pipeline (readlines ((w.files inp).getD [])) with
    | .error er => (w, .error er)
    | .ok t => ((w.openW (some inp)).emit (some inp) t, .ok ())

/-- `GCode(open file)`: a file object is always true, so `prepare` takes the first branch even for an empty
file (gcoder.py:307-313). -/
def loadFile (env : Env α) (data : List Str) : Except Err (GCode α) :=
  preprocessAll env (GCode.blank false Home.init) (readLines data)

/-- cura_plugins/stretch_plugin.py:17-24. -/
def stretchPlugin (env : Env α) (sqrt : α → α) (fuel : ℕ) (strength : α) (profile : ProfileOracle α)
    (file : Str) (w : World) : World × Except Err Unit :=
  let body : Except Err Str := do
    let g ← loadFile env (readlines ((w.files file).getD []))
    let g ← g.toRelativeE
    let g ← g.stretch sqrt fuel .cura (StretchRepo.default strength) profile
    .ok g.write
  match w.files file with
  | none => (w, .error .ioError)
  | some _ =>
    match body with
    | .error er => (w, .error er)
    | .ok t => ((w.openW (some file)).emit (some file) t, .ok ())

/-- cura_plugins/tempcal_plugin.py:18-23. -/
def tempcalPlugin (env : Env α) (startT endT minZ steps : α) (file : Str) (w : World) :
    World × Except Err Unit :=
  match w.files file with
  | none => (w, .error .ioError)
  | some text =>
    match loadFile env (readlines text) with
    | .error er => (w, .error er)
    | .ok g =>
      let w := w.openW (some file)
      let (out, r) := writeStep env.mode startT endT minZ steps g
      (w.emit (some file) (printed out), r.map (fun _ => ()))

/-- gcode_tempcal.py:144-198 `main`; `steps` is the text of `--steps` if given (default: the number 10). -/
def tempcalMain (env : Env α) (startT endT minZ : α) (continuous : Bool) (steps : Option Str)
    (inp : Str) (out : Option Str) (w : World) : World × Except Err Unit :=
  match w.files inp with
  | none => (w, .error .ioError)
  | some _ =>
    let w := w.openW out
    match (GCode.load env (readlines ((w.files inp).getD [])) : Except Err (GCode α)) with
    | .error er => (w, .error er)
    | .ok g =>
      let (lines, r) :=
        if continuous then writeContinuous env.mode startT endT minZ g
        else match steps with
          | some t => ([], (stepInitFromText t).map (fun _ => ({} : TempSt α)))
          | none => writeStep env.mode startT endT minZ 10 g
      (w.emit out (printed lines), r.map (fun _ => ()))

end GCodeUtils
