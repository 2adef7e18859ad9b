import Verif.Model.GCode

/-
  gcodeutils/gcode_tempcal.py: temperature gradients.
-/

namespace GCodeUtils

variable {α : Type} [Field α] [LinearOrder α] [IsStrictOrderedRing α] [FloorRing α]

/-- gcode_tempcal.py:19-20. -/
def absMinTemp : α := 150
@[inherit_doc absMinTemp] def absMaxTemp : α := 250

/-- gcode_tempcal.py:34-45 `generate_temperature_gcode`. -/
def generateTemperatureGcode (t : α) : Str :=
  if absMinTemp ≤ t ∧ t ≤ absMaxTemp then c!"M104 S" ++ fmtFixed 1 t else []

/-- gcode_tempcal.py:31-32, 29: the mutable attributes. -/
structure TempSt (α : Type) where
  zmin : Option α := none
  lastTarget : Option α := none
  deriving DecidableEq, Repr

/-- `layer[0].current_z` for a non-empty layer. -/
def layerZ (L : Layer α) : Option (Option α) := L.lines.head?.map (·.currentZ)

/-- gcode_tempcal.py:49-62: one layer of the height scan. -/
def scanZmin (minZ : α) (zmin : Option α) (L : Layer α) : Option α :=
  match layerZ L with
  | none => zmin
  | some cz =>
    match zmin with
    | none => cz
    | some zm =>
      match cz with
      | some c => if minZ < c ∧ c < zm then some c else some zm
      | none => some zm

/-- gcode_tempcal.py:47-75 `_parse_gcode` of the base class: `RuntimeError` when the model is too small.
`zmax` is `gcode.zmax`; `None` there is only possible for an object built from no data (whose layers are
empty unless lines were appended later; then the comparison raises `TypeError` in Python 3). -/
def parseHeights (minZ : α) (zmax : Option α) (zmin : Option α) (layers : List (Layer α)) :
    Except Err (α × α) :=
  match layers.foldl (scanZmin minZ) zmin with
  | none => .error .runtimeError
  | some zm =>
    match zmax with
    | none => .error .typeError
    | some zM => if zM ≤ zm then .error .runtimeError else .ok (zm, zM)

/-- `get_temp_for_current_layer` (gcode_tempcal.py:105-107) as a function of `zmin`, `zmax`, `current_z`; a subclass
may return `None` (line 91). -/
abbrev TempFn (α : Type) := α → α → α → Except Err (Option α)

/-- gcode_tempcal.py:88-100: the decision for one non-empty layer at height `cz`: the new state and the
printed line, if any.  `print("")` for a temperature out of bounds prints an empty line. -/
def tempStep (mode : RoundMode) (temp : TempFn α) (zm zM : α) (last : Option α) (cz : Option α) :
    Except Err (Option α × Option Str) :=
  match cz with
  | none => .ok (last, none)
  | some c =>
    if c ≠ 0 ∧ zm ≤ c ∧ c ≤ zM then
      match temp zm zM c with
      | .error er => .error er
      | .ok none => .ok (last, none)
      | .ok (some raw) =>
        let target := pyRound mode 1 raw
        if some target ≠ last then .ok (some target, some (generateTemperatureGcode target))
        else .ok (last, none)
    else .ok (last, none)

/-- gcode_tempcal.py:83-103: the writing loop: printed lines so far and the outcome. -/
def writeLoop (mode : RoundMode) (temp : TempFn α) (zm zM : α) :
    Option α → List (Layer α) → List Str × Except Err (Option α)
  | last, [] => ([], .ok last)
  | last, L :: rest =>
    match layerZ L with
    | none => writeLoop mode temp zm zM last rest
    | some cz =>
      match tempStep mode temp zm zM last cz with
      | .error er => ([], .error er)
      | .ok (last, ins) =>
        let (out, r) := writeLoop mode temp zm zM last rest
        (ins.toList ++ L.lines.map (·.raw) ++ out, r)

/-- gcode_tempcal.py:77-103 `write`: the printed lines and the outcome.  The final attributes are returned on
success (a second `write` on the same object starts from them). -/
def writeTemp (mode : RoundMode) (temp : TempFn α) (minZ : α) (st : TempSt α) (g : GCode α) :
    List Str × Except Err (TempSt α) :=
  match parseHeights minZ g.zmax st.zmin g.allLayers with
  | .error er => ([], .error er)
  | .ok (zm, zM) =>
    let (out, r) := writeLoop mode temp zm zM st.lastTarget g.allLayers
    (out, r.map (fun last => { zmin := some zm, lastTarget := last }))

/-- gcode_tempcal.py:110-124 `GCodeContinuousTempGradient`.  `_parse_gcode` divides by `zmax - zmin`
(non-zero there). -/
def continuousTemp (startT endT : α) : TempFn α := fun zm zM cz =>
  if zM - zm = 0 then .error .zeroDivision
  else
    let delta := (endT - startT) / (zM - zm)
    .ok (some (startT + delta * (cz - zm)))

/-- gcode_tempcal.py:127-141 `GCodeStepTempGradient` with the given number of steps (an exact number; on the
command line `--steps` has no type and arrives as text, which raises `TypeError` in the constructor —
`stepInitFromText`).  `steps = 0` raises in the constructor, see `stepInit`. -/
def stepTemp (startT endT steps : α) : TempFn α := fun zm zM cz =>
  let stepEnd := endT + (endT - startT) / steps
  let n := steps + 1
  if zM - zm = 0 ∨ n = 0 then .error .zeroDivision
  else
    let progress := (((cz - zm) / (zM - zm)) * n) / n
    .ok (some (min (max endT startT) (startT + progress * (stepEnd - startT))))

/-- gcode_tempcal.py:130-137: constructing a step gradient divides by `steps`. -/
def stepInit (steps : α) : Except Err Unit := if steps = 0 then .error .zeroDivision else .ok ()

/-- gcode_tempcal.py:171,132-134: `--steps N` given on the command line is a string; dividing by it raises. -/
def stepInitFromText (_steps : Str) : Except Err Unit := .error .typeError

/-- gcode_tempcal.py:105-107: the base class. -/
def baseTemp : TempFn α := fun _ _ _ => .error .notImplemented

/-- `GCodeContinuousTempGradient(gcode, start_temp, end_temp, min_z_change).write()` on a fresh object. -/
def writeContinuous (mode : RoundMode) (startT endT minZ : α) (g : GCode α) :
    List Str × Except Err (TempSt α) :=
  writeTemp mode (continuousTemp startT endT) minZ {} g

/-- `GCodeStepTempGradient(gcode, start_temp, end_temp, min_z_change, steps).write()` on a fresh object. -/
def writeStep (mode : RoundMode) (startT endT minZ steps : α) (g : GCode α) :
    List Str × Except Err (TempSt α) :=
  match stepInit steps with
  | .error er => ([], .error er)
  | .ok _ => writeTemp mode (stepTemp startT endT steps) minZ {} g

/-- What `print` puts into the output file. -/
def printed (out : List Str) : Str := out.flatMap (fun s => s ++ ['\n'])

end GCodeUtils
