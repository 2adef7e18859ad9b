import Verif.Model.Cli

/-
  The report that `python gcoder.py file` prints: gcodeutils/gcoder.py `main`.
-/

namespace GCodeUtils

variable {α : Type} [Field α] [LinearOrder α] [IsStrictOrderedRing α] [FloorRing α]

/-- `"%d" % n` for an integer. -/
def intText (n : ℤ) : Str := if n < 0 then '-' :: natDigits n.natAbs else natDigits n.natAbs

/-- gcoder.py:777,875 `"%s" % datetime.timedelta(seconds=n)`: the standard library writes hours, minutes and seconds of the day,
after the number of days if that is not 0 (days are rounded down, so that the rest is never negative).  Simplified: the standard
library refuses more than 999,999,999 days. -/
def durationText (n : ℤ) : Str :=
  let s := (n % 86400).toNat
  let hms := natDigits (s / 3600) ++ [':'] ++ padDigits 2 (s / 60 % 60) ++ [':'] ++ padDigits 2 (s % 60)
  let d := n / 86400
  if d = 0 then hms else intText d ++ (if d = 1 ∨ d = -1 then c!" day, " else c!" days, ") ++ hms

/-- gcoder.py:866-871 `print("\tX: %0.02f - %0.02f (%0.02f)" % dims)`; formatting `None` raises `TypeError`. -/
def rangeLine (axis : Char) (lo hi len : Option α) : Except Err Str :=
  match lo, hi, len with
  | some lo, some hi, some len =>
    .ok (['\t', axis] ++ c!": " ++ fmtFixed 2 lo ++ c!" - " ++ fmtFixed 2 hi ++ c!" (" ++ fmtFixed 2 len ++ c!")\n")
  | _, _, _ => .error .typeError

/-- gcoder.py:865-875: what is printed about a program, up to the first exception.  (A duration of `None` is printed as the text
`None`.) -/
def report (g : GCode α) : Str × Except Err Unit :=
  let out := c!"Dimensions:\n"
  match rangeLine 'X' g.xmin g.xmax g.width with
  | .error er => (out, .error er)
  | .ok t =>
    let out := out ++ t
    match rangeLine 'Y' g.ymin g.ymax g.depth with
    | .error er => (out, .error er)
    | .ok t =>
      let out := out ++ t
      match rangeLine 'Z' g.zmin g.zmax g.height with
      | .error er => (out, .error er)
      | .ok t =>
        let out := out ++ t
        match g.filamentLength with
        | none => (out, .error .typeError)
        | some fl =>
          let out := out ++ c!"Filament used: " ++ fmtFixed 2 fl ++ c!"mm\n"
          let out := out ++ c!"Number of layers: " ++ natDigits g.layersCount ++ c!"\n"
          let out := out ++ c!"Estimated duration: " ++ (match g.duration with | some n => durationText n | none => c!"None") ++ c!"\n"
          (out, .ok ())

/-- gcoder.py:857-875 `main`; `prog` is the name of the program, `arg` its argument if there is one, `sizes` what is printed about
the memory used by line objects.  Simplified: the mode "rU" reads a carriage return as the end of a line; here only newlines end lines
(`strip` removes a carriage return before a newline). -/
def reportMain (env : Env α) (prog sizes : Str) (arg : Option Str) (w : World) : World × Except Err Unit :=
  match arg with
  | none => (w.emit none (c!"usage: " ++ prog ++ c!" filename.gcode\n"), .ok ())
  | some file =>
    let w := w.emit none sizes
    match w.files file with
    | none => (w, .error .ioError)
    | some text =>
      match (loadFile env (readlines text) : Except Err (GCode α)) with
      | .error er => (w, .error er)
      | .ok g =>
        let (t, r) := report g
        (w.emit none t, r)

end GCodeUtils
