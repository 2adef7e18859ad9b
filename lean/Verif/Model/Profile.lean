import Verif.Model.Stretch

/-
  Reading the nozzle size out of a Cura profile: gcodeutils/stretch/stretch.py `parse_cura_profile`.
-/

namespace GCodeUtils

variable {α : Type} [Field α] [LinearOrder α] [IsStrictOrderedRing α] [FloorRing α]

/-- `text.split(sep, 1)` for a separator of one character. -/
def splitOnce (sep : Char) : Str → List Str
  | [] => [[]]
  | c :: cs =>
    if c = sep then [[], cs]
    else match splitOnce sep cs with
      | [] => [[c]]
      | p :: ps => (c :: p) :: ps

/-- `text.split(sep)` for a separator of one character. -/
def splitAll (sep : Char) : Str → List Str
  | [] => [[]]
  | c :: cs =>
    if c = sep then [] :: splitAll sep cs
    else match splitAll sep cs with
      | [] => [[c]]
      | p :: ps => (c :: p) :: ps

/-- stretch.py:717-726: the loop over the options.  `flt` is Python's `float(text)` (`none` is a `ValueError`), which accepts more
than `parseFloat` does. -/
def nozzleSize (flt : Str → Option α) : List Str → Except Err (Option α)
  | [] => .ok none
  | o :: os =>
    if 0 < o.length then
      match splitOnce '=' o with
      | [key, value] =>
        if key = c!"nozzle_size" then
          match flt value with
          | some w => .ok (some w)
          | none => .error .valueError
        else nozzleSize flt os
      | _ => .error .valueError
    else nozzleSize flt os

/-- stretch.py:715-726 `parse_cura_profile`; the caller (stretch.py:709) gets the width and the returned flag as an option.  `decode`
is `zlib.decompress(base64.b64decode(…))` and may raise.  Under Python 3 (`halfEven`, setup.py:60-66 declares both) the
result is `bytes`, and `bytes.split('\f', 1)` with a `str` separator raises `TypeError`. -/
def parseCuraProfile (mode : RoundMode) (decode : Str → Except Err Str) (flt : Str → Option α) : ProfileOracle α := fun t =>
  match decode t with
  | .error er => .error er
  | .ok text =>
    match mode with
    | .halfEven => .error .typeError
    | .halfAway =>
      match splitOnce '\x0c' text with
      | [opts, _] => nozzleSize flt (splitAll '\x08' opts)
      | _ => .error .valueError

end GCodeUtils
