/-
  Text primitives: the Python `str` operations the code uses.
  Python text is modelled as a list of characters.
-/

namespace GCodeUtils

/-- Python `str`, as the list of its characters. -/
abbrev Str := List Char

open Lean in
/-- `c!"abc"` is the character list `['a', 'b', 'c']` (so that the kernel can compute with it). -/
macro:max "c!" s:str : term => do
  let cs := s.getString.toList.map (fun c => Syntax.mkCharLit c)
  `([$(cs.toArray),*])

/-- The exceptions the modelled code can raise.  `float('-')`, `int('1.5')`, `array.index` → `valueError`;
`x / 0` → `zeroDivision`; `round(None)`, `None + 1`, `None + 'x'` → `typeError`; list index → `indexError`;
`raise RuntimeError` → `runtimeError`; `raise StopIteration` → `stopIteration`;
an unbound local / missing instance attribute → `attributeError`; `raise NotImplementedError` → `notImplemented`;
opening a missing file → `ioError`. -/
inductive Err where
  | valueError | zeroDivision | typeError | indexError | runtimeError | stopIteration
  | attributeError | notImplemented | ioError
  /-- not a Python exception: the step budget of the model ran out (the Python loop is still running) -/
  | outOfFuel
  deriving DecidableEq, Repr

deriving instance DecidableEq for Except

/-- ASCII whitespace, as removed by `str.strip()` (Python 2 `str`; Python 3 additionally strips a few
non-ASCII blanks, which are not modelled). -/
def isSpace (c : Char) : Bool :=
  c = ' ' || c = '\t' || c = '\n' || c = '\r' || c = '\x0b' || c = '\x0c'

/-- `str.strip()`. -/
def strip (s : Str) : Str :=
  ((s.dropWhile isSpace).reverse.dropWhile isSpace).reverse

/-- `needle in hay` for strings. -/
def hasSub (needle : Str) : Str → Bool
  | [] => needle.isEmpty
  | c :: cs => needle.isPrefixOf (c :: cs) || hasSub needle cs

/-- `hay.startswith(needle)`. -/
def startsWith (needle hay : Str) : Bool := needle.isPrefixOf hay

/-- `str.lower()` restricted to ASCII. -/
def lower (s : Str) : Str := s.map Char.toLower

/-- The regular-expression class `[0-9]`. -/
def isDig (c : Char) : Bool := '0' ≤ c && c ≤ '9'

end GCodeUtils
