import Verif.Model.Num

/-
  The regular expressions of gcodeutils/gcoder.py:27-33, as hand-written matchers.
-/

namespace GCodeUtils

/-- gcoder.py:27-29 `to_parse`: the letters that start a word. -/
def wordLetters : Str := c!"xyefzijgtmn"

/-- gcoder.py:28 `gcode_parsed_nonargs`. -/
def nonArgLetters : Str := c!"gtmn"

/-- One element of `gcode_exp.findall`: `none` is the pair `('', '')` produced by a comment alternative,
`some (letter, number)` a word. -/
abbrev Tok := Option (Char × Str)

/-- Length of the greedy match of `[0-9]*`. -/
def digLen (s : Str) : ℕ := (s.takeWhile isDig).length

/-- Length of the greedy match of `[0-9]*\.?[0-9]*`. -/
def uNumLen (s : Str) : ℕ :=
  let n := digLen s
  match s.drop n with
  | '.' :: t => n + 1 + digLen t
  | _ => n

/-- Length of the greedy match of `[-+]?[0-9]*\.?[0-9]*` (always matches, possibly the empty text). -/
def numLen (s : Str) : ℕ :=
  match s with
  | c :: t => if c = '-' || c = '+' then 1 + uNumLen t else uNumLen s
  | [] => 0

/-- After an opening parenthesis: length of the match of `[^\(\)]*\)`, if any. -/
def parenLen : Str → Option ℕ
  | [] => none
  | c :: cs =>
    if c = ')' then some 1 else if c = '(' then none else (parenLen cs).map (· + 1)

/-- Length of the match of `.*` (everything up to a newline). -/
def dotLen (s : Str) : ℕ := (s.takeWhile (· ≠ '\n')).length

/-- After an opening parenthesis at position 0: length of the match of `.*\)$`, if any: the text up to the
end (or up to one final newline) is newline-free and ends with `)`. -/
def outerParenLen (cs : Str) : Option ℕ :=
  let body := if cs.getLast? = some '\n' then cs.dropLast else cs
  if body.all (· ≠ '\n') && body.getLast? = some ')' then some body.length else none

/-- After `/` or `*`: length of the match of `.*\n`, if any. -/
def slashLen (cs : Str) : Option ℕ :=
  if cs.any (· = '\n') then some (dotLen cs + 1) else none

/-- Match of `gcode_exp` (gcoder.py:30) at the head of the given text: the token and the match length minus
one.  `start` says whether the head is position 0 of the searched text. -/
def matchTok (start : Bool) (c : Char) (cs : Str) : Option (Tok × ℕ) :=
  if c = '(' then
    match parenLen cs with
    | some n => some (none, n)
    | none => if start then (outerParenLen cs).map (fun n => (none, n)) else none
  else if c = ';' then some (none, dotLen cs)
  else if c = '/' || c = '*' then (slashLen cs).map (fun n => (none, n))
  else if c ∈ wordLetters then some (some (c, cs.take (numLen cs)), numLen cs)
  else none

/-- `gcode_exp.findall`, scanning left to right; `skip` characters still belong to the last match. -/
def findallAux (start : Bool) (skip : ℕ) : Str → List Tok
  | [] => []
  | c :: cs =>
    match skip with
    | k + 1 => findallAux false k cs
    | 0 =>
      match matchTok start c cs with
      | some (t, n) => t :: findallAux false n cs
      | none => findallAux false 0 cs

/-- gcoder.py:30,146 `gcode_exp.findall(text)`. -/
def findall (s : Str) : List Tok := findallAux true 0 s

/-- Match of `specific_exp % code` (gcoder.py:33) at the head of the text: `some (none, n)` for a comment
alternative, `some (some num, n)` when the group matched (`num` is the group text without its first
character). -/
def matchSpecific (code : Char) (c : Char) (cs : Str) : Option (Option Str × ℕ) :=
  if c = '(' then (parenLen cs).map (fun n => (none, n))
  else if c = ';' then some (none, dotLen cs)
  else if c = '/' || c = '*' then (slashLen cs).map (fun n => (none, n))
  else if c = code then some (some (cs.take (numLen cs)), numLen cs)
  else none

/-- `re.findall(specific_exp % code, text)` keeping only the non-empty groups (gcoder.py:123-124). -/
def findSpecificAux (code : Char) (skip : ℕ) : Str → List Str
  | [] => []
  | c :: cs =>
    match skip with
    | k + 1 => findSpecificAux code k cs
    | 0 =>
      match matchSpecific code c cs with
      | some (some num, n) => num :: findSpecificAux code n cs
      | some (none, n) => findSpecificAux code n cs
      | none => findSpecificAux code 0 cs

variable {α : Type} [Field α] [LinearOrder α] [IsStrictOrderedRing α] [FloorRing α]

/-- gcoder.py:122-128 `find_specific_code`: value of the first word with the given (upper-case) letter,
`None` if there is none; `float('')` raises. -/
def findSpecificCode (raw : Str) (code : Char) : Except Err (Option α) :=
  match findSpecificAux code 0 raw with
  | [] => .ok none
  | num :: _ =>
    match (parseFloat num : Option α) with
    | some v => .ok (some v)
    | none => .error .valueError

end GCodeUtils
