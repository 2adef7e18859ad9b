import Verif.Spec.Visit

/-
  Heights of lines, and what a layer is.
-/

set_option linter.unusedSectionVars false

namespace GCodeUtils.Spec

open GCodeUtils

variable {α : Type} [Field α] [LinearOrder α] [IsStrictOrderedRing α] [FloorRing α]

/-- The height after a line, in program coordinates. -/
def heightStep (z : Option α) (l : PyLine α) : Option α :=
  if l.command = some c!"G92" ∨ (l.isMove = true ∧ (l.relative ≠ some true ∨ z = none)) then l.z.or z
  else if l.isMove = true then z.map (· + l.z.getD 0)
  else z

/-- The height after some lines. -/
def heightAfter (ls : List (PyLine α)) : Option α := ls.foldl heightStep none

/-- The lines whose extrusion is attributed to layer `k`: a line that begins a layer (other than the first) counts for the layer before. -/
def attributed (Ls : List (List (PyLine α))) (k : ℕ) : List (PyLine α) :=
  (if k = 0 then Ls.getD k [] else (Ls.getD k []).tail) ++ (Ls.getD (k + 1) []).take 1

/-- Some of the lines extrudes. -/
def Prints (ls : List (PyLine α)) : Prop := ∃ l ∈ ls, l.extruding = some true

/-- A whole number of hundredths of a millimetre. -/
def Hundredths (z : α) : Prop := ∃ n : ℤ, z = n / 100

/-- The heights of a program are given in hundredths. -/
def HeightsHundredths (ls : List (PyLine α)) : Prop := ∀ l ∈ ls, SetsZ l → ∀ z, l.z = some z → Hundredths z

/-- Every change of a known height is of at least 0.015 mm. -/
def HeightsApart (ls : List (PyLine α)) : Prop :=
  ∀ a l b, ls = a ++ l :: b → ∀ u v, heightAfter a = some u → heightAfter (a ++ [l]) = some v → v = u ∨ 3 / 200 ≤ |v - u|

/-- The height recorded for a layer is its height, rounded to at most 0.005 mm. -/
def RecordedAs (h z : Option α) : Prop := (h = none ∧ z = none) ∨ ∃ u v, h = some u ∧ z = some v ∧ |v - u| ≤ 1 / 200

end GCodeUtils.Spec
