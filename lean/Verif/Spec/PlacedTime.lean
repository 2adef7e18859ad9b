import Verif.Spec.LayerTime
import Verif.Spec.Stretch

/-
  Which moves of a program depend on where the head comes from.
-/

namespace GCodeUtils.Spec

open GCodeUtils

variable {α : Type} [Field α] [LinearOrder α] [IsStrictOrderedRing α] [FloorRing α]

/-- Line `i` is a linear move that is the first X/Y move of the program, or the first linear move after it (whose entry speed
depends on the direction the head came from). -/
def Arriving (ls : List (PyLine α)) (i : ℕ) : Prop :=
  ∃ l, ls[i]? = some l ∧ Linear l ∧
    (((∀ k ∈ ls.take i, ¬ XYMove k) ∧ XYMove l) ∨
      ∃ a m b, ls.take i = a ++ m :: b ∧ (∀ k ∈ a, ¬ XYMove k) ∧ XYMove m ∧ ∀ k ∈ b, ¬ Linear k)

/-- The first X/Y move names both axes. -/
def FirstNamesBoth (ls : List (PyLine α)) : Prop :=
  ∀ a m b, ls = a ++ m :: b → (∀ k ∈ a, ¬ XYMove k) → XYMove m → m.x.isSome = true ∧ m.y.isSome = true

/-- Two programs with the same lines, of which the second is at another place, take the same time, except for the way to the place:
every line but the arriving ones takes the same time; so does every layer before which there are an X/Y move and a further linear
move; and what follows such two moves adds the same to both estimates of the whole. -/
structure SameTimes (hyp : α → α → α) (g g' : GCode α) : Prop where
  lines : ∀ i, ¬ Arriving g.lines i → (lineTimes hyp .rest g'.lines)[i]? = (lineTimes hyp .rest g.lines)[i]?
  layers : ∀ {pre post pre' post' : List (Layer α)} {L L' : Layer α} {a b : List (PyLine α)} {m k : PyLine α},
    g.allLayers = pre ++ L :: post → g'.allLayers = pre' ++ L' :: post' → pre'.length = pre.length →
    pre.flatMap (·.lines) = a ++ m :: b → XYMove m → k ∈ b → Linear k → L'.duration = L.duration
  whole : ∀ {n : ℕ} {a b : List (PyLine α)} {m k : PyLine α}, g.lines.take n = a ++ m :: b → XYMove m → k ∈ b → Linear k →
    ∃ r, g.duration = some (pyInt (timeUpTo hyp g.lines n + r)) ∧ g'.duration = some (pyInt (timeUpTo hyp g'.lines n + r))

end GCodeUtils.Spec
