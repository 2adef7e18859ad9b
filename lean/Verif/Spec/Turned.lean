import Verif.Spec.Grammar
import Verif.Spec.Measured

/-
  Specification for turned and mirrored programs: the eight symmetries of the square.
-/

set_option linter.unusedSectionVars false

namespace GCodeUtils.Spec

open GCodeUtils

variable {α : Type} [Field α] [LinearOrder α] [IsStrictOrderedRing α] [FloorRing α]

/-- A turn by a multiple of a right angle or a reflection: first the axes may be exchanged, then each axis may be reversed. -/
structure Turn where
  swap : Bool
  negX : Bool
  negY : Bool
  deriving DecidableEq

/-- `-1` or `1`. -/
def sign (α : Type) [Field α] (neg : Bool) : α := if neg then -1 else 1

/-- Where a point comes to lie: its new X and Y. -/
def Turn.x (T : Turn) (x y : α) : α := sign α T.negX * (if T.swap then y else x)
@[inherit_doc Turn.x] def Turn.y (T : Turn) (x y : α) : α := sign α T.negY * (if T.swap then x else y)

/-- Left and right are exchanged. -/
def Turn.flips (T : Turn) : Bool := xor T.swap (xor T.negX T.negY)

/-- Clockwise arcs become counter-clockwise ones. -/
def Turn.cmd (T : Turn) (c : Str) : Str :=
  if T.flips then (if c = c!"G2" then c!"G3" else if c = c!"G3" then c!"G2" else c) else c

/-- The letter that a coordinate word has after the turn. -/
def Turn.letter (T : Turn) (k : Char) : Char :=
  if T.swap then (if k = 'x' then 'y' else if k = 'y' then 'x' else if k = 'i' then 'j' else if k = 'j' then 'i' else k) else k

/-- The sign of the numbers of coordinate words with this letter (after the turn). -/
def Turn.signOf (T : Turn) (α : Type) [Field α] (k : Char) : α := if k = 'x' ∨ k = 'i' then sign α T.negX else sign α T.negY

/-- Two words, or comments, before and after the turn. -/
inductive TurnWord (T : Turn) (α : Type) [Field α] : Option (Char × Str) → Option (Char × Str) → Prop
  | comment : TurnWord T α none none
  | same (k : Char) (n : Str) : k ∉ c!"xyij" → TurnWord T α (some (k, n)) (some (k, n))
  | clockwise : T.flips = true → TurnWord T α (some ('g', c!"2")) (some ('g', c!"3"))
  | counter : T.flips = true → TurnWord T α (some ('g', c!"3")) (some ('g', c!"2"))
  | bare (k : Char) : k ∈ c!"xyij" → TurnWord T α (some (k, [])) (some (T.letter k, []))
  | bad (k : Char) (n : Str) : k ∈ c!"xyij" → n ≠ [] → (∀ v : α, ¬ Decimal n v) → TurnWord T α (some (k, n)) (some (T.letter k, n))
  | moved (k : Char) (n n' : Str) (v : α) : k ∈ c!"xyij" → Decimal n v → Decimal n' (T.signOf α (T.letter k) * v) →
      TurnWord T α (some (k, n)) (some (T.letter k, n'))

/-- Two lines, before and after the turn; a waiting time is written in the same way. -/
def TurnLine (T : Turn) (α : Type) [Field α] (r s : Str) : Prop :=
  ∃ ws vs, Reads letters true (lower r) ws ∧ Reads letters true (lower s) vs ∧ List.Forall₂ (TurnWord T α) ws vs ∧
    commandOf s vs = (commandOf r ws).map T.cmd ∧ (commandOf r ws = some c!"G4" → r = s)

/-- The same for lines of a file: blank lines correspond to blank lines. -/
def TurnText (T : Turn) (α : Type) [Field α] (t u : Str) : Prop :=
  (strip t = [] ∧ strip u = []) ∨ (strip t ≠ [] ∧ strip u ≠ [] ∧ TurnLine T α (strip t) (strip u))

/-- The two coordinates of a line after the turn. -/
def Turn.optX (T : Turn) (x y : Option α) : Option α := (if T.swap then y else x).map (sign α T.negX * ·)
@[inherit_doc Turn.optX] def Turn.optY (T : Turn) (x y : Option α) : Option α := (if T.swap then x else y).map (sign α T.negY * ·)

/-- The second line is the first one after the turn: its coordinate words and the recorded position are turned, the rest is the same
but for the text. -/
def TurnedLine (T : Turn) (l l' : PyLine α) : Prop :=
  l' = { l with raw := l'.raw, command := l.command.map T.cmd
                x := T.optX l.x l.y, y := T.optY l.x l.y, i := T.optX l.i l.j, j := T.optY l.i l.j
                currentX := T.optX l.currentX l.currentY, currentY := T.optY l.currentX l.currentY }

/-- The home position after the turn. -/
def Turn.home (T : Turn) (h : Home α) : Home α := { x := T.x h.x h.y, y := T.y h.x h.y, z := h.z }

/-- A range of numbers, reversed if `neg`. -/
def rangeOf (neg : Bool) (r : Option α × Option α) : Option α × Option α := if neg then (r.2.map (- ·), r.1.map (- ·)) else r

/-- The bounding box of the second program is that of the first, turned. -/
structure TurnedBox (T : Turn) (g g' : GCode α) : Prop where
  x : (g'.xmin, g'.xmax) = rangeOf T.negX (if T.swap then (g.ymin, g.ymax) else (g.xmin, g.xmax))
  y : (g'.ymin, g'.ymax) = rangeOf T.negY (if T.swap then (g.xmin, g.xmax) else (g.ymin, g.ymax))
  width : g'.width = if T.swap then g.depth else g.width
  depth : g'.depth = if T.swap then g.width else g.depth

/-- The lengths that the duration estimate computes do not depend on the direction. -/
def EvenHypot (hypot : α → α → α) : Prop := ∀ a b, hypot b a = hypot a b ∧ hypot (-a) b = hypot a b

end GCodeUtils.Spec
