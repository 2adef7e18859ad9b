import Verif.Spec.Height

/-
  The layer height of a program, and the heights its layers are recorded under when they lie close together (spiral prints).
-/

set_option linter.unusedSectionVars false

namespace GCodeUtils.Spec

open GCodeUtils

variable {α : Type} [Field α] [LinearOrder α] [IsStrictOrderedRing α] [FloorRing α]

/-- The heights that are left by some lines, in order, from a given height on. -/
def leaves : Option α → List (PyLine α) → List α
  | _, [] => []
  | z, l :: r => (if heightStep z l ≠ z then z.toList else []) ++ leaves (heightStep z l) r

/-- The heights a program leaves, in order. -/
def leftHeights (ls : List (PyLine α)) : List α := leaves none ls

/-- How successive heights are recorded as long as they are apart: the first as it is, the others in hundredths. -/
def recorded (mode : RoundMode) : List α → List α
  | [] => []
  | u :: us => u :: us.map (pyRound mode 2)

/-- The steps between heights in increasing order, in thousandths, other than zero. -/
def stepsOf (mode : RoundMode) (zs : List α) : List α :=
  (List.zipWith (fun a b => pyRound mode 3 (b - a)) zs zs.tail).filter (fun d => decide (d ≠ 0))

/-- The typical step of some heights: the second one from below (the first layer is often thicker), the only one, or 0.1 mm. -/
def Typical (mode : RoundMode) (zs : List α) (h : α) : Prop :=
  ∃ ss : List α, ss.Perm zs ∧ ss.Pairwise (· ≤ ·) ∧
    ((∃ d r, stepsOf mode ss = d :: h :: r) ∨ stepsOf mode ss = [h] ∨ (stepsOf mode ss = [] ∧ h = 1 / 10))

/-- No height is within 0.01 mm of the height recorded before. -/
def NoneClose (mode : RoundMode) (us : List α) : Prop :=
  ∀ a p b, us = a ++ p :: b → ∀ z, (recorded mode a).getLast? = some z → 1 / 100 ≤ |p - z|

/-- The layer height of a program that leaves these heights: it is looked for at the first height that is within 0.01 mm of the one recorded
before, and is then the typical step of the heights recorded up to there. -/
def LayerHeight (mode : RoundMode) (us : List α) (e : Option α) : Prop :=
  (e = none ∧ NoneClose mode us) ∨
  ∃ a p b z h, us = a ++ p :: b ∧ (recorded mode a).getLast? = some z ∧ |p - z| < 1 / 100 ∧ NoneClose mode a ∧
    Typical mode (recorded mode a) h ∧ e = some h

/-- The height `v` under which a layer that ends at height `u` is recorded: `u`, in hundredths or as it is, or the multiple of the layer
height that `u` has reached, in hundredths. -/
def RecordedAt (mode : RoundMode) (e : Option α) (u v : Option α) : Prop :=
  v = u ∨ ∃ p, u = some p ∧ (v = some (pyRound mode 2 p) ∨
    ∃ h, e = some h ∧ ∃ n : ℤ, n * h ≤ p ∧ p < (n + 1) * h ∧ v = some (pyRound mode 2 (n * h)))

/-- The height `w` under which a layer that ends at height `u` is to be recorded after a layer recorded at height `v`, when the heights left
before are `us`: a height that is close to `v` (by less than the layer height, or 0.01 mm if there is none yet) gives the multiple of the
layer height reached by it, another height is taken itself, both in hundredths; without a height before, `u` is taken as it is. -/
def Rule (mode : RoundMode) (us : List α) (v u w : Option α) : Prop :=
  ∀ e0 e1, LayerHeight mode us e0 → LayerHeight mode (us ++ u.toList) e1 →
    (∀ x p, v = some x → u = some p → |p - x| < e0.getD (1 / 100) →
      ∃ h, e1 = some h ∧ ∃ n : ℤ, n * h ≤ p ∧ p < (n + 1) * h ∧ w = some (pyRound mode 2 (n * h))) ∧
    (∀ x p, v = some x → u = some p → e0.getD (1 / 100) ≤ |p - x| → w = some (pyRound mode 2 p)) ∧
    (v = none ∨ u = none → w = u)

/-- The layers of a program, given by their lines and recorded heights (without the empty layer behind the last line): each layer after the
first begins with a change of height; at every other change of height inside a layer the rule gives the height recorded for the layer before,
again, and there is none in the first layer; each layer but the last is recorded under the height the rule gives at its end, which differs
from the one before; the first and the last are recorded under the height at their ends. -/
structure Layered (mode : RoundMode) (Ls : List (List (PyLine α))) (zs : List (Option α)) : Prop where
  begins : ∀ k l r, Ls[k + 1]? = some (l :: r) → heightAfter ((Ls.take (k + 1)).flatten ++ [l]) ≠ heightAfter (Ls.take (k + 1)).flatten
  inside : ∀ k a l b, Ls[k]? = some (a ++ l :: b) → k = 0 ∨ a ≠ [] →
    heightAfter ((Ls.take k).flatten ++ a ++ [l]) ≠ heightAfter ((Ls.take k).flatten ++ a) →
      ∃ j v, k = j + 1 ∧ zs[j]? = some v ∧ Rule mode (leftHeights ((Ls.take k).flatten ++ a)) v (heightAfter ((Ls.take k).flatten ++ a)) v
  rule : ∀ k v w, zs[k]? = some v → zs[k + 1]? = some w → k + 2 < Ls.length →
    Rule mode (leftHeights (Ls.take (k + 2)).flatten) v (heightAfter (Ls.take (k + 2)).flatten) w ∧ w ≠ v
  first : ∀ w, zs[0]? = some w → w = heightAfter (Ls.take 1).flatten
  last : ∀ w, zs[Ls.length - 1]? = some w → Ls ≠ [] → w = heightAfter Ls.flatten

/-- The heights some lines go to, in order, from a given height on: one for each line that changes the height. -/
def changes : Option α → List (PyLine α) → List (Option α)
  | _, [] => []
  | z, l :: r => (if heightStep z l ≠ z then [heightStep z l] else []) ++ changes (heightStep z l) r

/-- The heights that the lines of each layer go to. -/
def changesIn : Option α → List (List (PyLine α)) → List (List (Option α))
  | _, [] => []
  | z, L :: r => changes z L :: changesIn (L.foldl heightStep z) r

/-- The head never goes down. -/
def NeverDown (ls : List (PyLine α)) : Prop :=
  ∀ a l b, ls = a ++ l :: b → ∀ u v, heightAfter a = some u → heightAfter (a ++ [l]) = some v → u ≤ v

end GCodeUtils.Spec
