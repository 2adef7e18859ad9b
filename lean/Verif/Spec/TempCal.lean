import Verif.Model.TempCal

/-
  What a temperature tower is: heights, targets, commands.
-/

set_option linter.unusedSectionVars false

namespace GCodeUtils.Spec

open GCodeUtils

variable {α : Type} [Field α] [LinearOrder α] [IsStrictOrderedRing α] [FloorRing α]

/-- The height at which a layer starts, where its first line knows it. -/
def startHeight (L : Layer α) : Option α :=
  match L.lines with
  | [] => none
  | l :: _ => l.currentZ

/-- The known start heights of the layers of a program. -/
def altitudes (g : GCode α) : List α := g.allLayers.filterMap startHeight

/-- Where the gradient starts: the lowest altitude above `minZ`, or the first altitude if that is lower still. -/
def IsBase (minZ : α) (hs : List α) (b : α) : Prop :=
  ∃ h0 rest, hs = h0 :: rest ∧ b ∈ hs ∧ b ≤ h0 ∧ (b = h0 ∨ minZ < b) ∧ ∀ h ∈ hs, minZ < h → b ≤ h

/-- The text `s` is an unsigned number with one decimal, with value `v`. -/
def ReadsTenths (s : Str) (v : α) : Prop :=
  ∃ a c, a ≠ [] ∧ (∀ d ∈ a, d ∈ c!"0123456789") ∧ c ∈ c!"0123456789" ∧ s = a ++ ['.', c] ∧
    v = (((a ++ [c]).foldl (fun n d => n * 10 + (d.toNat - 48)) 0 : ℕ) : α) / 10

/-- The line inserted for a target temperature: a set-temperature command inside the safety range, an empty line
outside. -/
def IsTempLine (t : α) (s : Str) : Prop :=
  (150 ≤ t ∧ t ≤ 250 ∧ ∃ n, s = c!"M104 S" ++ n ∧ ReadsTenths n t) ∨ (¬ (150 ≤ t ∧ t ≤ 250) ∧ s = [])

/-- `v` is a nearest multiple of 0.1 to `x`. -/
def NearestTenth (x v : α) : Prop := (∃ n : ℤ, v = n / 10) ∧ |v - x| ≤ 1 / 20

/-- The output for layers `Ls` with targets `ts` (one entry per layer, `none` where nothing is inserted) and inserted
texts `ins`. -/
def tower (ins : List (Option Str)) (Ls : List (Layer α)) : List Str :=
  (List.zipWith (fun i L => i.toList ++ L.lines.map (·.raw)) ins Ls).flatten

/-- The run of a temperature tower between heights `b` and `top` where height `c` wants temperature `T c`: the targets
`ts` of the layers, after target `last`. -/
structure Targets (T : α → α) (b top : α) (last : Option α) (Ls : List (Layer α)) (ts : List (Option α)) : Prop where
  length : ts.length = Ls.length
  /-- a target set at a layer is the one wanted at its start height -/
  sound : ∀ (i : ℕ) (t : α) (L : Layer α), ts[i]? = some (some t) → Ls[i]? = some L →
    ∃ c, startHeight L = some c ∧ c ≠ 0 ∧ b ≤ c ∧ c ≤ top ∧ NearestTenth (T c) t
  /-- no target is set twice in a row -/
  change : (last.toList ++ ts.filterMap id).IsChain (· ≠ ·)
  /-- where none is set at a usable height, the target in force is the one wanted -/
  complete : ∀ (i : ℕ) (L : Layer α) (c : α), ts[i]? = some none → Ls[i]? = some L → startHeight L = some c → c ≠ 0 → b ≤ c → c ≤ top →
    ∃ t, (last.toList ++ (ts.take i).filterMap id).getLast? = some t ∧ NearestTenth (T c) t

end GCodeUtils.Spec
