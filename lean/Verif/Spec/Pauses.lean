import Verif.Spec.Visit
import Verif.Spec.Bystander
import Verif.Model.Cli

/-
  Texts of a program with pauses between its layers.
-/

set_option linter.unusedSectionVars false

namespace GCodeUtils.Spec

open GCodeUtils

variable {α : Type} [Field α] [LinearOrder α] [IsStrictOrderedRing α] [FloorRing α]

/-- The texts of layers number `n`, `n+1`, …, with `k i` pauses before the texts of layer `i`. -/
def spaced (k : ℕ → ℕ) : ℕ → List (List Str) → List Str
  | _, [] => []
  | n, L :: Ls => List.replicate (k n) c!"M226" ++ L ++ spaced k (n + 1) Ls

/-- The texts of the layers of a program. -/
def layerTexts (g : GCode α) : List (List Str) := g.allLayers.map (fun L => L.lines.map (·.raw))

/-- Number of lists that ask for a pause at layer number `i`. -/
noncomputable def asked (mode : RoundMode) (digits : ℕ) (g : GCode α) (lists : List (List ℤ)) (i : ℕ) : ℕ :=
  open Classical in
  lists.countP (fun p => ∃ L, g.allLayers[i]? = some L ∧ ShouldPause mode digits g p L.z)

/-- Loading a text, adding the pauses of one list and writing the result, for one list after another. -/
def pauseRuns (env : Env α) (light : Bool) (home : Home α) (mode : RoundMode) (digits : ℕ) : Str → List (List ℤ) → Except Err Str
  | text, [] => .ok text
  | text, p :: ps => do
    let g ← GCode.load env (readlines text) light home
    let g' ← g.pauseAt mode digits p
    pauseRuns env light home mode digits g'.write ps

/-- Running `gcode_mod -p n` on its own output, for one `n` after another. -/
def modRuns (env : Env α) : Str → List ℤ → Except Err Str
  | text, [] => .ok text
  | text, n :: ns => do
    let t ← modPipeline env none none false (some n) (readlines text)
    modRuns env t ns

end GCodeUtils.Spec
