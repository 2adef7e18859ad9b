import Verif.Spec.Grammar
import Verif.Spec.Text
import Verif.Model.GCode

/-
  Lines that say nothing about motion, units, modes, tools or pauses, and programs with such lines added.
-/

namespace GCodeUtils.Spec

open GCodeUtils

variable {α : Type}

/-- A comment, or a command that is no G and no T command and does not set the extrusion mode. -/
def Bystander (r : Str) : Prop :=
  ∀ ws, Reads letters true (lower r) ws → ∀ c, commandOf r ws = some c →
    c.head? ≠ some 'G' ∧ c.head? ≠ some 'T' ∧ c ≠ c!"M82" ∧ c ≠ c!"M83"

/-- The second list is the first with further elements anywhere, all of which satisfy `P`. -/
inductive Added {β : Type} (P : β → Prop) : List β → List β → Prop
  | nil : Added P [] []
  | same (x : β) {a b : List β} : Added P a b → Added P (x :: a) (x :: b)
  | extra (y : β) {a b : List β} : P y → Added P a b → Added P a (y :: b)

/-- A blank line, or a line that is a bystander when the blanks around it are removed. -/
def IdleText (d : Str) : Prop := IsBlank d ∨ ∃ s, IsStrip d s ∧ Bystander s

/-- Layers at the same height and of the same duration; the second may have further lines. -/
def LayerWithMore (L L' : Layer α) : Prop :=
  L'.z = L.z ∧ L'.duration = L.duration ∧ Added (fun l => Bystander l.raw) L.lines L'.lines

/-- Everything that loading finds out about the program as a whole. -/
def SameFindings (g g' : GCode α) : Prop :=
  g'.m = g.m ∧ g'.home = g.home ∧ g'.allZs = g.allZs ∧ g'.est = g.est ∧ g'.filamentLength = g.filamentLength ∧ g'.duration = g.duration ∧
  g'.xmin = g.xmin ∧ g'.xmax = g.xmax ∧ g'.ymin = g.ymin ∧ g'.ymax = g.ymax ∧ g'.zmin = g.zmin ∧ g'.zmax = g.zmax ∧
  g'.width = g.width ∧ g'.depth = g.depth ∧ g'.height = g.height

end GCodeUtils.Spec
