import Verif.Spec.Walk

/-
  Which lines of a program the slicer announces as walls, perimeters, edges and skins.
-/

set_option linter.unusedSectionVars false

namespace GCodeUtils.Spec

open GCodeUtils

variable {α : Type} [Field α] [LinearOrder α] [IsStrictOrderedRing α] [FloorRing α]

/-! ### Cura -/

/-- What a comment of Cura announces for the lines after it: a kind of loop, or something else; `none`: nothing. -/
def curaSaid (l : PyLine α) : Option (Option LoopKind) :=
  if c!"TYPE:WALL-OUTER" <:+: l.raw then some (some .outer)
  else if c!"TYPE:WALL-INNER" <:+: l.raw then some (some .inner)
  else if c!"TYPE:SKIN" <:+: l.raw then some (some .other)
  else if c!"TYPE:FILL" <:+: l.raw ∨ c!";TYPE:" <+: l.raw then some none
  else none

/-- The loop that line `n` of a layer belongs to: the one announced last before it in the layer. The announcements themselves belong to
no loop. -/
def curaKind (ls : List (PyLine α)) (n : ℕ) : Option LoopKind :=
  if (ls[n]?.bind curaSaid).isSome then none else ((ls.take n).filterMap curaSaid).getLast?.join

/-- The only announcements are those of walls, skins and the filling. -/
def KnownTypes (ls : List (PyLine α)) : Prop := ∀ l ∈ ls, c!";TYPE:" <+: l.raw → AnyType l

/-! ### Slic3r -/

/-- A travel to the first point of a perimeter. -/
def ToPerimeter (l : PyLine α) : Prop := ¬ c!"; perimeter" <:+: l.raw ∧ c!"; move to first perimeter point" <:+: l.raw

instance (l : PyLine α) : Decidable (ToPerimeter l) := by unfold ToPerimeter; infer_instance

/-- The first perimeter line: is it external? -/
def firstPerimeter (ls : List (PyLine α)) : Option Bool :=
  (ls.find? (fun l => decide (c!"; perimeter" <:+: l.raw))).map (fun l => decide (c!"; perimeter external" <:+: l.raw))

/-- What a line says about where it is, `rest` being the lines after it: in an external perimeter, in another perimeter, or in none. -/
def slic3rSaid (l : PyLine α) (rest : List (PyLine α)) : Option (Option Bool) :=
  if c!"; perimeter" <:+: l.raw then some (some (decide (c!"; perimeter external" <:+: l.raw)))
  else if c!"; move to first perimeter point" <:+: l.raw then (firstPerimeter rest).map some
  else if c!"unretract" <:+: l.raw then none
  else some none

/-- The loops that the lines of a layer belong to. `cur` is the perimeter that the line before belongs to (`some true`: external), and
`ext` the number of external perimeters begun. The first external perimeter of a layer is an outer edge, the others are inner ones. -/
def slic3rKinds (cur : Option Bool) (ext : ℕ) : List (PyLine α) → List (Option LoopKind)
  | [] => []
  | l :: rest =>
    let now := (slic3rSaid l rest).getD cur
    let ext' := if slic3rSaid l rest = some (some true) ∧ (cur ≠ some true ∨ ToPerimeter l) then ext + 1 else ext
    (match now with
      | none => none
      | some false => some .other
      | some true => some (if ext' = 1 then .outer else .inner)) :: slic3rKinds now ext' rest

/-- The layer does not end inside a perimeter. -/
def Finished (ls : List (PyLine α)) : Prop := (slic3rKinds none 0 ls).getLast?.join = none

/-! ### Skeinforge -/

/-- What a tag of Skeinforge announces. -/
def skeinforgeSaid (l : PyLine α) : Option (Option LoopKind) :=
  if l.command = some c!"M101" ∨ l.command = some c!"M103" then none
  else if c!"(<loop>" <+: l.raw then some (some .other)
  else if c!"(<edge> outer" <+: l.raw then some (some .outer)
  else if c!"(<edge>" <+: l.raw then some (some .inner)
  else if c!"(</edge>)" <+: l.raw ∨ c!"(</loop>)" <+: l.raw then some none
  else none

/-! ### all -/

/-- The lines of a layer. -/
def nthLayer (Ls : List (Layer α)) (i : ℕ) : List (PyLine α) := (Ls[i]?.map (·.lines)).getD []

/-- The loop that line `n` of layer `i` belongs to, by the comments of the slicer. -/
def announced (slicer : Slicer) (Ls : List (Layer α)) (i n : ℕ) : Option LoopKind :=
  match slicer with
  | .cura => curaKind (nthLayer Ls i) n
  | .slic3r => (slic3rKinds none 0 (nthLayer Ls i))[n]?.join
  | .skeinforge => ((linesOf (Ls.take i) ++ (nthLayer Ls i).take (n + 1)).filterMap skeinforgeSaid).getLast?.join

/-- The comments are placed so that the filters can follow them, up to layer `i`. -/
def Followable (slicer : Slicer) (Ls : List (Layer α)) (i : ℕ) : Prop :=
  match slicer with
  | .cura => ∀ L ∈ Ls.take (i + 1), Spaced L.lines ∧ QuietEnd L.lines ∧ KnownTypes L.lines
  | .slic3r => ∀ L ∈ Ls.take i, Finished L.lines
  | .skeinforge => True

/-- The line is written anew, with the X and Y words moved by no more than `most` together. -/
def Pushed (ε most : α) (l l' : PyLine α) : Prop :=
  ∃ (m : PyLine α) (dx dy : α), l'.raw = (unsplit m).raw ∧ m.command = l.command ∧ (∀ x, l.x = some x → m.x = some (x + dx)) ∧
    (∀ y, l.y = some y → m.y = some (y + dy)) ∧ dx ^ 2 + dy ^ 2 ≤ ((1 + ε) * most) ^ 2

/-- The line keeps its text, apart from marks added at its end. -/
def OnlyMarked (l l' : PyLine α) : Prop := ∃ s, Marks s ∧ l'.raw = l.raw ++ s

end GCodeUtils.Spec
