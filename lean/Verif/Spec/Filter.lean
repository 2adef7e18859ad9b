import Verif.Model.Filter
import Verif.Spec.Layers
import Verif.Spec.Exec

/-
  Specifications for the filters: what splicing means, which programs the translation handles, when the extruder
  tracking of the relative-extrusion filter is right.
-/

set_option linter.unusedSectionVars false

namespace GCodeUtils.Spec

open GCodeUtils

variable {α : Type} [Field α] [LinearOrder α] [IsStrictOrderedRing α] [FloorRing α]

/-- The lines of a program, layer after layer. -/
def program (g : GCode α) : List (PyLine α) := (layerLines g).flatten

/-- Same command and same argument values. -/
def SameArgs (a b : PyLine α) : Prop :=
  a.command = b.command ∧ a.x = b.x ∧ a.y = b.y ∧ a.z = b.z ∧ a.e = b.e ∧ a.f = b.f ∧ a.i = b.i ∧ a.j = b.j

/-- Corresponding layers have the same height and duration and corresponding lines are in the relation. -/
def LayerWise (R : PyLine α → PyLine α → Prop) (Ls Ls' : List (Layer α)) : Prop :=
  List.Forall₂ (fun L L' => L'.z = L.z ∧ L'.duration = L.duration ∧ List.Forall₂ R L.lines L'.lines) Ls Ls'

/-- What stands in the output for a line. -/
def replacement (l : PyLine α) : FResult α → List (PyLine α)
  | .keep => [l]
  | .one r => [r]
  | .many rs => rs

/-- A filter over a list of lines: call it on each line in turn and put its replacements one after the other. -/
def filterLines {σ : Type} (f : OpFilter σ α) : σ → List (PyLine α) → Except Err (σ × List (PyLine α))
  | s, [] => .ok (s, [])
  | s, l :: ls =>
    match f s l with
    | .error e => .error e
    | .ok (s1, r) =>
      match filterLines f s1 ls with
      | .error e => .error e
      | .ok (s2, out) => .ok (s2, replacement l r ++ out)

/-- The same, layer by layer; the state is handed from layer to layer and the layers keep their height and
duration. -/
def filterLayers {σ : Type} (f : OpFilter σ α) : σ → List (Layer α) → Except Err (σ × List (Layer α))
  | s, [] => .ok (s, [])
  | s, L :: Ls =>
    match filterLines f s L.lines with
    | .error e => .error e
    | .ok (s1, out) =>
      match filterLayers f s1 Ls with
      | .error e => .error e
      | .ok (s2, outs) => .ok (s2, { L with lines := out } :: outs)

/-! ### translation -/

/-- State of one axis with respect to the translation: `home`: the head is at home (power-on or `G28`); `homeOff`: at
home, but a `G92` has named the axis; `placed`: an absolute move has named the axis; `placedOff`: the same after a
`G92` at home. -/
inductive AxisSt where
  | home | homeOff | placed | placedOff
  deriving DecidableEq, Repr

/-- An absolute move naming the axis. -/
def AxisSt.place : AxisSt → AxisSt
  | .home => .placed
  | .homeOff => .placedOff
  | a => a

/-- A `G92` naming the axis: allowed at home, and again once the head has been placed after such a `G92`. -/
def AxisSt.relabel : AxisSt → Option AxisSt
  | .home => some .homeOff
  | .placedOff => some .placedOff
  | _ => none

/-- A `G28` of the axis: allowed as long as no `G92` has named the axis. -/
def AxisSt.rehome : AxisSt → Option AxisSt
  | .home => some .home
  | .placed => some .home
  | _ => none

/-- Is the head displaced on this axis? -/
def AxisSt.isPlaced : AxisSt → Bool
  | .placed => true
  | .placedOff => true
  | _ => false

/-- Mode stated by the program so far (`some true` after `G90`, `some false` after `G91`) and the two axes. -/
structure TrackSt where
  mode : Option Bool := none
  x : AxisSt := .home
  y : AxisSt := .home
  deriving DecidableEq, Repr

/-- One line; `none`: the line is outside the class of programs for which translation works. -/
def TrackSt.step (t : TrackSt) (l : PyLine α) : Option TrackSt :=
  if IsMove l then
    if l.x = none ∧ l.y = none then some t
    else match t.mode with
      | none => none
      | some false => some t
      | some true => some { t with x := if l.x.isSome then t.x.place else t.x, y := if l.y.isSome then t.y.place else t.y }
  else if HasCmd l c!"G90" then some { t with mode := some true }
  else if HasCmd l c!"G91" then some { t with mode := some false }
  else if HasCmd l c!"G28" then
    let all := !(l.x.isSome || l.y.isSome || l.z.isSome)
    match (if l.x.isSome || all then t.x.rehome else some t.x), (if l.y.isSome || all then t.y.rehome else some t.y) with
    | some x, some y => some { t with x := x, y := y }
    | _, _ => none
  else if HasCmd l c!"G92" then
    if l.x = none ∧ l.y = none ∧ l.z = none then none
    else match (if l.x.isSome then t.x.relabel else some t.x), (if l.y.isSome then t.y.relabel else some t.y) with
      | some x, some y => some { t with x := x, y := y }
      | _, _ => none
  else some t

/-- All lines. -/
def TrackSt.run (t : TrackSt) : List (PyLine α) → Option TrackSt
  | [] => some t
  | l :: ls => (t.step l).bind (fun t => t.run ls)

/-- Every move naming X or Y comes after a `G90` or `G91`. -/
def ModeStated (ls : List (PyLine α)) : Prop :=
  ∀ pre l post, ls = pre ++ l :: post → IsMove l → (l.x ≠ none ∨ l.y ≠ none) → ∃ m ∈ pre, HasCmd m c!"G90" ∨ HasCmd m c!"G91"

/-- What translation may do to a line. -/
structure Translated (tx ty : α) (l l' : PyLine α) : Prop where
  command : l'.command = l.command
  rest : l'.z = l.z ∧ l'.e = l.e ∧ l'.f = l.f ∧ l'.i = l.i ∧ l'.j = l.j
  other : ¬ IsMove l → ¬ HasCmd l c!"G92" → l' = l
  present : ¬ HasCmd l c!"G92" ∨ l.x ≠ none ∨ l.y ≠ none ∨ l.z ≠ none →
    l'.x.isSome = l.x.isSome ∧ l'.y.isSome = l.y.isSome
  amountX : IsMove l → l'.x = l.x ∨ l'.x = l.x.map (· + tx)
  amountY : IsMove l → l'.y = l.y ∨ l'.y = l.y.map (· + ty)

/-! ### relative extrusion -/

/-- What conversion to relative extrusion may do to a line. -/
structure Relativised (l l' : PyLine α) : Prop where
  kept : ¬ HasCmd l c!"M82" → (¬ IsMove l ∨ l.e = none) → l' = l
  switch : HasCmd l c!"M82" → HasCmd l' c!"M83" ∧ l'.raw = c!"M83"
  command : ¬ HasCmd l c!"M82" → l'.command = l.command
  rest : ¬ HasCmd l c!"M82" → l'.x = l.x ∧ l'.y = l.y ∧ l'.z = l.z ∧ l'.f = l.f ∧ l'.i = l.i ∧ l'.j = l.j ∧ l'.e.isSome = l.e.isSome


/-- Every move with an E word comes after an `M82` or `M83`. -/
def EModeStated (ls : List (PyLine α)) : Prop :=
  ∀ pre l post, ls = pre ++ l :: post → IsMove l → l.e ≠ none → ∃ m ∈ pre, HasCmd m c!"M82" ∨ HasCmd m c!"M83"

/-- What the program has stated about extrusion: `known`: an `M82` or `M83` has occurred; `rel`: the last one was
`M83`; `synced`: no relative `E` move since the last `G92 E` (or ever). -/
structure EModeSt where
  known : Bool := false
  rel : Bool := false
  synced : Bool := true
  deriving DecidableEq, Repr

/-- One line; `none`: outside the class of programs for which the conversion works. -/
def EModeSt.step (t : EModeSt) (l : PyLine α) : Option EModeSt :=
  if IsMove l then
    if l.e = none then some t
    else if !t.known then none
    else if t.rel then some { t with synced := false }
    else if t.synced then some t else none
  else if HasCmd l c!"M83" then some { t with known := true, rel := true }
  else if HasCmd l c!"M82" then some { t with known := true, rel := false }
  else if HasCmd l c!"G90" ∨ HasCmd l c!"G91" then (if t.known then none else some t)
  else if HasCmd l c!"G92" then
    if l.e = none then (if l.x = none ∧ l.y = none ∧ l.z = none then some { t with synced := false } else some t)
    else some { t with synced := true }
  else some t

/-- All lines. -/
def EModeSt.run (t : EModeSt) : List (PyLine α) → Option EModeSt
  | [] => some t
  | l :: ls => (t.step l).bind (fun t => t.run ls)

end GCodeUtils.Spec
