import Verif.Model.Visit
import Verif.Spec.Layers
import Verif.Spec.Close

/-
  What walking a program means: the sequence of calls a visitor receives.
-/

set_option linter.unusedSectionVars false

namespace GCodeUtils.Spec

open GCodeUtils

variable {α : Type} [Field α] [LinearOrder α] [IsStrictOrderedRing α] [FloorRing α]

/-- A call of the visitor. -/
inductive Event (α : Type) where
  | will (layer : List (PyLine α)) (info : Info)
  | line (l : PyLine α) (info : Info)
  | did (layer : List (PyLine α)) (info : Info)
  deriving DecidableEq, Repr

/-- Number, index and printed flag reported for a layer. -/
structure LayerInfo where
  number : ℕ
  index : ℕ
  printed : Bool
  deriving DecidableEq, Repr

/-- The calls for layers `i`, `i+1`, … when the first line has number `n`: for each layer the announcement with the
number of its first line, its lines numbered in order, the closing call with the number of its last line. -/
def walk (info : ℕ → LayerInfo) : ℕ → ℕ → List (List (PyLine α)) → List (Event α)
  | _, _, [] => []
  | i, n, L :: Ls =>
    .will L ⟨(info i).number, (info i).index, n, (info i).printed⟩ ::
      (L.mapIdx (fun j l => .line l ⟨(info i).number, (info i).index, (n + j : ℕ), (info i).printed⟩) ++
        .did L ⟨(info i).number, (info i).index, ((n + L.length : ℕ) : ℤ) - 1, (info i).printed⟩ :: walk info (i + 1) (n + L.length) Ls)

/-- A visitor receives a call on a program it does not change. -/
def Event.call {ν : Type} (v : Visitor ν α) (g : GCode α) (s : ν) : Event α → Except Err ν
  | .will L i => .ok (v.willVisit s L i)
  | .line l i => .ok (v.visitLine s l i)
  | .did L i => (v.didVisit s g L i).map (·.1)

/-- The visitor does not change the program. -/
def ReadOnly {ν : Type} (v : Visitor ν α) : Prop := ∀ s g L i s' g', v.didVisit s g L i = .ok (s', g') → g' = g

/-- The visitor that notes down its calls. -/
def recorder : Visitor (List (Event α)) α where
  willVisit := fun s L i => s ++ [.will L i]
  visitLine := fun s l i => s ++ [.line l i]
  didVisit := fun s g L i => .ok (s ++ [.did L i], g)

/-- The visitor changes nothing after the layer it was told about, and not the number of layers. -/
def Tame {ν : Type} (v : Visitor ν α) : Prop := ∀ s g L i s' g', v.didVisit s g L i = .ok (s', g') →
  g'.allLayers.length = g.allLayers.length ∧ g'.allLayers.drop (i.layerIndex + 1) = g.allLayers.drop (i.layerIndex + 1)

/-- The visitor, also noting down its calls. -/
def traced {ν : Type} (v : Visitor ν α) : Visitor (ν × List (Event α)) α where
  willVisit := fun s L i => (v.willVisit s.1 L i, s.2 ++ [.will L i])
  visitLine := fun s l i => (v.visitLine s.1 l i, s.2 ++ [.line l i])
  didVisit := fun s g L i =>
    match v.didVisit s.1 g L i with
    | .error er => .error er
    | .ok (s', g') => .ok ((s', s.2 ++ [.did L i]), g')

/-- The rounded recorded heights. -/
def heights (mode : RoundMode) (digits : ℕ) (g : GCode α) : List α := (g.allZs.filterMap id).map (pyRound mode digits)

/-- Two lists of lines look alike: same length, same commands, arguments both absent or at most 0.001 apart. -/
def LookAlike (as bs : List (PyLine α)) : Prop :=
  List.Forall₂ (fun a b => a.command = b.command ∧ Within (1 / 1000) a.x b.x ∧ Within (1 / 1000) a.y b.y ∧
    Within (1 / 1000) a.z b.z ∧ Within (1 / 1000) a.e b.e ∧ Within (1 / 1000) a.f b.f ∧ Within (1 / 1000) a.i b.i ∧
    Within (1 / 1000) a.j b.j) as bs

/-- Number and printed flag of layer `i` (with height `z`): a layer is printed if its rounded height is one of the
rounded recorded heights, and then its number is how many of these are lower; otherwise its number is its
position. -/
structure Numbered (mode : RoundMode) (digits : ℕ) (g : GCode α) (i : ℕ) (z : Option α) (n : LayerInfo) : Prop where
  printed : n.printed = true ↔ ∃ h, z = some h ∧ pyRound mode digits h ∈ heights mode digits g
  number : ∀ h, z = some h → n.printed = true →
    n.number = ((heights mode digits g).filter (fun k => k < pyRound mode digits h)).length
  parsed : n.printed = false → n.number = i

/-- The index reported for layer `i`: the first layer that looks like it (in a light program: itself, or the first
empty layer if it is empty). -/
structure FirstAlike (g : GCode α) (i : ℕ) (n : LayerInfo) : Prop where
  exists_ : ∃ L M : Layer α, g.allLayers[i]? = some L ∧ g.allLayers[n.index]? = some M ∧ n.index ≤ i ∧
    ((g.light = false ∧ LookAlike M.lines L.lines) ∨ (g.light = true ∧ (n.index = i ∨ (M.lines = [] ∧ L.lines = []))))
  first : ∀ (j : ℕ) (L M : Layer α), g.allLayers[i]? = some L → g.allLayers[j]? = some M → j < n.index →
    (g.light = false → ¬ LookAlike M.lines L.lines) ∧ (g.light = true → ¬ (M.lines = [] ∧ L.lines = []))

/-- The pause line. -/
def pauseLine : PyLine α := { (rawToLine c!"M226" : PyLine α) with isMove := false }

/-- No two layers with lines look alike, not even if one of them gets a pause. -/
def Distinct (g : GCode α) : Prop :=
  ∀ (i j : ℕ) (L M : Layer α), g.allLayers[i]? = some L → g.allLayers[j]? = some M → i ≠ j → L.lines ≠ [] →
    ¬ LookAlike L.lines M.lines ∧ ¬ LookAlike (pauseLine :: L.lines) M.lines

/-- Height `z` belongs to a printed layer whose number is in the list. -/
def ShouldPause (mode : RoundMode) (digits : ℕ) (g : GCode α) (pauses : List ℤ) (z : Option α) : Prop :=
  ∃ h, z = some h ∧ pyRound mode digits h ∈ heights mode digits g ∧
    (((heights mode digits g).filter (fun k => k < pyRound mode digits h)).length : ℤ) ∈ pauses

/-- The layers with `k i` pauses at the start of layer `i`. -/
def withPauses (k : ℕ → ℕ) (layers : List (Layer α)) : List (Layer α) :=
  layers.mapIdx (fun i L => { L with lines := List.replicate (k i) pauseLine ++ L.lines })

/-- Empty layers have no height. -/
def EmptyFlat (g : GCode α) : Prop := ∀ L ∈ g.allLayers, L.lines = [] → L.z = none

/-- A line that gives the height of the nozzle. -/
def SetsZ (l : PyLine α) : Prop := l.z ≠ none ∧ (l.isMove = true ∨ l.command = some c!"G92")

/-- Extrusion starts after the height is known. -/
def HeightFirst (ls : List (PyLine α)) : Prop :=
  ∀ pre l post, ls = pre ++ l :: post → l.extruding = some true → ∃ m ∈ pre, SetsZ m

end GCodeUtils.Spec
