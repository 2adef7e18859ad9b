import Verif.Model.GCode

/-
  gcoder.py:402-778 `_preprocess` with both callbacks given.  The callbacks are observers: they return normally and
  change nothing.  The model records the calls made, also those made before an exception ends the loading.
-/

namespace GCodeUtils

variable {α : Type} [Field α] [LinearOrder α] [IsStrictOrderedRing α] [FloorRing α]

/-- One call of a callback. -/
inductive Callback (α : Type) where
  /-- gcoder.py:712-713 `line_callback(line)` -/
  | line (l : PyLine α)
  /-- gcoder.py:700-701 `layer_callback(self, len(all_layers) - 1)`; `layers` is `self.all_layers` at that moment -/
  | layer (k : ℕ) (layers : List (Layer α))
  deriving DecidableEq, Repr

/-- gcoder.py:477-713: one iteration of the loop with `build_layers=True`, and the calls it makes.  The line handed to
`line_callback` is `line`, the heavy copy for light programs (gcoder.py:473-480). -/
def buildStepCb (env : Env α) (light : Bool) (home : Home α) (s : BuildSt α) (l0 : PyLine α) :
    Except Err (BuildSt α × List (Callback α)) :=
  match processLine home s.m l0 with
  | .error er => .error er
  | .ok (m, l) =>
    let stored := if light then l0 else l
    match l.command with
    | none =>
      .ok ({ s with m := m, ls := recordLine s.ls stored, done := s.done ++ [stored] }, [.line l])
    | some cmd =>
      if cmd.isEmpty then
        .ok ({ s with m := m, ls := recordLine s.ls stored, done := s.done ++ [stored] }, [.line l])
      else
        let ls := { s.ls with hasExtrusion := s.ls.hasExtrusion || l.extruding.getD false }
        let bb := stepBBox m.maxE s.bb l
        match stepDur env s.ds l with
        | .error er => .error er
        | .ok ds =>
          let (ls, closed) := stepLayer env.mode ls l ds.total ds.layerBegin
          let ds := if closed then { ds with layerBegin := ds.total } else ds
          let calls := if closed then [.layer (ls.allLayers.length - 1) ls.allLayers, .line l] else [.line l]
          .ok ({ m := m, ls := recordLine ls stored, bb := bb, ds := ds, done := s.done ++ [stored] }, calls)

/-- gcoder.py:477-713: the loop with callbacks. -/
def buildLoopCb (env : Env α) (light : Bool) (home : Home α) :
    BuildSt α → List (PyLine α) → List (Callback α) × Except Err (BuildSt α)
  | s, [] => ([], .ok s)
  | s, l :: ls =>
    match buildStepCb env light home s l with
    | .error er => ([], .error er)
    | .ok (s', calls) =>
      let r := buildLoopCb env light home s' ls
      (calls ++ r.1, r.2)

/-- gcoder.py:300-322, 402-778 `GCode(data, home_pos, layer_callback, line_callback=…)`: the calls made and the outcome.
An empty list of texts makes no call (gcoder.py:314-322). -/
def GCode.loadCb (env : Env α) (data : List Str) (light : Bool := false) (home : Home α := Home.init) :
    List (Callback α) × Except Err (GCode α) :=
  if data.isEmpty then
    ([], .ok { GCode.blank light home with
                 lines := [], appendLayerId := 0, allLayers := [{ lines := [], z := none, duration := none }]
                 allZs := [], layerIdxs := [], lineIdxs := [] })
  else
    match buildLoopCb env light home (BuildSt.start (GCode.blank light home)) (readLines data) with
    | (calls, .error er) => (calls, .error er)
    | (calls, .ok s) => (calls, .ok (finalize (GCode.blank light home) s))

end GCodeUtils
