import Mathlib.Data.List.Sort
import Verif.Model.Line

/-
  gcodeutils/gcoder.py:187-790: layers, the preprocessing loop, loading, appending, prepending, rewriting,
  writing.
-/

namespace GCodeUtils

variable {α : Type} [Field α] [LinearOrder α] [IsStrictOrderedRing α] [FloorRing α]

/-- The parts of the Python runtime the loop depends on: `math.hypot` and the tie rule of `round`. -/
structure Env (α : Type) where
  hypot : α → α → α
  mode : RoundMode

/-- gcoder.py:187-192 `Layer`. -/
structure Layer (α : Type) where
  lines : List (PyLine α)
  z : Option α := none
  duration : Option α := none
  deriving DecidableEq, Repr

/-- gcoder.py:206-229: the machine state kept on the `GCode` object between calls of `_preprocess`. -/
structure Machine (α : Type) where
  imperial : Bool
  relative : Bool
  relativeE : Bool
  currentTool : ℤ
  currentX : α
  currentY : α
  currentZ : α
  currentE : α
  totalE : α
  maxE : α
  currentF : α
  offsetX : α
  offsetY : α
  offsetZ : α
  offsetE : α
  deriving DecidableEq, Repr

/-- gcoder.py:206-229: class-level initial values. -/
def Machine.init : Machine α :=
  { imperial := false, relative := false, relativeE := false, currentTool := 0
    currentX := 0, currentY := 0, currentZ := 0, currentE := 0, totalE := 0, maxE := 0, currentF := 0
    offsetX := 0, offsetY := 0, offsetZ := 0, offsetE := 0 }

/-- gcoder.py:211-213,289-293 `home_pos`. -/
structure Home (α : Type) where
  x : α
  y : α
  z : α
  deriving DecidableEq, Repr

/-- gcoder.py:211-213: default home position. -/
def Home.init : Home α := { x := 0, y := 0, z := 0 }

/-- Truth value of a Python `None`-or-number. -/
def truthy (v : Option α) : Bool :=
  match v with
  | none => false
  | some a => decide (a ≠ 0)

/-- gcoder.py:483-503: modes, tool and the per-move mode stamps.  `cmd` is the (non-empty) command. -/
def stepModes (m : Machine α) (l : PyLine α) (cmd : Str) : Except Err (Machine α × PyLine α) :=
  if l.isMove then
    .ok (m, { l with relative := some m.relative, relativeE := some m.relativeE,
                     currentTool := some m.currentTool })
  else if cmd = c!"G20" then .ok ({ m with imperial := true }, l)
  else if cmd = c!"G21" then .ok ({ m with imperial := false }, l)
  else if cmd = c!"G90" then .ok ({ m with relative := false, relativeE := false }, l)
  else if cmd = c!"G91" then .ok ({ m with relative := true, relativeE := true }, l)
  else if cmd = c!"M82" then .ok ({ m with relativeE := false }, l)
  else if cmd = c!"M83" then .ok ({ m with relativeE := true }, l)
  else if cmd.head? = some 'T' then
    match parseInt cmd.tail with
    | some t => .ok ({ m with currentTool := t }, l)
    | none => .error .valueError
  else .ok (m, l)

/-- gcoder.py:514-528, one axis of a move: new machine coordinate. -/
def moveAxis (rel : Bool) (cur off : α) (v : Option α) : α :=
  if rel then cur + v.getD 0
  else match v with
    | some k => k + off
    | none => cur

/-- gcoder.py:508-545: position, offsets and feed rate. -/
def stepPos (home : Home α) (m : Machine α) (l : PyLine α) (cmd : Str) : Machine α :=
  if l.isMove then
    let rel := l.relative.getD false
    { m with
      currentF := l.f.getD m.currentF
      currentX := moveAxis rel m.currentX m.offsetX l.x
      currentY := moveAxis rel m.currentY m.offsetY l.y
      currentZ := moveAxis rel m.currentZ m.offsetZ l.z }
  else if cmd = c!"G28" then
    let homeAll := !(truthy l.x || truthy l.y || truthy l.z)
    let m := if homeAll || l.x.isSome then { m with offsetX := 0, currentX := home.x } else m
    let m := if homeAll || l.y.isSome then { m with offsetY := 0, currentY := home.y } else m
    if homeAll || l.z.isSome then { m with offsetZ := 0, currentZ := home.z } else m
  else if cmd = c!"G92" then
    let m := match l.x with | some k => { m with offsetX := m.currentX - k } | none => m
    let m := match l.y with | some k => { m with offsetY := m.currentY - k } | none => m
    match l.z with | some k => { m with offsetZ := m.currentZ - k } | none => m
  else m

/-- gcoder.py:547-550: stamp the position on the line. -/
def stamp (m : Machine α) (l : PyLine α) : PyLine α :=
  { l with currentX := some m.currentX, currentY := some m.currentY, currentZ := some m.currentZ,
           currentF := some m.currentF }

/-- gcoder.py:552-568: extrusion accounting.  Note line 567: `offset_e = line.e`. -/
def stepExtrusion (m : Machine α) (l : PyLine α) (cmd : Str) : Machine α × PyLine α :=
  match l.e with
  | none => (m, l)
  | some e =>
    if l.isMove then
      if l.relativeE.getD false then
        let total := m.totalE + e
        ({ m with totalE := total, currentE := m.currentE + e, maxE := max m.maxE total },
         { l with extruding := some (decide (0 < e)) })
      else
        let newE := e + m.offsetE
        let total := m.totalE + (newE - m.currentE)
        ({ m with totalE := total, currentE := newE, maxE := max m.maxE total },
         { l with extruding := some (decide (m.currentE < newE)) })
    else if cmd = c!"G92" then ({ m with offsetE := e }, l)
    else (m, l)

/-- gcoder.py:481-568: the part of the loop body that does not depend on `build_layers`.
Returns the machine state and the annotated line. -/
def processLine (home : Home α) (m : Machine α) (l0 : PyLine α) :
    Except Err (Machine α × PyLine α) :=
  let (l, toks) := split l0
  match l.command with
  | none => .ok (m, l)
  | some cmd =>
    if cmd.isEmpty then .ok (m, l)
    else do
      let (m, l) ← stepModes m l cmd
      let l ← if cmd.head? = some 'G' then parseCoordinates l toks m.imperial else .ok l
      let m := stepPos home m l cmd
      let l := stamp m l
      let (m, l) := stepExtrusion m l cmd
      .ok (m, { l with currentE := some m.currentE })

/-- gcoder.py:430-441: running bounds; `none` stands for the initial infinity. -/
structure BBox (α : Type) where
  xmin : Option α := none
  xmax : Option α := none
  ymin : Option α := none
  ymax : Option α := none
  xminE : Option α := none
  xmaxE : Option α := none
  yminE : Option α := none
  ymaxE : Option α := none
  deriving DecidableEq, Repr

/-- `min(bound, v)` with `none` = +inf. -/
def lowerTo (b : Option α) (v : Option α) : Option α :=
  match b, v with
  | b, none => b
  | none, some v => some v
  | some b, some v => some (min b v)

/-- `max(bound, v)` with `none` = -inf. -/
def raiseTo (b : Option α) (v : Option α) : Option α :=
  match b, v with
  | b, none => b
  | none, some v => some v
  | some b, some v => some (max b v)

/-- gcoder.py:571-586: bounding-box update.  `maxE` is the running `max_e` after the line. -/
def stepBBox (maxE : α) (b : BBox α) (l : PyLine α) : BBox α :=
  if l.isMove then
    let b := if l.extruding.getD false then
        { b with xminE := lowerTo b.xminE l.currentX, xmaxE := raiseTo b.xmaxE l.currentX
                 yminE := lowerTo b.yminE l.currentY, ymaxE := raiseTo b.ymaxE l.currentY }
      else b
    if maxE ≤ 0 then
      { b with xmin := lowerTo b.xmin l.currentX, xmax := raiseTo b.xmax l.currentX
               ymin := lowerTo b.ymin l.currentY, ymax := raiseTo b.ymax l.currentY }
    else b
  else b

/-- gcoder.py:443-456: state of the duration estimate. -/
structure DurSt (α : Type) where
  lastx : α
  lasty : α
  lastz : α
  laste : α
  lastf : α
  lastdx : α
  lastdy : α
  total : α
  layerBegin : α
  deriving DecidableEq, Repr

/-- gcoder.py:448-456: initial values. -/
def DurSt.init : DurSt α :=
  { lastx := 0, lasty := 0, lastz := 0, laste := 0, lastf := 0, lastdx := 0, lastdy := 0
    total := 0, layerBegin := 0 }

/-- gcoder.py:455 `acceleration`. -/
def acceleration : α := 2000

/-- gcoder.py:612-638: duration of one linear move from the previous and the new feed rate (mm/s) and the
travel length; the unguarded division of line 636 raises on opposite feed rates. -/
def moveDuration (lastf f travel : α) : Except Err α :=
  if f = lastf then .ok (if f ≠ 0 then travel / f else 0)
  else
    let distance := 2 * |((lastf + f) * (f - lastf) * (1 / 2)) / acceleration|
    if distance ≤ travel ∧ lastf + f ≠ 0 ∧ f ≠ 0 then
      .ok (2 * distance / (lastf + f) + (travel - distance) / f)
    else if lastf + f = 0 then .error .zeroDivision
    else .ok (2 * travel / (lastf + f))

/-- gcoder.py:617-622: travel length of a linear move. -/
def moveTravel (env : Env α) (d : DurSt α) (l : PyLine α) (dx dy : α) : α :=
  let t := env.hypot dx dy
  if t = 0 then
    match l.z with
    | some z => if l.relative.getD false then |z| else |z - d.lastz|
    | none =>
      match l.e with
      | some e => if l.relativeE.getD false then |e| else |e - d.laste|
      | none => t
  else t

/-- gcoder.py:588-654: duration update for one line. -/
def stepDur (env : Env α) (d : DurSt α) (l : PyLine α) : Except Err (DurSt α) :=
  if l.isCmd c!"G0" || l.isCmd c!"G1" then
    let x := l.x.getD d.lastx
    let y := l.y.getD d.lasty
    let z := l.z.getD d.lastz
    let e := l.e.getD d.laste
    let f := match l.f with | some f => f / 60 | none => d.lastf
    let dx := x - d.lastx
    let dy := y - d.lasty
    let lastf := if dx * d.lastdx + dy * d.lastdy ≤ 0 then 0 else d.lastf
    let travel := moveTravel env d l dx dy
    match moveDuration lastf f travel with
    | .error er => .error er
    | .ok t =>
      .ok { d with lastdx := dx, lastdy := dy, total := d.total + t
                   lastx := x, lasty := y, lastz := z, laste := e, lastf := f }
  else if l.isCmd c!"G4" then
    match (findSpecificCode l.raw 'P' : Except Err (Option α)) with
    | .error er => .error er
    | .ok none => .ok d
    | .ok (some p) => .ok (if p ≠ 0 then { d with total := d.total + p / 1000 } else d)
  else .ok d

/-- gcoder.py:458-471: state of the layer construction. -/
structure LayerSt (α : Type) where
  allLayers : List (Layer α) := []
  allZs : List (Option α) := []
  layerIdxs : List ℕ := []
  lineIdxs : List ℕ := []
  layerId : ℕ := 0
  layerLine : ℕ := 0
  lastLayerZ : Option α := none
  prevZ : Option α := none
  /-- `none` is the initial sentinel `(None, None)` -/
  prevBaseZ : Option (Option α) := none
  curZ : Option α := none
  curLines : List (PyLine α) := []
  hasExtrusion : Bool := false
  est : Option α := none
  deriving DecidableEq, Repr

/-- gcoder.py:657-664: the Z coordinate in program units. -/
def nextCurZ (curZ : Option α) (l : PyLine α) : Option α :=
  match l.z with
  | none => curZ
  | some z =>
    if l.isCmd c!"G92" then some z
    else if l.isMove then
      match l.relative.getD false, curZ with
      | true, some cz => some (cz + z)
      | _, _ => some z
    else curZ

/-- Differences of successive elements. -/
def diffs : List α → List α
  | a :: b :: rest => (b - a) :: diffs (b :: rest)
  | _ => []

/-- gcoder.py:673-681: estimate of the layer height from the layers found so far. -/
def estimateHeight (mode : RoundMode) (layers : List (Layer α)) : α :=
  let zs := (layers.filterMap (·.z)).insertionSort (· ≤ ·)
  let heights := ((diffs zs).map (pyRound mode 3)).filter (· ≠ 0)
  match heights with
  | _ :: h :: _ => h
  | [h] => h
  | [] => 1 / 10

/-- Python `a % b` on floats, `b ≠ 0`. -/
def pyMod (a b : α) : α := a - b * ⌊a / b⌋

/-- gcoder.py:669-686: base height of the layer that just ended, and the possibly updated estimate. -/
def baseZ (mode : RoundMode) (s : LayerSt α) : Option α × Option α :=
  match s.prevZ, s.lastLayerZ with
  | some pz, some lz =>
    let offset := match s.est with
      | some h => if h ≠ 0 then h else 1 / 100
      | none => 1 / 100
    if |pz - lz| < offset then
      let h := match s.est with
        | some h => h
        | none => estimateHeight mode s.allLayers
      (some (pyRound mode 2 (pz - pyMod pz h)), some h)
    else (some (pyRound mode 2 pz), s.est)
  | _, _ => (s.prevZ, s.est)

/-- `if flag and z not in zs: zs.add(z)` (gcoder.py:693-694, 743-744); the set is kept as a duplicate-free
list. -/
def addZ (flag : Bool) (zs : List (Option α)) (z : Option α) : List (Option α) :=
  if flag && !zs.contains z then zs ++ [z] else zs

/-- gcoder.py:656-703: layer change detection for a line with a command; `total` is the running duration and
`layerBegin` its value at the start of the layer. Returns the state and whether a layer was closed. -/
def stepLayer (mode : RoundMode) (s : LayerSt α) (l : PyLine α) (total layerBegin : α) :
    LayerSt α × Bool :=
  let s := { s with curZ := nextCurZ s.curZ l }
  if s.curZ ≠ s.prevZ then
    let (bz, est) := baseZ mode s
    let s := { s with est := est }
    if some bz ≠ s.prevBaseZ then
      ({ s with
          allLayers := s.allLayers ++ [{ lines := s.curLines, z := bz, duration := some (total - layerBegin) }]
          allZs := addZ s.hasExtrusion s.allZs s.prevZ
          curLines := []
          hasExtrusion := false
          layerId := s.layerId + 1
          layerLine := 0
          lastLayerZ := bz
          prevBaseZ := some bz }, true)
    else ({ s with prevBaseZ := some bz }, false)
  else (s, false)

/-- gcoder.py:705-710: record the line in the current layer. -/
def recordLine (s : LayerSt α) (l : PyLine α) : LayerSt α :=
  { s with
    curLines := s.curLines ++ [l]
    layerIdxs := s.layerIdxs ++ [s.layerId]
    lineIdxs := s.lineIdxs ++ [s.layerLine]
    layerLine := s.layerLine + 1
    prevZ := s.curZ }

/-- All the state of `_preprocess(build_layers=True)`; `done` are the lines processed so far. -/
structure BuildSt (α : Type) where
  m : Machine α
  ls : LayerSt α := {}
  bb : BBox α := {}
  ds : DurSt α
  done : List (PyLine α) := []

/-- gcoder.py:477-713: one iteration of the loop with `build_layers=True` and no callbacks.
`light` is `self.line_class != Line` (gcoder.py:473-476): the line is then processed on a heavy copy and the
untouched light line is stored. -/
def buildStep (env : Env α) (light : Bool) (home : Home α) (s : BuildSt α) (l0 : PyLine α) :
    Except Err (BuildSt α) :=
  match processLine home s.m l0 with
  | .error er => .error er
  | .ok (m, l) =>
    let stored := if light then l0 else l
    match l.command with
    | none =>
      .ok { s with m := m, ls := recordLine s.ls stored, done := s.done ++ [stored] }
    | some cmd =>
      if cmd.isEmpty then
        .ok { s with m := m, ls := recordLine s.ls stored, done := s.done ++ [stored] }
      else
        let ls := { s.ls with hasExtrusion := s.ls.hasExtrusion || l.extruding.getD false }
        let bb := stepBBox m.maxE s.bb l
        match stepDur env s.ds l with
        | .error er => .error er
        | .ok ds =>
          let (ls, closed) := stepLayer env.mode ls l ds.total ds.layerBegin
          let ds := if closed then { ds with layerBegin := ds.total } else ds
          .ok { m := m, ls := recordLine ls stored, bb := bb, ds := ds, done := s.done ++ [stored] }

/-- gcoder.py:195-251, 718-778: a `GCode` object.  `none` in a result field means the class-level `None`.
`zmin`… are the bounding box; `duration` is in whole seconds. -/
structure GCode (α : Type) where
  light : Bool := false
  lines : List (PyLine α) := []
  allLayers : List (Layer α) := []
  allZs : List (Option α) := []
  layerIdxs : List ℕ := []
  lineIdxs : List ℕ := []
  appendLayerId : ℕ := 0
  m : Machine α
  home : Home α
  est : Option α := none
  filamentLength : Option α := none
  duration : Option ℤ := none
  xmin : Option α := none
  xmax : Option α := none
  ymin : Option α := none
  ymax : Option α := none
  zmin : Option α := none
  zmax : Option α := none
  width : Option α := none
  depth : Option α := none
  height : Option α := none
  deriving DecidableEq, Repr

/-- A fresh object (class-level attributes), before `prepare`. -/
def GCode.blank (light : Bool) (home : Home α) : GCode α :=
  { light := light, m := Machine.init, home := home }

/-- gcoder.py:738-744: close the last layer. -/
def closeLast (s : LayerSt α) (total layerBegin : α) : LayerSt α :=
  if s.curLines.isEmpty then s
  else { s with
    allLayers := s.allLayers ++ [{ lines := s.curLines, z := s.prevZ, duration := some (total - layerBegin) }]
    allZs := addZ s.hasExtrusion s.allZs s.prevZ }

/-- Least element of a non-empty list given by head and tail. -/
def minL (a : α) (l : List α) : α := l.foldl min a
/-- Greatest element of a non-empty list given by head and tail. -/
def maxL (a : α) (l : List α) : α := l.foldl max a

/-- Python `int(x)`: truncation towards zero. -/
def pyInt (x : α) : ℤ := if 0 ≤ x then ⌊x⌋ else -⌊-x⌋

/-- gcoder.py:718-778: store the state and finalise layers, bounding box and duration. -/
def finalize (g : GCode α) (s : BuildSt α) : GCode α :=
  let ls := closeLast s.ls s.ds.total s.ds.layerBegin
  let zs := ls.allZs.filterMap id
  let zmin := minL 0 zs
  let zmax := maxL 0 zs
  let fl := s.m.maxE
  let b (withE without : Option α) : α := if 0 < fl then withE.getD 0 else without.getD 0
  let xmin := b s.bb.xminE s.bb.xmin
  let xmax := b s.bb.xmaxE s.bb.xmax
  let ymin := b s.bb.yminE s.bb.ymin
  let ymax := b s.bb.ymaxE s.bb.ymax
  { g with
    lines := s.done
    allLayers := ls.allLayers ++ [{ lines := [], z := none, duration := some 0 }]
    allZs := ls.allZs
    layerIdxs := ls.layerIdxs
    lineIdxs := ls.lineIdxs
    appendLayerId := ls.allLayers.length
    m := s.m
    est := ls.est
    filamentLength := some fl
    duration := some (pyInt s.ds.total)
    xmin := some xmin, xmax := some xmax, ymin := some ymin, ymax := some ymax
    zmin := some zmin, zmax := some zmax
    width := some (xmax - xmin), depth := some (ymax - ymin), height := some (zmax - zmin) }

/-- gcoder.py:309-311: strip every line, drop the blank ones, wrap. -/
def readLines (data : List Str) : List (PyLine α) :=
  ((data.map strip).filter (fun s => !s.isEmpty)).map (fun s => { raw := s })

/-- gcoder.py:407-471: state at loop entry. -/
def BuildSt.start (g : GCode α) : BuildSt α := { m := g.m, ls := { est := g.est }, ds := DurSt.init }

/-- gcoder.py:402-778 `_preprocess(build_layers=True)` on an object. -/
def preprocessAll (env : Env α) (g : GCode α) (lines : List (PyLine α)) : Except Err (GCode α) :=
  match lines.foldlM (buildStep env g.light g.home) (BuildSt.start g) with
  | .error er => .error er
  | .ok s => .ok (finalize g s)

/-- gcoder.py:305-322 `prepare`, for list data (`data` falsy = empty list). -/
def prepare (env : Env α) (g : GCode α) (data : List Str) : Except Err (GCode α) :=
  if data.isEmpty then
    .ok { g with lines := [], appendLayerId := 0, allLayers := [{ lines := [], z := none, duration := none }]
                 allZs := [], layerIdxs := [], lineIdxs := [] }
  else preprocessAll env g (readLines data)

/-- gcoder.py:300-303 `GCode(data)` / gcoder.py:853-854 `LightGCode(data)` with the given home position. -/
def GCode.load (env : Env α) (data : List Str) (light : Bool := false) (home : Home α := Home.init) :
    Except Err (GCode α) :=
  prepare env (GCode.blank light home) data

/-- gcoder.py:324-325 `__len__`. -/
def GCode.len (g : GCode α) : ℕ := g.lineIdxs.length

/-- gcoder.py:295-298 `layers_count`. -/
def GCode.layersCount (g : GCode α) : ℕ := g.allZs.length

/-- gcoder.py:256-274 `abs_x`, `abs_y`, `abs_z`, `abs_e`. -/
def Machine.absX (m : Machine α) : α := m.currentX - m.offsetX
@[inherit_doc Machine.absX] def Machine.absY (m : Machine α) : α := m.currentY - m.offsetY
@[inherit_doc Machine.absX] def Machine.absZ (m : Machine α) : α := m.currentZ - m.offsetZ
@[inherit_doc Machine.absX] def Machine.absE (m : Machine α) : α := m.currentE - m.offsetE

/-- gcoder.py:389-400 `append(command, store=True)`; `none` in the result means nothing was appended.
The append layer is the layer object number `append_layer_id`. -/
def GCode.append (g : GCode α) (command : Str) : Except Err (GCode α × Option (PyLine α)) :=
  let command := strip command
  if command.isEmpty then .ok (g, none)
  else
    match processLine g.home g.m { raw := command } with
    | .error er => .error er
    | .ok (m, l) =>
      let gline := if g.light then { raw := command } else l
      let layer := (g.allLayers[g.appendLayerId]?).map (fun L => { L with lines := L.lines ++ [gline] })
      match layer with
      | none => .error .attributeError
      | some L =>
        .ok ({ g with m := m
                      lines := g.lines ++ [gline]
                      allLayers := g.allLayers.set g.appendLayerId L
                      layerIdxs := g.layerIdxs ++ [g.appendLayerId]
                      lineIdxs := g.lineIdxs ++ [L.lines.length] }, some gline)

/-- Python `list.insert(k, v)` for `0 ≤ k` (beyond the end appends). -/
def pyInsert {β : Type} (k : ℕ) (v : β) (l : List β) : List β := l.take k ++ v :: l.drop k

/-- gcoder.py:337-342: first index `≥ start` whose layer differs from `k`, else the length. -/
def endIndex (idxs : List ℕ) (start k : ℕ) : ℕ :=
  start + ((idxs.drop start).takeWhile (· = k)).length

/-- gcoder.py:332: `[c.strip() for c in commands[::-1] if c.strip()]`. -/
def cleanCommands (commands : List Str) : List Str :=
  (commands.reverse.filter (fun c => !(strip c).isEmpty)).map strip

/-- gcoder.py:345-349: the line object made for an inserted command (`is_move` forced to False). -/
def insertedLine (command : Str) : PyLine α :=
  { (split ({ raw := command } : PyLine α)).1 with isMove := false }

/-- gcoder.py:344-356: insert the `i`-th (reversed) command. -/
def prependOne (k start endI endLine : ℕ) (st : GCode α × List (PyLine α)) (ic : Str × ℕ) :
    GCode α × List (PyLine α) :=
  let gl : PyLine α := insertedLine ic.1
  ({ st.1 with
      lines := pyInsert start gl st.1.lines
      layerIdxs := pyInsert (endI + ic.2) k st.1.layerIdxs
      lineIdxs := pyInsert (endI + ic.2) (endLine + ic.2 + 1) st.1.lineIdxs },
   gl :: st.2)

/-- gcoder.py:330-357 `prepend_to_layer(commands, layer_idx)`; returns the object and the inserted commands. -/
def GCode.prependToLayer (g : GCode α) (commands : List Str) (k : ℕ) :
    Except Err (GCode α × List Str) :=
  let cmds := cleanCommands commands
  match g.allLayers[k]? with
  | none => .error .indexError
  | some layer =>
    if k ∈ g.layerIdxs then
      let start := g.layerIdxs.idxOf k
      let endI := endIndex g.layerIdxs start k
      match g.lineIdxs[endI - 1]? with
      | none => .error .indexError
      | some endLine =>
        let (g', ls) := cmds.zipIdx.foldl (prependOne k start endI endLine) (g, layer.lines)
        .ok ({ g' with allLayers := g.allLayers.set k { layer with lines := ls } }, cmds.reverse)
    else .error .valueError

/-- gcoder.py:359-387 `rewrite_layer(commands, layer_idx)`. -/
def GCode.rewriteLayer (g : GCode α) (commands : List Str) (k : ℕ) :
    Except Err (GCode α × List Str) :=
  let cmds := cleanCommands commands
  match g.allLayers[k]? with
  | none => .error .indexError
  | some layer =>
    if k ∈ g.layerIdxs then
      let start := g.layerIdxs.idxOf k
      let endI := endIndex g.layerIdxs start k
      let kept := g.lines.take start ++ g.lines.drop endI
      let st := cmds.foldl (fun (st : List (PyLine α) × List (PyLine α)) c =>
        (pyInsert start (insertedLine c) st.1, insertedLine c :: st.2)) (kept, [])
      .ok ({ g with
              layerIdxs := g.layerIdxs.take start ++ List.replicate cmds.length k ++ g.layerIdxs.drop endI
              lineIdxs := g.lineIdxs.take start ++ List.range cmds.length ++ g.lineIdxs.drop endI
              lines := st.1
              allLayers := g.allLayers.set k { layer with lines := st.2 } }, cmds.reverse)
    else .error .valueError

/-- gcoder.py:780-781 `idxs(i)`; `none` is an `IndexError`. -/
def GCode.idxs (g : GCode α) (i : ℕ) : Option (ℕ × ℕ) :=
  match g.layerIdxs[i]?, g.lineIdxs[i]? with
  | some a, some b => some (a, b)
  | _, _ => none

/-- All lines of all layers in order: what gcoder.py:788-789 iterates over. -/
def GCode.allLines (g : GCode α) : List (PyLine α) := g.allLayers.flatMap (·.lines)

/-- gcoder.py:786-790 `write`: every raw text followed by a newline. -/
def GCode.write (g : GCode α) : Str := g.allLines.flatMap (fun l => l.raw ++ ['\n'])

end GCodeUtils
