import Verif.Model.GCode
import Verif.Model.Vector3

/-
  gcodeutils/stretch/stretch.py.  `sqrt` is the square root behind `abs(complex)`.  The Python loops that may
  not terminate are given a step budget; running out of it is the pseudo-error `outOfFuel`.
-/

namespace GCodeUtils

variable {α : Type} [Field α] [LinearOrder α] [IsStrictOrderedRing α] [FloorRing α]

/-! ### Markers (stretch.py:301-306) -/

def extrusionOnMarker : Str := c!"stretch-extrusion-on"
def extrusionOffMarker : Str := c!"stretch-extrusion-off"
def loopStartMarker : Str := c!"stretch-loop-start"
def innerEdgeMarker : Str := loopStartMarker ++ c!" stretch-inner-edge-start"
def outerEdgeMarker : Str := loopStartMarker ++ c!" stretch-outer-edge-start"
def loopStopMarker : Str := c!"stretch-loop-stop"

/-- `marker in line.raw`. -/
def marked (m : Str) (l : PyLine α) : Bool := hasSub m l.raw

/-! ### Line iterators (stretch.py:127-276) -/

/-- The six iterator classes. -/
inductive ItKind where
  | fwdLegacy | bwdLegacy | fwd | bwd | curaFwd | curaBwd
  deriving DecidableEq, Repr

/-- stretch.py:132-140: attributes of an iterator. -/
structure ItSt where
  idx : ℤ
  first : Option ℤ := none
  deriving DecidableEq, Repr

/-- `self.increment`. -/
def ItKind.increment : ItKind → ℤ
  | .fwdLegacy | .fwd | .curaFwd => 1
  | .bwdLegacy | .bwd | .curaBwd => -1

/-- `self.stop_on_extrusion_off`. -/
def ItKind.stopOnOff : ItKind → Bool
  | .curaFwd | .curaBwd => false
  | _ => true

/-- `for i in xrange(k-1, lo-1, -1): if p(lines[i]): …`: the first index found, counting down from `k - 1`
to `lo`. -/
def searchDown (p : PyLine α → Bool) (lines : List (PyLine α)) (lo : ℕ) : ℕ → Option ℕ
  | 0 => none
  | k + 1 =>
    if k < lo then none
    else match lines[k]? with
      | some l => if p l then some k else searchDown p lines lo k
      | none => searchDown p lines lo k

/-- `for i in xrange(k, len(lines)): if p(lines[i]): …`. -/
def searchUp (p : PyLine α → Bool) (lines : List (PyLine α)) (k : ℕ) : Option ℕ :=
  ((lines.drop k).findIdx? p).map (· + k)

/-- `reset_index_on_limit` of each class: stretch.py:145-152 (legacy forward), 195-204 (legacy backward),
208-215 (forward), 244-253 (backward), 227-234 (Cura forward), 267-276 (Cura backward). -/
def resetIndex (kind : ItKind) (lines : List (PyLine α)) (i : ℤ) : Except Err ℤ :=
  let r : Option ℤ := match kind with
    | .fwdLegacy => (searchDown (marked extrusionOnMarker) lines 1 i.toNat).map (fun k => (k : ℤ) + 1)
    | .fwd => (searchDown (marked loopStartMarker) lines 0 i.toNat).map (fun k => (k : ℤ) + 1)
    | .curaFwd => (searchDown (marked loopStartMarker) lines 0 i.toNat).map (fun k => (k : ℤ))
    | .bwdLegacy => (searchUp (marked extrusionOffMarker) lines (i + 1).toNat).map (fun k => (k : ℤ) - 2)
    | .bwd => (searchUp (marked extrusionOffMarker) lines (i + 1).toNat).map (fun k => (k : ℤ) - 2)
    | .curaBwd => (searchUp (marked loopStopMarker) lines (i + 1).toNat).map (fun k => (k : ℤ) - 1)
  match r with
  | some k => .ok k
  | none => .error .stopIteration

/-- `lines[i]` for `i ≥ 0`. -/
def lineAt (lines : List (PyLine α)) (i : ℤ) : Option (PyLine α) :=
  if 0 ≤ i then lines[i.toNat]? else none

/-- `index_setup` of each class: stretch.py:142-143, 191-193, 223-225, 238-242, 261-265. -/
def indexSetup (kind : ItKind) (lines : List (PyLine α)) (st : ItSt) : Except Err ItSt :=
  let reset : Except Err ItSt := (resetIndex kind lines st.idx).map (fun k => { st with idx := k })
  match kind with
  | .fwdLegacy | .fwd => .ok st
  | .bwdLegacy => if st.idx < 1 then reset else .ok st
  | .bwd | .curaBwd =>
    if st.idx < 0 then reset
    else match lineAt lines (st.idx + 1) with
      | none => .error .indexError
      | some l => if marked loopStartMarker l then reset else .ok st
  | .curaFwd =>
    match lineAt lines st.idx with
    | none => .error .indexError
    | some l => if marked loopStopMarker l then reset else .ok st

/-- stretch.py:176: a linear move with an X or Y word. -/
def isXYMove (l : PyLine α) : Bool := l.inLinear && (l.x.isSome || l.y.isSome)

/-- stretch.py:162-181: the loop of `get_next`. -/
def getNextLoop (kind : ItKind) (lines : List (PyLine α)) : ℕ → ItSt → Except Err (PyLine α × ItSt)
  | 0, _ => .error .outOfFuel
  | fuel + 1, st =>
    match lineAt lines st.idx with
    | none => .error .stopIteration
    | some line =>
      if st.first = some st.idx then .error .stopIteration
      else
        let first := st.first.getD st.idx
        if marked extrusionOffMarker line && kind.stopOnOff then
          match resetIndex kind lines st.idx with
          | .error er => .error er
          | .ok k => getNextLoop kind lines fuel { idx := k, first := some first }
        else
          let st : ItSt := { idx := st.idx + kind.increment, first := some first }
          if isXYMove line then .ok (line, st) else getNextLoop kind lines fuel st

/-- stretch.py:157-181 `get_next`. -/
def getNext (fuel : ℕ) (kind : ItKind) (lines : List (PyLine α)) (st : ItSt) :
    Except Err (PyLine α × ItSt) :=
  match indexSetup kind lines st with
  | .error er => .error er
  | .ok st => getNextLoop kind lines fuel st

/-! ### Settings -/

/-- stretch.py:279-295 `StretchRepository` (ratios already multiplied by the strength). -/
structure StretchRepo (α : Type) where
  cross : α
  loop : α
  inside : α
  outside : α
  fromDist : α
  deriving DecidableEq, Repr

/-- stretch.py:282-295 `StretchRepository.__init__`. -/
def StretchRepo.make (cross loop inside outside fromDist strength : α) : StretchRepo α :=
  { cross := cross, loop := loop * strength, inside := inside * strength, outside := outside * strength
    fromDist := fromDist }

/-- stretch.py:282-284: the default settings with the given strength. -/
def StretchRepo.default (strength : α) : StretchRepo α :=
  StretchRepo.make 5 (11 / 100) (32 / 100) (1 / 10) 2 strength

/-- stretch.py:460-471: the lengths derived by `set_edge_width`. -/
structure StretchDist (α : Type) where
  crossLimit : α
  loopMax : α
  insideMax : α
  outsideMax : α
  fromDist : α
  crossFraction : α
  crossRemainder : α
  deriving DecidableEq, Repr

/-- stretch.py:455-471 `set_edge_width`. -/
def setEdgeWidth (repo : StretchRepo α) (w : α) : StretchDist α :=
  let cl := w * repo.cross
  { crossLimit := cl, loopMax := w * repo.loop, insideMax := w * repo.inside, outsideMax := w * repo.outside
    fromDist := repo.fromDist * w, crossFraction := cl / 3, crossRemainder := cl - cl / 3 }

/-! ### Stretching (stretch.py:337-499) -/

/-- stretch.py:110-119 `get_location_from_line`. -/
def locationFromLine (old : Option (Vec3 α)) (l : PyLine α) : Vec3 α :=
  let o := old.getD Vec3.zero
  ⟨l.x.getD o.x, l.y.getD o.y, l.z.getD o.z⟩

/-- `get_location_from_line(...).dropAxis()`. -/
def pointOf (old : Option (Vec3 α)) (l : PyLine α) : Cx α :=
  let v := locationFromLine old l
  ⟨v.x, v.y⟩

/-- stretch.py:337-355 `get_cross_limited_stretch`. -/
def crossLimited (sqrt : α → α) (fuel : ℕ) (d : StretchDist α) (old : Option (Vec3 α)) (kind : ItKind)
    (lines : List (PyLine α)) (start : ℤ) (loc s : Cx α) : Except Err (Cx α) :=
  match getNext fuel kind lines { idx := start } with
  | .error .stopIteration => .ok s
  | .error er => .error er
  | .ok (line, _) =>
    let pml := loc.sub (pointOf old line)
    let len := pml.abs sqrt
    if len ≤ d.crossFraction then .ok s
    else
      match pml.div len with
      | .error er => .error er
      | .ok par =>
        let parStretch := Cx.smul (par.dot s) par
        if d.crossLimit < len then .ok parStretch
        else
          let crossN : Cx α := ⟨par.im, -par.re⟩
          let crossStretch := Cx.smul (crossN.dot s) crossN
          if d.crossRemainder = 0 then .error .zeroDivision
          else
            let portion := (d.crossLimit - len) / d.crossRemainder
            .ok (parStretch.add (Cx.smul portion crossStretch))

/-- stretch.py:363-385: the loop of `get_relative_stretch`. -/
def relStretchLoop (sqrt : α → α) (fuel : ℕ) (d : StretchDist α) (old : Option (Vec3 α)) (kind : ItKind)
    (lines : List (PyLine α)) (loc : Cx α) :
    ℕ → ItSt → (last : Cx α) → (oldTotal : α) → (point : Cx α) → (total : α) → Except Err (Cx α)
  | 0, _, _, _, _, _ => .error .outOfFuel
  | n + 1, st, last, oldTotal, point, total =>
    match getNext fuel kind lines st with
    | .error .stopIteration =>
      let lmp := loc.sub point
      let len := lmp.abs sqrt
      if 0 < len then lmp.div len else .ok ⟨0, 0⟩
    | .error er => .error er
    | .ok (line, st) =>
      let point := pointOf old line
      let len := (last.sub point).abs sqrt
      let total := total + len
      if d.fromDist ≤ total then
        if len = 0 then .error .zeroDivision
        else
          let ratio := (d.fromDist - oldTotal) / len
          let totalPoint := (Cx.smul ratio point).add (Cx.smul (1 - ratio) last)
          (loc.sub totalPoint).div d.fromDist
      else relStretchLoop sqrt fuel d old kind lines loc n st point total point total

/-- stretch.py:357-385 `get_relative_stretch`. -/
def relStretch (sqrt : α → α) (fuel : ℕ) (d : StretchDist α) (old : Option (Vec3 α)) (kind : ItKind)
    (lines : List (PyLine α)) (start : ℤ) (loc : Cx α) : Except Err (Cx α) :=
  relStretchLoop sqrt fuel d old kind lines loc fuel { idx := start } loc 0 loc 0

/-- stretch.py:309-319: the mutable attributes of a stretch filter (`edgeWidth`, `extruderActive` are never
read).  `dist = none`: `set_edge_width` was never called. -/
structure StretchSt (α : Type) where
  dist : Option (StretchDist α)
  isLoop : Bool
  old : Option (Vec3 α)
  feed : α
  tmax : α
  deriving DecidableEq, Repr

/-- stretch.py:308-319 `__init__`. -/
def StretchSt.init : StretchSt α := { dist := none, isLoop := false, old := none, feed := 959, tmax := 0 }

/-- stretch.py:413-426: the displacement of a point, from its neighbours in both directions. -/
def displacement (sqrt : α → α) (fuel : ℕ) (d : StretchDist α) (old : Option (Vec3 α)) (kf kb : ItKind)
    (lines : List (PyLine α)) (n : ℕ) (tmax : α) (loc : Cx α) : Except Err (Cx α) := do
  let a ← relStretch sqrt fuel d old kf lines ((n : ℤ) + 1) loc
  let b ← relStretch sqrt fuel d old kb lines ((n : ℤ) - 1) loc
  let s := Cx.smul (8 / 10) (a.add b)
  let s ← crossLimited sqrt fuel d old kf lines ((n : ℤ) + 1) loc s
  let s ← crossLimited sqrt fuel d old kb lines ((n : ℤ) - 1) loc s
  let len := s.abs sqrt
  let s ← if 1 < len then s.div len else .ok s
  .ok (Cx.smul tmax s)

/-- stretch.py:402-444 `get_stretched_line_from_index_location`. -/
def stretchedLine (sqrt : α → α) (fuel : ℕ) (d : StretchDist α) (old : Option (Vec3 α)) (kf kb : ItKind)
    (lines : List (PyLine α)) (n : ℕ) (tmax feed : α) (loc : Vec3 α) (l : PyLine α) :
    Except Err (PyLine α) := do
  let a ← displacement sqrt fuel d old kf kb lines n tmax ⟨loc.x, loc.y⟩
  .ok (unsplit
    { command := l.command
      x := some (loc.x + a.re)
      y := some (loc.y + a.im)
      z := l.z
      f := some feed
      e := l.e.map (fun e => e * (1 - a.abs sqrt)) })

/-- stretch.py:387-400 `stretch_line`; the flag says whether the original object is returned. -/
def stretchLine (sqrt : α → α) (fuel : ℕ) (kf kb : ItKind) (lines : List (PyLine α)) (n : ℕ)
    (st : StretchSt α) (l : PyLine α) : Except Err (StretchSt α × PyLine α × Bool) :=
  let loc := locationFromLine st.old l
  let feed := match l.f with
    | some f => if f ≠ 0 then f else st.feed
    | none => st.feed
  let st := { st with feed := feed, old := some loc }
  if 0 < st.tmax then
    match st.dist with
    | none => .error .attributeError
    | some d =>
      match stretchedLine sqrt fuel d st.old kf kb lines n st.tmax feed loc l with
      | .error er => .error er
      | .ok r => .ok (st, r, false)
  else .ok (st, l, true)

/-- stretch.py:476-488: the loop markers of a line switch the state. -/
def loopSwitch (st : StretchSt α) (l : PyLine α) : Except Err (StretchSt α) :=
  let enter (f : StretchDist α → α) : Except Err (StretchSt α) :=
    match st.dist with
    | none => .error .attributeError
    | some d => .ok { st with isLoop := true, tmax := f d }
  if marked innerEdgeMarker l then enter (·.insideMax)
  else if marked outerEdgeMarker l then enter (·.outsideMax)
  else if marked loopStartMarker l then enter (·.loopMax)
  else if marked loopStopMarker l then .ok { st with isLoop := false, tmax := 0 }
  else .ok st

/-- stretch.py:473-494 `parse_line`. -/
def stretchParseLine (sqrt : α → α) (fuel : ℕ) (kf kb : ItKind) (lines : List (PyLine α)) (n : ℕ)
    (st : StretchSt α) (l : PyLine α) : Except Err (StretchSt α × PyLine α × Bool) :=
  match loopSwitch st l with
  | .error er => .error er
  | .ok st =>
    if isXYMove l && st.isLoop then stretchLine sqrt fuel kf kb lines n st l
    else .ok (st, l, true)

/-- stretch.py:334: `parse_coordinates(gcode_line, split(gcode_line))` (never imperial). -/
def reparse (l : PyLine α) : Except Err (PyLine α) :=
  let (l, toks) := split l
  parseCoordinates l toks false

/-- stretch.py:331-335: one layer.  `cur` is the copied list `self.current_layer`; an unchanged line is the
same object as in the copy, so re-parsing it shows there as well. -/
def stretchLayer (sqrt : α → α) (fuel : ℕ) (kf kb : ItKind) :
    StretchSt α → (cur : List (PyLine α)) → (n : ℕ) → (todo : List (PyLine α)) →
    Except Err (StretchSt α × List (PyLine α))
  | st, _, _, [] => .ok (st, [])
  | st, cur, n, l :: rest =>
    match stretchParseLine sqrt fuel kf kb cur n st l with
    | .error er => .error er
    | .ok (st, r, same) =>
      match reparse r with
      | .error er => .error er
      | .ok r =>
        match stretchLayer sqrt fuel kf kb st (if same then cur.set n r else cur) (n + 1) rest with
        | .error er => .error er
        | .ok (st, out) => .ok (st, r :: out)

/-- stretch.py:330-335: all layers. -/
def stretchLayers (sqrt : α → α) (fuel : ℕ) (kf kb : ItKind) :
    StretchSt α → List (Layer α) → Except Err (StretchSt α × List (Layer α))
  | st, [] => .ok (st, [])
  | st, L :: rest =>
    match stretchLayer sqrt fuel kf kb st L.lines 0 L.lines with
    | .error er => .error er
    | .ok (st, ls) =>
      match stretchLayers sqrt fuel kf kb st rest with
      | .error er => .error er
      | .ok (st, Ls) => .ok (st, { L with lines := ls } :: Ls)

/-! ### Annotation passes (stretch.py:517-762) -/

/-- `line.raw += sep + marker`. -/
def addMark (sep m : Str) (l : PyLine α) : PyLine α := { l with raw := l.raw ++ sep ++ m }

/-- stretch.py:518-520, 624-626. -/
inductive LoopType where
  | unknown | external | extra
  deriving DecidableEq, Repr

/-- State of the annotation passes. -/
structure AnnSt (α : Type) where
  dist : Option (StretchDist α) := none
  found : Bool := false
  extruding : Bool := false
  nextOuter : Bool := true
  type : LoopType := .unknown
  /-- `next_line_marker` (Cura): `(external, outer)` -/
  next : Option (Bool × Bool) := none
  deriving DecidableEq, Repr

/-- stretch.py:572-578, 674-680: extrusion on/off markers. -/
def annotateExtrusion (s : AnnSt α) (l : PyLine α) : AnnSt α × PyLine α :=
  if !s.extruding && l.inLinear && l.e.isSome then
    ({ s with extruding := true }, addMark c!" ; " extrusionOnMarker l)
  else if s.extruding && l.inLinear && l.e.isNone && decide (s.type ≠ .unknown) then
    ({ s with extruding := false }, addMark c!" ; " extrusionOffMarker l)
  else (s, l)

/-- stretch.py:533-558 `Slic3rStretchFilter.new_perimeter`. -/
def slic3rPerimeter (s : AnnSt α) (l : PyLine α) (external : Bool) : AnnSt α × PyLine α :=
  if external then
    let (s, l) :=
      if s.nextOuter then ({ s with nextOuter := false }, addMark c!" ; " outerEdgeMarker l)
      else (s, addMark c!" ; " innerEdgeMarker l)
    let l := if s.type ≠ .external then addMark c!" ; " loopStopMarker l else l
    ({ s with type := .external }, l)
  else
    let l := addMark c!" ; " loopStartMarker l
    let l := if s.type = .external then addMark c!" ; " loopStopMarker l else l
    ({ s with type := .extra }, l)

/-- stretch.py:593-599: the kind of the next perimeter line, if any (`some true` = external). -/
def nextPerimeter : List (PyLine α) → Option Bool
  | [] => none
  | l :: rest =>
    if hasSub c!"; perimeter external" l.raw then some true
    else if hasSub c!"; perimeter" l.raw then some false
    else nextPerimeter rest

/-- Drop a literal prefix. -/
def dropPrefix? : Str → Str → Option Str
  | [], s => some s
  | p :: ps, c :: cs => if p = c then dropPrefix? ps cs else none
  | _ :: _, [] => none

/-- The class `[\.\d]`. -/
def isNumChar (c : Char) : Bool := isDig c || c = '.'

/-- stretch.py:522 `EDGE_WIDTH_REGEXP.match(raw)` of the Slic3r filter: group 1. -/
def slic3rEdgeWidth (raw : Str) : Option Str :=
  match dropPrefix? c!"; external perimeters extrusion width" raw with
  | none => none
  | some r =>
    if (r.takeWhile isSpace).isEmpty then none
    else match r.dropWhile isSpace with
      | '=' :: r =>
        if (r.takeWhile isSpace).isEmpty then none
        else
          let r := r.dropWhile isSpace
          let n := r.takeWhile isNumChar
          if n.isEmpty then none
          else match r.dropWhile isNumChar with
            | 'm' :: 'm' :: _ => some n
            | _ => none
      | _ => none

/-- stretch.py:736 `EDGE_WIDTH_REGEXP.match(raw)` of the Skeinforge filter: group 1. -/
def skeinforgeEdgeWidth (raw : Str) : Option Str :=
  match dropPrefix? c!"(<edgeWidth> " raw with
  | none => none
  | some r =>
    let n := r.takeWhile isNumChar
    if n.isEmpty then none else some n

/-- `self.set_edge_width(float(text))`. -/
def edgeFromText (repo : StretchRepo α) (t : Str) : Except Err (StretchDist α) :=
  match (parseFloat t : Option α) with
  | some w => .ok (setEdgeWidth repo w)
  | none => .error .valueError

/-- stretch.py:569-613: one line of the Slic3r pass; `rest` are the following (unannotated) lines of the
layer. -/
def slic3rLine (repo : StretchRepo α) (s : AnnSt α) (l : PyLine α) (rest : List (PyLine α)) :
    Except Err (AnnSt α × PyLine α) :=
  let (s, l) := annotateExtrusion s l
  let (s, l) :=
    if hasSub c!"; perimeter external" l.raw then
      if s.type ≠ .external then slic3rPerimeter s l true else (s, l)
    else if hasSub c!"; perimeter" l.raw then
      if s.type ≠ .extra then slic3rPerimeter s l false else (s, l)
    else if hasSub c!"; move to first perimeter point" l.raw then
      match nextPerimeter rest with
      | some ext => slic3rPerimeter s l ext
      | none => (s, l)
    else if !hasSub c!"unretract" l.raw then
      let l := if s.type ≠ .unknown then addMark c!" ; " loopStopMarker l else l
      ({ s with type := .unknown }, l)
    else (s, l)
  match slic3rEdgeWidth l.raw with
  | some t =>
    match edgeFromText repo t with
    | .error er => .error er
    | .ok d => .ok ({ s with dist := some d, found := true }, l)
  | none => .ok (s, l)

/-- stretch.py:569-613: the lines of one layer. -/
def slic3rLines (repo : StretchRepo α) :
    AnnSt α → List (PyLine α) → Except Err (AnnSt α × List (PyLine α))
  | s, [] => .ok (s, [])
  | s, l :: rest =>
    match slic3rLine repo s l rest with
    | .error er => .error er
    | .ok (s, l) =>
      match slic3rLines repo s rest with
      | .error er => .error er
      | .ok (s, ls) => .ok (s, l :: ls)

/-- stretch.py:636-660 `CuraStretchFilter.new_perimeter`. -/
def curaPerimeter (s : AnnSt α) (l : PyLine α) (external outer : Bool) : AnnSt α × PyLine α :=
  let l :=
    if external then (if outer then addMark c!" ; " outerEdgeMarker l else addMark c!" ; " innerEdgeMarker l)
    else addMark c!" ; " loopStartMarker l
  let l := if s.type ≠ .unknown then addMark c!" ; " loopStopMarker l else l
  ({ s with type := if external then .external else .extra }, l)

/-- stretch.py:728-732 `stop_loop`. -/
def curaStop (s : AnnSt α) (l : PyLine α) : AnnSt α × PyLine α :=
  let l := if s.type ≠ .unknown then addMark c!" ; " loopStopMarker l else l
  ({ s with type := .unknown }, l)

/-- stretch.py:715-726 `parse_cura_profile`: base64, zlib and option splitting are not modelled; the oracle
says which exception they raise, or the nozzle size found (if any). -/
abbrev ProfileOracle (α : Type) := Str → Except Err (Option α)

/-- stretch.py:671-709: one line of the Cura pass; `isLast`: it is the last line of its layer. -/
def curaLine (repo : StretchRepo α) (profile : ProfileOracle α) (s : AnnSt α) (l : PyLine α)
    (isLast : Bool) : Except Err (AnnSt α × PyLine α) :=
  let (s, l) := annotateExtrusion s l
  let (s, l) := match s.next with
    | some (ext, outer) => curaPerimeter { s with next := none } l ext outer
    | none => (s, l)
  let (s, l) :=
    if hasSub c!"TYPE:WALL-OUTER" l.raw then
      let (s, l) := curaStop s l
      ({ s with next := some (true, true) }, l)
    else if hasSub c!"TYPE:WALL-INNER" l.raw then
      let (s, l) := curaStop s l
      ({ s with next := some (true, false) }, l)
    else if hasSub c!"TYPE:SKIN" l.raw then
      let (s, l) := curaStop s l
      ({ s with next := some (false, false) }, l)
    else if hasSub c!"TYPE:FILL" l.raw then curaStop s l
    else (s, l)
  let (s, l) := if isLast then curaStop s l else (s, l)
  match dropPrefix? c!";CURA_PROFILE_STRING:" l.raw with
  | some t =>
    match profile t with
    | .error er => .error er
    | .ok (some w) => .ok ({ s with dist := some (setEdgeWidth repo w), found := true }, l)
    | .ok none => .ok ({ s with found := false }, l)
  | none => .ok (s, l)

/-- stretch.py:671-709: the lines of one layer. -/
def curaLines (repo : StretchRepo α) (profile : ProfileOracle α) :
    AnnSt α → List (PyLine α) → Except Err (AnnSt α × List (PyLine α))
  | s, [] => .ok (s, [])
  | s, l :: rest =>
    match curaLine repo profile s l rest.isEmpty with
    | .error er => .error er
    | .ok (s, l) =>
      match curaLines repo profile s rest with
      | .error er => .error er
      | .ok (s, ls) => .ok (s, l :: ls)

/-- stretch.py:748-762: one line of the Skeinforge pass (738-745 `parse_initialisation_line` first). -/
def skeinforgeLine (repo : StretchRepo α) (s : AnnSt α) (l : PyLine α) :
    Except Err (AnnSt α × PyLine α) :=
  let mark : PyLine α :=
    if l.isCmd c!"M101" then addMark c!"; " extrusionOnMarker l
    else if l.isCmd c!"M103" then addMark c!"; " extrusionOffMarker l
    else if startsWith c!"(<loop>" l.raw then addMark c!"; " loopStartMarker l
    else if startsWith c!"(<edge>" l.raw && !startsWith c!"(<edge> outer" l.raw then
      addMark c!"; " innerEdgeMarker l
    else if startsWith c!"(<edge> outer" l.raw then addMark c!"; " outerEdgeMarker l
    else if startsWith c!"(</edge>)" l.raw || startsWith c!"(</loop>)" l.raw then
      addMark c!"; " loopStopMarker l
    else l
  match skeinforgeEdgeWidth l.raw with
  | some t =>
    match edgeFromText repo t with
    | .error er => .error er
    | .ok d => .ok ({ s with dist := some d, found := true }, mark)
  | none => .ok (s, mark)

/-- stretch.py:748-762: the lines of one layer. -/
def skeinforgeLines (repo : StretchRepo α) :
    AnnSt α → List (PyLine α) → Except Err (AnnSt α × List (PyLine α))
  | s, [] => .ok (s, [])
  | s, l :: rest =>
    match skeinforgeLine repo s l with
    | .error er => .error er
    | .ok (s, l) =>
      match skeinforgeLines repo s rest with
      | .error er => .error er
      | .ok (s, ls) => .ok (s, l :: ls)

/-- The three stretch filters. -/
inductive Slicer where
  | slic3r | cura | skeinforge
  deriving DecidableEq, Repr

/-- The annotation pass of one layer: stretch.py:565-616, 667-709, 748-762. -/
def annotateLayer (slicer : Slicer) (repo : StretchRepo α) (profile : ProfileOracle α) (s : AnnSt α)
    (lines : List (PyLine α)) : Except Err (AnnSt α × List (PyLine α)) :=
  match slicer with
  | .slic3r => slic3rLines repo { s with nextOuter := true, type := .unknown } lines
  | .cura => curaLines repo profile { s with type := .unknown, next := none } lines
  | .skeinforge => skeinforgeLines repo s lines

/-- The annotation pass over all layers. -/
def annotateLayers (slicer : Slicer) (repo : StretchRepo α) (profile : ProfileOracle α) :
    AnnSt α → List (Layer α) → Except Err (AnnSt α × List (Layer α))
  | s, [] => .ok (s, [])
  | s, L :: rest =>
    match annotateLayer slicer repo profile s L.lines with
    | .error er => .error er
    | .ok (s, ls) =>
      match annotateLayers slicer repo profile s rest with
      | .error er => .error er
      | .ok (s, Ls) => .ok (s, { L with lines := ls } :: Ls)

/-- stretch.py:560-620, 662-713, 747-762 `setup_filter`: the default edge width is used by the Slic3r and Cura
filters when none was found. -/
def setupFilter (slicer : Slicer) (repo : StretchRepo α) (profile : ProfileOracle α) (layers : List (Layer α)) :
    Except Err (Option (StretchDist α) × List (Layer α)) :=
  match annotateLayers slicer repo profile {} layers with
  | .error er => .error er
  | .ok (s, Ls) =>
    let dist := match slicer with
      | .skeinforge => s.dist
      | _ => if s.found then s.dist else some (setEdgeWidth repo (4 / 10))
    .ok (dist, Ls)

/-- The iterator classes of each filter: stretch.py:321-322, 527-528, 633-634. -/
def Slicer.forward : Slicer → ItKind
  | .slic3r => .fwd
  | .cura => .curaFwd
  | .skeinforge => .fwdLegacy
@[inherit_doc Slicer.forward] def Slicer.backward : Slicer → ItKind
  | .slic3r => .bwd
  | .cura => .curaBwd
  | .skeinforge => .bwdLegacy

/-- stretch.py:324-335 `filter` on a fresh filter object. -/
def GCode.stretch (sqrt : α → α) (fuel : ℕ) (slicer : Slicer) (repo : StretchRepo α)
    (profile : ProfileOracle α) (g : GCode α) : Except Err (GCode α) :=
  match setupFilter slicer repo profile g.allLayers with
  | .error er => .error er
  | .ok (dist, Ls) =>
    match stretchLayers sqrt fuel slicer.forward slicer.backward { StretchSt.init with dist := dist } Ls with
    | .error er => .error er
    | .ok (_, Ls) => .ok { g with allLayers := Ls }

end GCodeUtils
