import Verif.Model.Filter

/-
  gcodeutils/filter/arc_optimizer.py.
-/

namespace GCodeUtils

variable {α : Type} [Field α] [LinearOrder α] [IsStrictOrderedRing α] [FloorRing α]

/-- The mathematical functions used (arc_optimizer.py:11-12): `math.sqrt`, `math.sin`, `cmath.phase` of the
complex number `x + y·i`, `cmath.pi`; and the tie rule of `round`. -/
structure Trig (α : Type) where
  sqrt : α → α
  sin : α → α
  phase : α → α → α
  pi : α
  mode : RoundMode

/-- arc_optimizer.py:19 `MIN_SEGMENTS`. -/
def minSegments : ℕ := 8
/-- arc_optimizer.py:20 `MAX_RADIUS`. -/
def maxRadius : α := 200
/-- arc_optimizer.py:21 `ALIGNMENT_ERROR = 0.015`. -/
def alignmentError : α := 15 / 1000
/-- arc_optimizer.py:22 `PHASE_ERROR`. -/
def phaseError (t : Trig α) : α := 5 * t.pi / 180
/-- arc_optimizer.py:23 `EXTRUSION_ERROR = 0.15`. -/
def extrusionError : α := 15 / 100
/-- arc_optimizer.py:24 `EPSILON = 0.000001`. -/
def arcEpsilon : α := 1 / 1000000
/-- arc_optimizer.py:26 `EXTRUSION_CORRECTION_LIMIT = 0.01`. -/
def correctionLimit : α := 1 / 100

/-- Arithmetic on a value that may be `None` raises `TypeError`. -/
def num (v : Option α) : Except Err α :=
  match v with
  | some a => .ok a
  | none => .error .typeError

/-- Python `a / b`. -/
def divE (a b : α) : Except Err α := if b = 0 then .error .zeroDivision else .ok (a / b)

/-- arc_optimizer.py:62-74 `Circle`. -/
structure Circle (α : Type) where
  radius : α
  cx : α
  cy : α
  direction : α
  startX : α
  startY : α
  endX : α
  endY : α
  deriving DecidableEq, Repr

/-- arc_optimizer.py:90-108 `phase_diff`. -/
def phaseDiff (t : Trig α) (p1 p2 : α) : α :=
  let d := p1 - p2
  if d < -t.pi then d + 2 * t.pi else if t.pi < d then d - 2 * t.pi else d

/-- `[f(pt) for pt in points]` summed. -/
def sumOf (pts : List (α × α)) (f : α → α → α) : α := (pts.map (fun p => f p.1 p.2)).sum

/-- arc_optimizer.py:124-160 `get_circle_least_squares` on the points of the queue. -/
def leastSquares (t : Trig α) (pts : List (α × α)) : Except Err (Option (Circle α)) :=
  let n : α := (pts.length : α)
  match divE (sumOf pts (fun x _ => x)) n, divE (sumOf pts (fun _ y => y)) n with
  | .error er, _ => .error er
  | _, .error er => .error er
  | .ok xbar, .ok ybar =>
    let suu := sumOf pts (fun x _ => (x - xbar) * (x - xbar))
    let suuu := sumOf pts (fun x _ => (x - xbar) * (x - xbar) * (x - xbar))
    let suvv := sumOf pts (fun x y => (x - xbar) * (y - ybar) * (y - ybar))
    let suv := sumOf pts (fun x y => (x - xbar) * (y - ybar))
    let svv := sumOf pts (fun _ y => (y - ybar) * (y - ybar))
    let svvv := sumOf pts (fun _ y => (y - ybar) * (y - ybar) * (y - ybar))
    let svuu := sumOf pts (fun x y => (y - ybar) * (x - xbar) * (x - xbar))
    if suu < arcEpsilon ∨ svv < arcEpsilon then .ok none
    else
      match divE (((svvv + svuu) / 2) - ((suv / 2) * ((suuu + suvv) / suu)))
          (((-(suv * suv)) / suu) + svv) with
      | .error er => .error er
      | .ok v =>
        let u := (((suuu + suvv) / 2) - (v * suv)) / suu
        match pts[0]?, pts[2]?, pts.getLast? with
        | some p0, some p2, some pl =>
          let cx := u + xbar
          let cy := v + ybar
          .ok (some
            { radius := t.sqrt ((u * u) + (v * v) + ((suu + svv) / n))
              cx := cx, cy := cy
              direction := phaseDiff t (t.phase (p2.1 - cx) (p2.2 - cy)) (t.phase (p0.1 - cx) (p0.2 - cy))
              startX := p0.1, startY := p0.2, endX := pl.1, endY := pl.2 })
        | _, _, _ => .error .indexError

/-- arc_optimizer.py:51-52 `Point.amplitude`. -/
def amplitude (t : Trig α) (x y : α) : α := t.sqrt (x * x + y * y)

/-- arc_optimizer.py:162-173 `get_circle_radius_errors`. -/
def radiusErrors (t : Trig α) (c : Circle α) (pts : List (α × α)) : List α :=
  pts.map (fun p => |amplitude t (c.cx - p.1) (c.cy - p.2) - c.radius|)

/-- `[f(l[i], l[i-1]) for i in range(1, len(l))]`. -/
def pairwise {β γ : Type} (f : β → β → γ) : List β → List γ
  | a :: b :: rest => f b a :: pairwise f (b :: rest)
  | _ => []

/-- arc_optimizer.py:175-185 `get_phase_diffs`. -/
def phaseDiffs (t : Trig α) (c : Circle α) (pts : List (α × α)) : List α :=
  pairwise (phaseDiff t) (pts.map (fun p => t.phase (p.1 - c.cx) (p.2 - c.cy)))

/-- arc_optimizer.py:187-197 `get_circle_angle_errors`. -/
def angleErrors (t : Trig α) (c : Circle α) (pts : List (α × α)) : Except Err (List α) :=
  let ds := phaseDiffs t c pts
  match divE ds.sum (ds.length : α) with
  | .error er => .error er
  | .ok avg => .ok (ds.map (fun d => d - avg))

/-- arc_optimizer.py:199-214 `get_circle`: `(error, circle)`. -/
def getCircle (t : Trig α) (pts : List (α × α)) : Except Err (Bool × Option (Circle α)) :=
  match leastSquares t pts with
  | .error er => .error er
  | .ok none => .ok (true, none)
  | .ok (some c) =>
    if maxRadius < c.radius then .ok (true, some c)
    else if (radiusErrors t c pts).any (fun e => decide (alignmentError < e)) then .ok (true, some c)
    else
      match angleErrors t c pts with
      | .error er => .error er
      | .ok errs => .ok (errs.any (fun e => decide (phaseError t < e)), some c)

/-- The points `(current_x, current_y)` of queued lines; `None` raises `TypeError` in the arithmetic. -/
def points : List (PyLine α) → Except Err (List (α × α))
  | [] => .ok []
  | l :: rest =>
    match num l.currentX, num l.currentY, points rest with
    | .ok x, .ok y, .ok ps => .ok ((x, y) :: ps)
    | _, _, _ => .error .typeError

/-- One segment of `get_distances`: path length and filament. -/
structure Seg (α : Type) where
  path : α
  filament : α
  deriving DecidableEq, Repr

/-- arc_optimizer.py:240 `extrusion`; adding `None` raises `TypeError`. -/
def segFilament (prev l : PyLine α) : Except Err α :=
  if l.relativeE.getD false then num l.e
  else
    match l.currentE, prev.currentE with
    | some a, some b => .ok (a - b)
    | _, _ => .error .typeError

/-- arc_optimizer.py:236-249: the segments of the queue. -/
def segments (t : Trig α) : List (PyLine α) → Except Err (List (Seg α))
  | p :: l :: rest =>
    match l.currentX, l.currentY, p.currentX, p.currentY with
    | some x, some y, some px, some py =>
      let path := pyRound t.mode 7 (t.sqrt ((x - px) ^ 2 + (y - py) ^ 2))
      match segFilament p l, segments t (l :: rest) with
      | .ok fl, .ok ss => .ok ({ path := path, filament := fl } :: ss)
      | .error er, _ => .error er
      | _, .error er => .error er
    | _, _, _, _ => .error .typeError
  | _ => .ok []

/-- The results of `get_distances` that are used (`total`, `avg.ratio`, per-segment values). -/
structure Distances (α : Type) where
  segs : List (Seg α)
  totalPath : α
  totalFilament : α
  avgRatio : α
  deriving DecidableEq, Repr

/-- arc_optimizer.py:245-248: extrusion per length of a segment. -/
def segRatio (s : Seg α) : α := if s.path < arcEpsilon then 0 else s.filament / s.path

/-- arc_optimizer.py:216-253 `get_distances`. -/
def getDistances (t : Trig α) (queue : List (PyLine α)) : Except Err (Distances α) :=
  match segments t queue with
  | .error er => .error er
  | .ok ss =>
    let tp := (ss.map (·.path)).sum
    let tf := (ss.map (·.filament)).sum
    match divE tf tp with
    | .error er => .error er
    | .ok r => .ok { segs := ss, totalPath := tp, totalFilament := tf, avgRatio := r }

/-- arc_optimizer.py:264-267: the replaced moves all or none carry E, same feed rate, same Z. -/
def uniformTail (queue : List (PyLine α)) : Except Err (Bool × Bool) :=
  match queue[1]? with
  | none => .error .indexError
  | some q1 =>
    let tl := queue.drop 1
    let allE := q1.e.isSome
    let validE := if allE then tl.all (fun l => l.e.isSome) else !tl.any (fun l => l.e.isSome)
    let validF := tl.all (fun l => decide (l.currentF = q1.currentF))
    let validZ := tl.all (fun l => decide (l.currentZ = q1.currentZ))
    .ok (validE && validF && validZ, allE)

/-- arc_optimizer.py:271-277: extrusion per length is positive on average and within 15% everywhere. -/
def ratioOk (d : Distances α) : Bool :=
  !decide (d.avgRatio < arcEpsilon) &&
    d.segs.all (fun s => decide (|segRatio s / d.avgRatio - 1| < extrusionError))

/-- arc_optimizer.py:255-278 `queue_valid`: `(error, circle)`. -/
def queueValid (t : Trig α) (queue : List (PyLine α)) : Except Err (Bool × Option (Circle α)) :=
  match uniformTail queue with
  | .error er => .error er
  | .ok (false, _) => .ok (true, none)
  | .ok (true, allE) =>
    let go : Except Err (Bool × Option (Circle α)) :=
      match points queue with
      | .error er => .error er
      | .ok pts => getCircle t pts
    if allE then
      match getDistances t queue with
      | .error er => .error er
      | .ok d => if ratioOk d then go else .ok (true, none)
    else go

/-- arc_optimizer.py:303-304: extrusion of the arc in relative mode. -/
def relArcE (t : Trig α) (r : α) : List (Seg α) → List α → Except Err α
  | s :: ss, a :: as =>
    match divE (s.filament * (r * a)) (2 * r * t.sin (a / 2)), relArcE t r ss as with
    | .ok v, .ok rest => .ok (v + rest)
    | .error er, _ => .error er
    | _, .error er => .error er
  | _, _ => .ok 0

/-- arc_optimizer.py:323: the comment appended to the generated arc (`n` segments). -/
def arcComment (n : ℕ) : Str := c!"; generated from " ++ natDigits n ++ c!" segments"

/-- arc_optimizer.py:285-326 `to_gcode` on the queue `window ++ [last]`. -/
def toGcode (t : Trig α) (window : List (PyLine α)) (last : PyLine α) : Except Err (List (PyLine α)) :=
  match window.head?, window.getLast? with
  | some first, some endPt =>
    match points window with
    | .error er => .error er
    | .ok pts =>
      match getCircle t pts with
      | .error er => .error er
      | .ok (_, circle) =>
        match getDistances t window with
        | .error er => .error er
        | .ok d =>
          match circle with
          | none => .error .attributeError
          | some c =>
            let op1 : PyLine α :=
              { command := some (if 0 < c.direction then c!"G3" else c!"G2")
                x := some (pyRound t.mode 3 c.endX)
                y := some (pyRound t.mode 3 c.endY)
                i := some (pyRound t.mode 3 (c.cx - c.startX))
                j := some (pyRound t.mode 3 (c.cy - c.startY))
                f := endPt.currentF }
            let finish (op1 : PyLine α) : PyLine α :=
              let op1 := unsplit op1
              { op1 with raw := op1.raw ++ arcComment (window.length - 1) }
            let diffs := phaseDiffs t c pts
            if endPt.relativeE.getD false then
              match relArcE t c.radius d.segs diffs with
              | .error er => .error er
              | .ok e =>
                .ok [first, finish { op1 with e := some e, relativeE := some true }, last]
            else
              let arcExtrusion := (diffs.map (fun a => a * c.radius)).sum * d.avgRatio
              match first.currentE, divE arcExtrusion d.totalFilament with
              | some e0, .ok rel =>
                let op1 := finish { op1 with e := some (e0 + arcExtrusion), relativeE := some false }
                if correctionLimit < rel - 1 then
                  let op2 : PyLine α :=
                    unsplit { command := some c!"G92", e := endPt.currentE, currentE := endPt.currentE }
                  .ok [first, op1,
                    { op2 with raw := op2.raw ++ c!"; generated as arc to path relation is " ++ fmtFixed 6 rel },
                    last]
                else .ok [first, op1, last]
              | none, _ => .error .typeError
              | _, .error er => .error er
  | _, _ => .error .indexError

/-- The two geometric decisions of the queue machine: is the queue still one arc (`not error`), and the
replacement for `window` followed by `last`. -/
structure ArcOps (α : Type) where
  valid : List (PyLine α) → Except Err Bool
  emit : List (PyLine α) → PyLine α → Except Err (List (PyLine α))

/-- The decisions the code makes. -/
def arcOps (t : Trig α) : ArcOps α where
  valid := fun q => match queueValid t q with
    | .error er => .error er
    | .ok (err, _) => .ok (!err)
  emit := toGcode t

/-- arc_optimizer.py:84-88: attributes of the filter object. -/
structure ArcSt (α : Type) where
  queue : List (PyLine α) := []
  validCircle : Bool := false
  deriving DecidableEq, Repr

/-- arc_optimizer.py:336-341: a comment takes over the position of the line before it. -/
def inheritPos (queue : List (PyLine α)) (l : PyLine α) : PyLine α :=
  match l.command, queue.getLast? with
  | none, some q => { l with currentX := q.currentX, currentY := q.currentY, currentZ := q.currentZ,
                             currentE := q.currentE, currentF := q.currentF }
  | _, _ => l

/-- arc_optimizer.py:330-376 `opcode_filter`. -/
def arcFilter (ops : ArcOps α) : OpFilter (ArcSt α) α := fun s l0 =>
  let l := inheritPos s.queue l0
  let q := s.queue ++ [l]
  if minSegments < q.length then
    if !l.inMoves then
      if s.validCircle then
        match ops.emit s.queue l with
        | .error er => .error er
        | .ok r => .ok ({ queue := [], validCircle := false }, .many r)
      else .ok ({ s with queue := [] }, .many q)
    else
      match ops.valid q with
      | .error er => .error er
      | .ok false =>
        if s.validCircle then
          match ops.emit s.queue l with
          | .error er => .error er
          | .ok r =>
            match r.getLast? with
            | none => .error .indexError
            | some last => .ok ({ queue := [last], validCircle := false }, .many r.dropLast)
        else
          match q with
          | [] => .error .indexError
          | h :: tl => .ok ({ s with queue := tl }, .one h)
      | .ok true => .ok ({ queue := q, validCircle := true }, .many [])
  else if l.inMoves || l.command = none then .ok ({ s with queue := q }, .many [])
  else .ok ({ queue := [], validCircle := false }, .many q)

/-- Apply a function to the last element of a list. -/
def modifyLast {β : Type} (f : β → β) : List β → List β
  | [] => []
  | [a] => [f a]
  | a :: b :: rest => a :: modifyLast f (b :: rest)

/-- arc_optimizer.py:118-122 `parse_gcode`: the remaining queue goes to the last layer; it stays in the filter
object.  (A program always has at least one layer.) -/
def arcRun (ops : ArcOps α) (s : ArcSt α) (g : GCode α) : Except Err (ArcSt α × GCode α) :=
  match runFilter (arcFilter ops) s g with
  | .error er => .error er
  | .ok (s, g) =>
    .ok (s, if s.queue.isEmpty then g
      else { g with allLayers := modifyLast (fun L => { L with lines := L.lines ++ s.queue }) g.allLayers })

/-- `GCodeArcOptimizerFilter().filter(gcode)`. -/
def GCode.optimizeArcs (t : Trig α) (g : GCode α) : Except Err (GCode α) :=
  (arcRun (arcOps t) {} g).map (·.2)

end GCodeUtils
