import Verif.Spec.Walk
import Verif.Spec.Filter

/-
  What a point of a loop is pushed away from, and how far.
-/

set_option linter.unusedSectionVars false

namespace GCodeUtils.Spec

open GCodeUtils

variable {α : Type} [Field α] [LinearOrder α] [IsStrictOrderedRing α] [FloorRing α]

/-! ### paths -/

/-- The distance of two points. -/
def far (sqrt : α → α) (p q : Cx α) : α := sqrt ((p.re - q.re) * (p.re - q.re) + (p.im - q.im) * (p.im - q.im))

/-- The square root of a square is exact. -/
def ExactSquares (sqrt : α → α) : Prop := ∀ x, sqrt (x * x) = |x|

/-- The distance of two points is exact. -/
def ExactEdge (sqrt : α → α) (p q : Cx α) : Prop := far sqrt p q * far sqrt p q = (p.re - q.re) * (p.re - q.re) + (p.im - q.im) * (p.im - q.im)

/-- The length of the path from `p` through some points. -/
def pathLen (sqrt : α → α) : Cx α → List (Cx α) → α
  | _, [] => 0
  | p, q :: qs => far sqrt p q + pathLen sqrt q qs

/-- The end of that path. -/
def pathEnd (p : Cx α) (qs : List (Cx α)) : Cx α := qs.getLast?.getD p

/-- How a path that begins at `p` pushes `p`: away from the point at distance `d` along the path (relative to `d`), or if the path is
not that long, away from its end. -/
inductive Push (sqrt : α → α) (d : α) (p : Cx α) : List (Cx α) → Cx α → Prop
  | reached (a : List (Cx α)) (q : Cx α) (b : List (Cx α)) (t : α) (z v : Cx α) :
      pathLen sqrt p a < d → d ≤ pathLen sqrt p (a ++ [q]) → t * far sqrt (pathEnd p a) q = d - pathLen sqrt p a →
      z.re = (pathEnd p a).re + t * (q.re - (pathEnd p a).re) → z.im = (pathEnd p a).im + t * (q.im - (pathEnd p a).im) →
      d * v.re = p.re - z.re → d * v.im = p.im - z.im → Push sqrt d p (a ++ q :: b) v
  | short (qs : List (Cx α)) (v : Cx α) : pathLen sqrt p qs < d → 0 < far sqrt p (pathEnd p qs) →
      far sqrt p (pathEnd p qs) * v.re = p.re - (pathEnd p qs).re → far sqrt p (pathEnd p qs) * v.im = p.im - (pathEnd p qs).im →
      Push sqrt d p qs v
  | closed (qs : List (Cx α)) : pathLen sqrt p qs < d → ¬ 0 < far sqrt p (pathEnd p qs) → Push sqrt d p qs ⟨0, 0⟩

/-- The share of a push across an edge of length `len` that remains. -/
def acrossShare (limit len : α) : α := if limit < len then 0 else (limit - len) / (limit - limit / 3)

/-- A push, limited by the edge from `p` to `q`: short edges do not limit it, long ones let only the part along the edge remain. -/
def Held (sqrt : α → α) (limit : α) (p q s s' : Cx α) : Prop :=
  (far sqrt p q ≤ limit / 3 ∧ s' = s) ∨
  (limit / 3 < far sqrt p q ∧ ∃ ux uy : α, far sqrt p q * ux = p.re - q.re ∧ far sqrt p q * uy = p.im - q.im ∧
    s'.re = (ux * s.re + uy * s.im) * ux + acrossShare limit (far sqrt p q) * ((uy * s.re - ux * s.im) * uy) ∧
    s'.im = (ux * s.re + uy * s.im) * uy - acrossShare limit (far sqrt p q) * ((uy * s.re - ux * s.im) * ux))

/-- The displacement of a point: pushed by the paths ahead and behind, limited by the edges to its neighbours, no longer than 1,
times `most`. -/
def PushedBy (sqrt : α → α) (d limit most : α) (p : Cx α) (ahead behind : List (Cx α)) (δ : Cx α) : Prop :=
  ∃ a b s1 s2 s3 : Cx α, Push sqrt d p ahead a ∧ Push sqrt d p behind b ∧
    (match ahead.head? with | some q => Held sqrt limit p q ⟨8 / 10 * (a.re + b.re), 8 / 10 * (a.im + b.im)⟩ s1 | none => s1 = ⟨8 / 10 * (a.re + b.re), 8 / 10 * (a.im + b.im)⟩) ∧
    (match behind.head? with | some q => Held sqrt limit p q s1 s2 | none => s2 = s1) ∧
    (if 1 < far sqrt s2 ⟨0, 0⟩ then far sqrt s2 ⟨0, 0⟩ * s3.re = s2.re ∧ far sqrt s2 ⟨0, 0⟩ * s3.im = s2.im else s3 = s2) ∧
    δ.re = most * s3.re ∧ δ.im = most * s3.im

/-- A point of the ray from `p` with direction `u`. -/
def rayPt (p u : Cx α) (t : α) : Cx α := ⟨p.re + t * u.re, p.im + t * u.im⟩

/-! ### loops -/

/-- The point that the last of some lines goes to, in the view of the filter. -/
def herePt (hist : List (PyLine α)) : Cx α :=
  ⟨lastOr 0 ((loopMoves none hist).filterMap (·.x)), lastOr 0 ((loopMoves none hist).filterMap (·.y))⟩

/-- Reading the line again does not make an X/Y move of a line that is none. -/
def ReadsBack (l : PyLine α) : Prop := ∀ c, reparse l = .ok c → XYMove c → XYMove l

/-- The linear X/Y moves among the lines `i`, …, `j - 1`. -/
def movesIn (ls : List (PyLine α)) (i j : ℕ) : List (PyLine α) := ((ls.take j).drop i).filter (fun l => decide (XYMove l))

/-- Where the filter takes a move to go to, seen from the point `p`. -/
def goal (p : Cx α) (l : PyLine α) : Cx α := ⟨l.x.getD p.re, l.y.getD p.im⟩

/-- A Cura loop of the lines `s`, …, `k - 1`: it begins and ends with X/Y moves, the first line has the start mark, the line after it
the stop mark. -/
structure CuraLoop (ls : List (PyLine α)) (s k : ℕ) : Prop where
  lt : s < k
  first : ∃ l, ls[s]? = some l ∧ XYMove l ∧ c!"stretch-loop-start" <:+: l.raw
  last : ∃ l, ls[k - 1]? = some l ∧ XYMove l
  stop : ∃ l, ls[k]? = some l ∧ c!"stretch-loop-stop" <:+: l.raw
  noStart : ∀ i l, s < i → i ≤ k → ls[i]? = some l → ¬ c!"stretch-loop-start" <:+: l.raw
  noStop : ∀ i l, s ≤ i → i < k → ls[i]? = some l → ¬ c!"stretch-loop-stop" <:+: l.raw

/-- A Slic3r loop of the lines `s`, …, `o - 1`: it begins and ends with X/Y moves, the first line has the start mark, at the line after
it extrusion ends. -/
structure Slic3rLoop (ls : List (PyLine α)) (s o : ℕ) : Prop where
  lt : s + 1 < o
  first : ∃ l, ls[s]? = some l ∧ XYMove l ∧ c!"stretch-loop-start" <:+: l.raw
  last : ∃ l, ls[o - 1]? = some l ∧ XYMove l
  off : ∃ l, ls[o]? = some l ∧ c!"stretch-extrusion-off" <:+: l.raw
  noStart : ∀ i l, s < i → i < o → ls[i]? = some l → ¬ c!"stretch-loop-start" <:+: l.raw
  noOff : ∀ i l, s ≤ i → i < o → ls[i]? = some l → ¬ c!"stretch-extrusion-off" <:+: l.raw

/-- The moves of a Cura loop that come after line `n` and, around the loop, up to it. -/
def curaAhead (ls : List (PyLine α)) (s k n : ℕ) : List (PyLine α) := movesIn ls (n + 1) k ++ movesIn ls s (n + 1)
/-- The same in the other direction. -/
def curaBehind (ls : List (PyLine α)) (s k n : ℕ) : List (PyLine α) := (movesIn ls s n).reverse ++ (movesIn ls n k).reverse

/-- The moves of a Slic3r loop that come after line `n` and, around the loop, up to it; the first and the last move go to the same
place, and only the last counts. -/
def slic3rAhead (ls : List (PyLine α)) (s o n : ℕ) : List (PyLine α) := movesIn ls (n + 1) o ++ movesIn ls (s + 1) (n + 1)
/-- The same in the other direction; only the first counts. -/
def slic3rBehind (ls : List (PyLine α)) (s o n : ℕ) : List (PyLine α) := (movesIn ls s n).reverse ++ (movesIn ls n (o - 1)).reverse

/-- Line `n` is in a loop, with these moves ahead and behind. -/
def Around (slicer : Slicer) (ls : List (PyLine α)) (n : ℕ) (ahead behind : List (PyLine α)) : Prop :=
  match slicer with
  | .cura => ∃ s k, CuraLoop ls s k ∧ s ≤ n ∧ n < k ∧ ahead = curaAhead ls s k n ∧ behind = curaBehind ls s k n
  | .slic3r => ∃ s o, Slic3rLoop ls s o ∧ s ≤ n ∧ n < o ∧ ahead = slic3rAhead ls s o n ∧ behind = slic3rBehind ls s o n
  | .skeinforge => False

/-! ### runs of the filter -/

/-- The settings of the filter. -/
structure Settings (α : Type) where
  cross : α
  loop : α
  inside : α
  outside : α
  dist : α
  strength : α

/-- The repository made from the settings. -/
def Settings.repo (c : Settings α) : StretchRepo α := StretchRepo.make c.cross c.loop c.inside c.outside c.dist c.strength

/-- The largest displacement. -/
def Settings.most (c : Settings α) (w : α) (k : LoopKind) : α := w * (ratio c.loop c.inside c.outside k * c.strength)

/-- A loaded program of plain texts was stretched; `ann` are its layers with the marks. -/
structure StretchRun (sqrt : α → α) (fuel : ℕ) (slicer : Slicer) (c : Settings α) (profile : ProfileOracle α) (g g' : GCode α) (ann : List (Layer α)) : Prop where
  load : ∃ (env : Env α) (data : List Str) (home : Home α), GCode.load env data false home = .ok g
  plain : ∀ l ∈ program g, ¬ Nested l.raw ∧ '\n' ∉ l.raw
  marks : ∃ d, setupFilter slicer c.repo profile g.allLayers = .ok (d, ann)
  run : g.stretch sqrt fuel slicer c.repo profile = .ok g'

/-- Line `n` of layer `i` is an X/Y move in a loop of a kind; `hist` are the marked lines of the program up to and including it, `l` is
the line, `l'` the line of the stretched program at this place. -/
structure LoopLine (ann out : List (Layer α)) (i n : ℕ) (ls : List (PyLine α)) (kind : LoopKind) (hist : List (PyLine α)) (l l' : PyLine α) : Prop where
  layer : ∃ L L', ann[i]? = some L ∧ L.lines = ls ∧ out[i]? = some L' ∧ L'.lines[n]? = some l'
  line : ls[n]? = some l
  move : XYMove l
  past : hist = linesOf (ann.take i) ++ ls.take (n + 1)
  inLoop : loopAt hist = some kind

end GCodeUtils.Spec
