import Verif.Model.Stretch
import Verif.Spec.Comment
import Verif.Spec.Text
import Verif.Spec.Close
import Verif.Spec.Exec
import Verif.Spec.Filter

/-
  What stretching may do to a program.
-/

set_option linter.unusedSectionVars false

namespace GCodeUtils.Spec

open GCodeUtils

variable {α : Type} [Field α] [LinearOrder α] [IsStrictOrderedRing α] [FloorRing α]

/-! ### marks -/

/-- The six marks. -/
def markTexts : List Str :=
  [c!"stretch-extrusion-on", c!"stretch-extrusion-off", c!"stretch-loop-start",
   c!"stretch-loop-start stretch-inner-edge-start", c!"stretch-loop-start stretch-outer-edge-start", c!"stretch-loop-stop"]

/-- A sequence of marks, each a semicolon comment. -/
inductive Marks : Str → Prop
  | nil : Marks []
  | cons (sep m s : Str) : (sep = c!" ; " ∨ sep = c!"; ") → m ∈ markTexts → Marks s → Marks (sep ++ m ++ s)

/-- The second line is the first with marks appended to its text. -/
def MarkedUp (l l' : PyLine α) : Prop := ∃ s, Marks s ∧ l' = { l with raw := l.raw ++ s }

/-- Same layer, lines related one to one. -/
def SameLayer (R : PyLine α → PyLine α → Prop) (L L' : Layer α) : Prop :=
  L' = { L with lines := L'.lines } ∧ List.Forall₂ R L.lines L'.lines

/-- A text that is one parenthesised comment only when read to its very end: `(a (b) c)`. -/
def Nested (s : Str) : Prop := s.head? = some '(' ∧ s.getLast? = some ')' ∧ ¬ ∃ a b, s = paren a ++ b ∧ ∀ c ∈ a, c ≠ '(' ∧ c ≠ ')'

/-! ### loops -/

/-- The kinds of loop. -/
inductive LoopKind where
  | inner | outer | other
  deriving DecidableEq, Repr

/-- The loop a line belongs to, given the one the previous line belongs to. -/
def loopStep (s : Option LoopKind) (l : PyLine α) : Option LoopKind :=
  if c!"stretch-loop-start stretch-inner-edge-start" <:+: l.raw then some .inner
  else if c!"stretch-loop-start stretch-outer-edge-start" <:+: l.raw then some .outer
  else if c!"stretch-loop-start" <:+: l.raw then some .other
  else if c!"stretch-loop-stop" <:+: l.raw then none
  else s

/-- The loop the last line of a program belongs to. -/
def loopAt (ls : List (PyLine α)) : Option LoopKind := ls.foldl loopStep none

/-- A linear move with an X or Y word. -/
def XYMove (l : PyLine α) : Prop := (l.command = some c!"G0" ∨ l.command = some c!"G1") ∧ (l.x ≠ none ∨ l.y ≠ none)

instance (l : PyLine α) : Decidable (XYMove l) := by unfold XYMove; infer_instance

/-- The linear X/Y moves that belong to loops. -/
def loopMoves (s : Option LoopKind) : List (PyLine α) → List (PyLine α)
  | [] => []
  | l :: ls => if loopStep s l ≠ none ∧ XYMove l then l :: loopMoves (loopStep s l) ls else loopMoves (loopStep s l) ls

/-- The last value, or the given one. -/
def lastOr (d : α) (vs : List α) : α := vs.getLast?.getD d

/-- The largest displacement in a loop of a kind, for an edge width. -/
def reach (repo : StretchRepo α) (w : α) : LoopKind → α
  | .inner => w * repo.inside
  | .outer => w * repo.outside
  | .other => w * repo.loop

/-- A square root, up to a relative error of `ε` (`ε = 0`: the exact one). -/
def IsSqrt (ε : α) (sqrt : α → α) : Prop :=
  0 ≤ ε ∧ ∀ v, 0 ≤ v → 0 ≤ sqrt v ∧ sqrt v ^ 2 ≤ (1 + ε) ^ 2 * v ∧ v ≤ (1 + ε) ^ 2 * sqrt v ^ 2

/-- A line moved by the displacement `(dx, dy)`, whose length is taken to be `n`, and written anew.  `hist` are the lines of the
program up to and including `l`. -/
def MovedBy (dx dy n : α) (hist : List (PyLine α)) (l l' : PyLine α) : Prop :=
  ∃ m : PyLine α, l'.raw = (unsplit m).raw ∧ m.command = l.command ∧
    m.x = some (lastOr 0 ((loopMoves none hist).filterMap (·.x)) + dx) ∧
    m.y = some (lastOr 0 ((loopMoves none hist).filterMap (·.y)) + dy) ∧
    m.z = l.z ∧ m.e = l.e.map (fun e => e * (1 - n)) ∧
    m.f = some (lastOr 959 ((loopMoves none hist).filterMap (fun l => l.f.filter (· ≠ 0)))) ∧ m.i = none ∧ m.j = none ∧
    l'.command = m.command ∧ Within (5 / 10 ^ 4) m.x l'.x ∧ Within (5 / 10 ^ 4) m.y l'.y ∧ Within (5 / 10 ^ 4) m.z l'.z ∧
    Within (5 / 10 ^ 6) m.e l'.e ∧ Within (5 / 10 ^ 4) m.f l'.f ∧ l'.i = none ∧ l'.j = none

/-- A line moved by at most `most`. -/
def Displaced (ε most : α) (hist : List (PyLine α)) (l l' : PyLine α) : Prop :=
  ∃ dx dy n : α, 0 ≤ n ∧ n ^ 2 ≤ (1 + ε) ^ 2 * (dx ^ 2 + dy ^ 2) ∧ dx ^ 2 + dy ^ 2 ≤ (1 + ε) ^ 2 * n ^ 2 ∧
    dx ^ 2 + dy ^ 2 ≤ ((1 + ε) * most) ^ 2 ∧ n ≤ (1 + ε) ^ 2 * most ∧ MovedBy dx dy n hist l l'

/-- What becomes of one line. -/
def LineStretch (ε : α) (most : LoopKind → α) (hist : List (PyLine α)) (l l' : PyLine α) : Prop :=
  match loopAt hist with
  | some k => if XYMove l ∧ 0 < most k then Displaced ε (most k) hist l l' else l'.raw = l.raw
  | none => l'.raw = l.raw

/-- What becomes of the lines of a program, `hist` coming first. -/
inductive Stretches (ε : α) (most : LoopKind → α) : List (PyLine α) → List (PyLine α) → List (PyLine α) → Prop
  | done {hist} : Stretches ε most hist [] []
  | step {hist l l' a b} : LineStretch ε most (hist ++ [l]) l l' → Stretches ε most (hist ++ [l]) a b →
      Stretches ε most hist (l :: a) (l' :: b)

/-! ### edge width -/

/-- A Slic3r comment that gives the edge width. -/
def WidthComment (raw n : Str) : Prop :=
  ∃ a b rest, raw = c!"; external perimeters extrusion width" ++ a ++ c!"=" ++ b ++ n ++ c!"mm" ++ rest ∧
    a ≠ [] ∧ (∀ c ∈ a, c ∈ blanks) ∧ b ≠ [] ∧ (∀ c ∈ b, c ∈ blanks) ∧ n ≠ [] ∧ ∀ c ∈ n, c ∈ c!"0123456789."

/-- A Skeinforge comment that gives the edge width. -/
def SkeinWidthComment (raw n : Str) : Prop :=
  ∃ rest, raw = c!"(<edgeWidth> " ++ n ++ rest ∧ n ≠ [] ∧ (∀ c ∈ n, c ∈ c!"0123456789.") ∧ ∀ c, rest.head? = some c → c ∉ c!"0123456789."

/-- `w` is what the last of the lines that say something says. -/
def LastSays {β : Type} (tells : PyLine α → β → Prop) (ls : List (PyLine α)) (w : β) : Prop :=
  ∃ a l b, ls = a ++ l :: b ∧ tells l w ∧ ∀ x ∈ b, ∀ v, ¬ tells x v

/-- No line says anything. -/
def NoneSays {β : Type} (tells : PyLine α → β → Prop) (ls : List (PyLine α)) : Prop := ∀ x ∈ ls, ∀ v, ¬ tells x v

/-- A line with a Slic3r width comment. -/
def slic3rSays (l : PyLine α) (w : α) : Prop := ∃ n, WidthComment l.raw n ∧ parseFloat n = some w

/-- A line with a Skeinforge width comment. -/
def skeinforgeSays (l : PyLine α) (w : α) : Prop := ∃ n, SkeinWidthComment l.raw n ∧ parseFloat n = some w

/-- A line with a Cura profile; `profile` decodes it. -/
def curaSays (profile : ProfileOracle α) (l : PyLine α) (w : Option α) : Prop :=
  ∃ t, l.raw = c!";CURA_PROFILE_STRING:" ++ t ∧ profile t = .ok w

/-- The edge width used for a program; `orig` are its lines, `ann` the same lines with marks. -/
def EdgeWidth (slicer : Slicer) (profile : ProfileOracle α) (orig ann : List (PyLine α)) (w : α) : Prop :=
  match slicer with
  | .slic3r => LastSays slic3rSays orig w ∨ (NoneSays slic3rSays orig ∧ w = 4 / 10)
  | .cura => LastSays (curaSays profile) ann (some w) ∨ ((LastSays (curaSays profile) ann none ∨ NoneSays (curaSays profile) ann) ∧ w = 4 / 10)
  | .skeinforge => LastSays skeinforgeSays orig w

/-- The edge width of a program in which there are loops. -/
def WidthUsed (slicer : Slicer) (profile : ProfileOracle α) (orig ann : List (PyLine α)) (w : α) : Prop :=
  EdgeWidth slicer profile orig ann w ∨
    (slicer = .skeinforge ∧ NoneSays (skeinforgeSays (α := α)) orig ∧ ∀ l ∈ ann, ¬ c!"stretch-loop-start" <:+: l.raw)

/-- The lines of some layers. -/
def linesOf (Ls : List (Layer α)) : List (PyLine α) := Ls.flatMap (·.lines)

/-- The X and Y the filter takes a move to go to: its own words, or the last words of moves inside loops. -/
def aimX (before : List (PyLine α)) (l : PyLine α) : α := l.x.getD (lastOr 0 ((loopMoves none before).filterMap (·.x)))
@[inherit_doc aimX] def aimY (before : List (PyLine α)) (l : PyLine α) : α := l.y.getD (lastOr 0 ((loopMoves none before).filterMap (·.y)))

/-- The feed rate the filter writes: the move's own, or the last non-zero one of moves inside loops, or 959. -/
def aimF (before : List (PyLine α)) (l : PyLine α) : α :=
  (l.f.filter (· ≠ 0)).getD (lastOr 959 ((loopMoves none before).filterMap (fun l => l.f.filter (· ≠ 0))))

/-- The ratio that applies to a kind of loop. -/
def ratio (loop inside outside : α) : LoopKind → α
  | .inner => inside
  | .outer => outside
  | .other => loop

end GCodeUtils.Spec
