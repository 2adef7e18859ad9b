import Verif.Lemmas.Decimal
import Verif.Model.Line

set_option linter.unusedSectionVars false

namespace GCodeUtils

open Spec

variable {α : Type} [Field α] [LinearOrder α] [IsStrictOrderedRing α] [FloorRing α]

/-- Text of an argument list. -/
def argsText (args : List (Char × ℕ × Option α)) : Str := args.flatMap (fun a => fmtArg a.1 a.2.1 a.2.2)

/-- Tokens of an argument list. -/
def argsToks (args : List (Char × ℕ × Option α)) : List Tok :=
  args.filterMap (fun a => a.2.2.map (fun v => some (a.1, fmtFixed a.2.1 v)))

theorem notNumeric_argsText (args : List (Char × ℕ × Option α)) : NotNumeric (argsText args) := by
  induction args with
  | nil => intro c hc; simp [argsText] at hc
  | cons a args ih =>
    obtain ⟨c, d, v⟩ := a
    cases v with
    | none => simpa [argsText, fmtArg] using ih
    | some v =>
      intro c hc
      simp only [argsText, fmtArg, List.flatMap_cons, List.cons_append, List.head?_cons, Option.some.injEq] at hc
      subst hc; decide

theorem lower_argsText (args : List (Char × ℕ × Option α)) :
    lower (argsText args) = argsText (args.map (fun a => (a.1.toLower, a.2))) := by
  induction args with
  | nil => rfl
  | cons a args ih =>
    obtain ⟨c, d, v⟩ := a
    have e : ∀ (c : Char) d v (args : List (Char × ℕ × Option α)), argsText ((c, d, v) :: args) = fmtArg c d v ++ argsText args := fun _ _ _ _ => by
      simp [argsText]
    rw [e, lower_append, ih, List.map_cons, e]
    congr 1
    cases v with
    | none => rfl
    | some v =>
      simp only [fmtArg]
      have := lower_numeric _ (fmtFixed_chars d v)
      unfold lower at this ⊢
      simp only [List.map_cons, this]
      rfl

theorem findallAux_argsText (args : List (Char × ℕ × Option α)) (h : ∀ a ∈ args, a.1 ∈ wordLetters) :
    findallAux false 0 (argsText args) = argsToks args := by
  induction args with
  | nil => rfl
  | cons a args ih =>
    obtain ⟨c, d, v⟩ := a
    have ih' := ih (fun a ha => h a (by simp [ha]))
    have hc : c ∈ wordLetters := h (c, d, v) (by simp)
    have e : argsText ((c, d, v) :: args) = fmtArg c d v ++ argsText args := by simp [argsText]
    rw [e]
    cases v with
    | none =>
      have : argsToks ((c, d, none) :: args) = argsToks args := by simp [argsToks]
      rw [this, ← ih']; rfl
    | some v =>
      have : argsToks ((c, d, some v) :: args) = some (c, fmtFixed d v) :: argsToks args := by simp [argsToks]
      rw [this, ← ih']
      simp only [fmtArg, List.cons_append]
      rw [findallAux_space, findallAux_word false c _ _ hc (numLen_fmtFixed d v) (notNumeric_argsText args)]

/-- The arguments of a line, in printing order. -/
def lineArgs (l : PyLine α) : List (Char × ℕ × Option α) :=
  [('X', 3, l.x), ('Y', 3, l.y), ('Z', 3, l.z), ('E', 5, l.e), ('F', 3, l.f), ('I', 3, l.i), ('J', 3, l.j)]

theorem unsplit_raw (l : PyLine α) : (unsplit l).raw = l.command.getD [] ++ argsText (lineArgs l) := by
  simp [unsplit, argsText, lineArgs]

/-- Tokens of a printed line. -/
def lineToks (l : PyLine α) : List Tok :=
  argsToks [('x', 3, l.x), ('y', 3, l.y), ('z', 3, l.z), ('e', 5, l.e), ('f', 3, l.f), ('i', 3, l.i), ('j', 3, l.j)]

theorem findall_unsplit (l : PyLine α) (c : Char) (n : Str) (hc : c.toLower ∈ wordLetters)
    (hcmd : l.command = some (c :: n)) (hn : numLen n = n.length) :
    findall (lower (unsplit l).raw) = some (c.toLower, n) :: lineToks l := by
  have hnum : ∀ d ∈ n, d ∈ c!"0123456789.+-" := by
    have := numeric_of_lt_numLen n
    rwa [hn, List.take_length] at this
  have e : lower ((c :: n) ++ argsText (lineArgs l)) = c.toLower :: (n ++ lower (argsText (lineArgs l))) := by
    have := lower_numeric n hnum
    rw [lower_append]
    unfold lower at this ⊢
    rw [List.map_cons, this]; rfl
  rw [unsplit_raw, hcmd, Option.getD_some, e]
  unfold findall
  rw [lower_argsText, findallAux_word true _ n _ hc hn (notNumeric_argsText _), findallAux_argsText]
  · rfl
  · intro a ha
    simp only [lineArgs, List.map_cons, List.map_nil, List.mem_cons, List.not_mem_nil, or_false] at ha
    rcases ha with rfl | rfl | rfl | rfl | rfl | rfl | rfl <;> (dsimp only; decide)

/-- Set an argument if present. -/
def setOpt (l : PyLine α) (c : Char) (d : ℕ) (u : α) (v : Option α) : PyLine α :=
  match v with
  | none => l
  | some a => l.setArg c (u * fixedVal d a)

theorem fold_argsToks (u : α) (args : List (Char × ℕ × Option α)) (h : ∀ a ∈ args, nonArgLetters.contains a.1 = false)
    (l : PyLine α) :
    (argsToks args).foldlM (parseTok u) l = .ok (args.foldl (fun l a => setOpt l a.1 a.2.1 u a.2.2) l) := by
  induction args generalizing l with
  | nil => rfl
  | cons a args ih =>
    obtain ⟨c, d, v⟩ := a
    have ih' := ih (fun a ha => h a (by simp [ha]))
    have hc : nonArgLetters.contains c = false := h (c, d, v) (by simp)
    cases v with
    | none =>
      have : argsToks ((c, d, none) :: args) = argsToks args := by simp [argsToks]
      rw [this, ih']; rfl
    | some v =>
      have : argsToks ((c, d, some v) :: args) = some (c, fmtFixed d v) :: argsToks args := by simp [argsToks]
      have hv : (!(fmtFixed d v).isEmpty) = true := by
        simp [fmtFixed_ne_nil]
      rw [this, List.foldlM_cons]
      have hp : parseTok u l (some (c, fmtFixed d v)) = .ok (l.setArg c (u * fixedVal d v)) := by
        unfold parseTok
        simp only
        rw [if_pos (by rw [hc, hv]; rfl), parseFloat_fmtFixed]
      rw [hp]
      exact ih' _

/-- The arguments of a line after printing and reading back with unit `u`. -/
def reread (u : α) (l l0 : PyLine α) : PyLine α :=
  { l0 with
    x := (l.x.map (fun a => u * fixedVal 3 a)).or l0.x
    y := (l.y.map (fun a => u * fixedVal 3 a)).or l0.y
    z := (l.z.map (fun a => u * fixedVal 3 a)).or l0.z
    e := (l.e.map (fun a => u * fixedVal 5 a)).or l0.e
    f := (l.f.map (fun a => u * fixedVal 3 a)).or l0.f
    i := (l.i.map (fun a => u * fixedVal 3 a)).or l0.i
    j := (l.j.map (fun a => u * fixedVal 3 a)).or l0.j }

theorem fold_lineToks (u : α) (l l0 : PyLine α) : (lineToks l).foldlM (parseTok u) l0 = .ok (reread u l l0) := by
  unfold lineToks
  rw [fold_argsToks]
  · simp only [List.foldl_cons, List.foldl_nil]
    congr 1
    have hx : ∀ (l0 : PyLine α) v, setOpt l0 'x' 3 u v = { l0 with x := (v.map (fun a => u * fixedVal 3 a)).or l0.x } := by
      intro l0 v; cases v <;> rfl
    have hy : ∀ (l0 : PyLine α) v, setOpt l0 'y' 3 u v = { l0 with y := (v.map (fun a => u * fixedVal 3 a)).or l0.y } := by
      intro l0 v; cases v <;> rfl
    have hz : ∀ (l0 : PyLine α) v, setOpt l0 'z' 3 u v = { l0 with z := (v.map (fun a => u * fixedVal 3 a)).or l0.z } := by
      intro l0 v; cases v <;> rfl
    have he : ∀ (l0 : PyLine α) v, setOpt l0 'e' 5 u v = { l0 with e := (v.map (fun a => u * fixedVal 5 a)).or l0.e } := by
      intro l0 v; cases v <;> rfl
    have hf : ∀ (l0 : PyLine α) v, setOpt l0 'f' 3 u v = { l0 with f := (v.map (fun a => u * fixedVal 3 a)).or l0.f } := by
      intro l0 v; cases v <;> rfl
    have hi : ∀ (l0 : PyLine α) v, setOpt l0 'i' 3 u v = { l0 with i := (v.map (fun a => u * fixedVal 3 a)).or l0.i } := by
      intro l0 v; cases v <;> rfl
    have hj : ∀ (l0 : PyLine α) v, setOpt l0 'j' 3 u v = { l0 with j := (v.map (fun a => u * fixedVal 3 a)).or l0.j } := by
      intro l0 v; cases v <;> rfl
    rw [hx, hy, hz, he, hf, hi, hj]
    rfl
  · intro a ha
    simp only [List.mem_cons, List.not_mem_nil, or_false] at ha
    rcases ha with rfl | rfl | rfl | rfl | rfl | rfl | rfl <;> (dsimp only; decide)

/-- Splitting and parsing a printed G line. -/
theorem parse_unsplit (l : PyLine α) (n : Str) (hcmd : l.command = some ('G' :: n)) (hn : numLen n = n.length)
    (imp : Bool) :
    parseCoordinates (split ({ raw := (unsplit l).raw } : PyLine α)).1 (split ({ raw := (unsplit l).raw } : PyLine α)).2 imp =
      .ok (reread (if imp then 254 / 10 else 1) l { raw := (unsplit l).raw, command := some ('G' :: n), isMove := moveGcodes.contains ('G' :: n) }) := by
  have hf := findall_unsplit l 'G' n (by decide) hcmd hn
  have hd : dropN (findall (lower (unsplit l).raw)) = some ('g', n) :: lineToks l := by
    rw [hf]; rfl
  unfold split
  simp only [hd]
  unfold parseCoordinates
  simp only [PyLine.inMoves]
  rw [if_neg (by simp), List.foldlM_cons]
  show (do let l ← parseTok _ _ (some ('g', n)); _) = _
  have hp : ∀ (u : α) (l0 : PyLine α), parseTok u l0 (some ('g', n)) = .ok l0 := by
    intro u l0
    unfold parseTok
    simp only
    rw [if_neg (by simp [nonArgLetters])]
  rw [hp]
  simp only [bind, Except.bind]
  rw [fold_lineToks]
  rfl

end GCodeUtils
