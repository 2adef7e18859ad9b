import Verif.Lemmas.Placed
import Verif.Lemmas.Decimal
import Verif.Lemmas.Arc
import Verif.Lemmas.Simulate
import Verif.Spec.ArcElsewhere

/-
  The arc optimiser on a program and on the same program at another place of the bed.
-/

set_option linter.unusedSectionVars false

namespace GCodeUtils

open Spec

variable {α : Type} [Field α] [LinearOrder α] [IsStrictOrderedRing α] [FloorRing α]

section geometry

variable (dx dy : α)

/-- A point at the other place. -/
def movePt (p : α × α) : α × α := (p.1 + dx, p.2 + dy)

/-- A circle at the other place. -/
def moveCircle (c : Circle α) : Circle α :=
  { c with cx := c.cx + dx, cy := c.cy + dy, startX := c.startX + dx, startY := c.startY + dy, endX := c.endX + dx, endY := c.endY + dy }

theorem sumOf_move (pts : List (α × α)) (f : α → α → α) : sumOf (pts.map (movePt dx dy)) f = sumOf pts (fun x y => f (x + dx) (y + dy)) := by
  unfold sumOf
  rw [List.map_map]
  rfl

theorem sum_add_const (pts : List (α × α)) (f : α × α → α) (d : α) : (pts.map (fun p => f p + d)).sum = (pts.map f).sum + pts.length * d := by
  induction pts with
  | nil => simp
  | cons p pts ih =>
    simp only [List.map_cons, List.sum_cons, List.length_cons, ih, Nat.cast_add, Nat.cast_one]
    ring

theorem leastSquares_move (t : Trig α) (pts : List (α × α)) :
    SameEnd (fun o o' => o' = o.map (moveCircle dx dy)) (leastSquares t pts) (leastSquares t (pts.map (movePt dx dy))) := by
  by_cases hn : (pts.length : α) = 0
  · have : leastSquares t pts = .error .zeroDivision := by
      unfold leastSquares; simp only [divE, if_pos hn]
    have h' : leastSquares t (pts.map (movePt dx dy)) = .error .zeroDivision := by
      unfold leastSquares; simp only [divE, List.length_map, if_pos hn]
    rw [this, h']
    exact rfl
  have ex : divE (sumOf (pts.map (movePt dx dy)) (fun x _ => x)) (pts.length : α) = .ok (sumOf pts (fun x _ => x) / pts.length + dx) := by
    rw [divE, if_neg hn, sumOf_move]
    congr 1
    unfold sumOf
    rw [sum_add_const]
    field_simp
  have ey : divE (sumOf (pts.map (movePt dx dy)) (fun _ y => y)) (pts.length : α) = .ok (sumOf pts (fun _ y => y) / pts.length + dy) := by
    rw [divE, if_neg hn, sumOf_move]
    congr 1
    unfold sumOf
    rw [sum_add_const]
    field_simp
  have ex0 : divE (sumOf pts (fun x _ => x)) (pts.length : α) = .ok (sumOf pts (fun x _ => x) / pts.length) := by rw [divE, if_neg hn]
  have ey0 : divE (sumOf pts (fun _ y => y)) (pts.length : α) = .ok (sumOf pts (fun _ y => y) / pts.length) := by rw [divE, if_neg hn]
  unfold leastSquares
  simp only [List.length_map, ex, ey, ex0, ey0]
  generalize sumOf pts (fun x _ => x) / pts.length = xbar
  generalize sumOf pts (fun _ y => y) / pts.length = ybar
  simp only [sumOf_move, add_sub_add_right_eq_sub]
  generalize sumOf pts (fun x _ => (x - xbar) * (x - xbar)) = suu
  generalize sumOf pts (fun _ y => (y - ybar) * (y - ybar)) = svv
  by_cases hs : suu < arcEpsilon ∨ svv < arcEpsilon
  · rw [if_pos hs, if_pos hs]; exact rfl
  rw [if_neg hs, if_neg hs]
  split
  · exact rfl
  · simp only [List.getElem?_map, List.getLast?_map]
    cases pts[0]? with
    | none => exact rfl
    | some p0 =>
      cases pts[2]? with
      | none => exact rfl
      | some p2 =>
        cases pts.getLast? with
        | none => exact rfl
        | some pl =>
          simp only [Option.map_some, SameEnd, movePt, moveCircle, ← add_assoc, add_sub_add_right_eq_sub]

theorem phaseDiffs_move (t : Trig α) (c : Circle α) (pts : List (α × α)) :
    phaseDiffs t (moveCircle dx dy c) (pts.map (movePt dx dy)) = phaseDiffs t c pts := by
  unfold phaseDiffs
  rw [List.map_map]
  simp only [Function.comp_def, movePt, moveCircle, add_sub_add_right_eq_sub]

theorem getCircle_move (t : Trig α) (pts : List (α × α)) :
    SameEnd (fun p p' => p'.1 = p.1 ∧ p'.2 = p.2.map (moveCircle dx dy)) (getCircle t pts) (getCircle t (pts.map (movePt dx dy))) := by
  unfold getCircle
  rcases (leastSquares_move dx dy t pts).outcomes with ⟨e, k1, k2⟩ | ⟨o, o', k1, k2, rfl⟩
  · rw [k1, k2]; exact rfl
  rw [k1, k2]
  cases o with
  | none => exact ⟨rfl, rfl⟩
  | some c =>
    simp only [Option.map_some]
    have hr : (moveCircle dx dy c).radius = c.radius := rfl
    have he : radiusErrors t (moveCircle dx dy c) (pts.map (movePt dx dy)) = radiusErrors t c pts := by
      unfold radiusErrors
      rw [List.map_map]
      simp only [Function.comp_def, movePt, moveCircle, add_sub_add_right_eq_sub]
    have ha : angleErrors t (moveCircle dx dy c) (pts.map (movePt dx dy)) = angleErrors t c pts := by
      unfold angleErrors
      rw [phaseDiffs_move]
    rw [hr, he, ha]
    split_ifs
    · exact ⟨rfl, rfl⟩
    · exact ⟨rfl, rfl⟩
    · split
      · exact rfl
      · exact ⟨rfl, rfl⟩

end geometry

/-! ### lines -/

/-- A line as the optimiser sees it, and the same line at another place. -/
structure Twin (dx dy : α) (l l' : PyLine α) : Prop where
  text : Elsewhere dx dy l.raw l'.raw
  command : l'.command = l.command
  e : l'.e = l.e
  relativeE : l'.relativeE = l.relativeE
  px : l'.currentX = l.currentX.map (· + dx)
  py : l'.currentY = l.currentY.map (· + dy)
  pz : l'.currentZ = l.currentZ
  pe : l'.currentE = l.currentE
  pf : l'.currentF = l.currentF

section lines

variable {dx dy : α}

theorem points_twin {q q' : List (PyLine α)} (h : List.Forall₂ (Twin dx dy) q q') :
    SameEnd (fun p p' => p' = p.map (movePt dx dy)) (points q) (points q') := by
  induction h with
  | nil => exact rfl
  | cons h _ ih =>
    unfold points
    rw [h.px, h.py]
    rename_i l _ _ _ _
    cases l.currentX with
    | none => exact rfl
    | some x =>
      cases l.currentY with
      | none => exact rfl
      | some y =>
        simp only [Option.map_some, num]
        rcases ih.outcomes with ⟨e, k1, k2⟩ | ⟨p, p', k1, k2, rfl⟩
        · rw [k1, k2]; exact rfl
        · rw [k1, k2]; exact rfl

theorem segFilament_twin {p p' l l' : PyLine α} (hp : Twin dx dy p p') (hl : Twin dx dy l l') : segFilament p' l' = segFilament p l := by
  unfold segFilament
  rw [hl.relativeE, hl.e, hl.pe, hp.pe]

theorem segments_twin (t : Trig α) {q q' : List (PyLine α)} (h : List.Forall₂ (Twin dx dy) q q') : segments t q' = segments t q := by
  induction h with
  | nil => rfl
  | cons h hs ih =>
    cases hs with
    | nil => rfl
    | cons h2 hs =>
      unfold segments
      rw [ih, h.px, h.py, h2.px, h2.py, segFilament_twin h h2]
      rename_i p _ l _ _ _
      cases l.currentX with
      | none => rfl
      | some x =>
        cases l.currentY with
        | none => rfl
        | some y =>
          cases p.currentX with
          | none => rfl
          | some px =>
            cases p.currentY with
            | none => rfl
            | some py => simp only [Option.map_some, add_sub_add_right_eq_sub]

theorem getDistances_twin (t : Trig α) {q q' : List (PyLine α)} (h : List.Forall₂ (Twin dx dy) q q') : getDistances t q' = getDistances t q := by
  unfold getDistances
  rw [segments_twin t h]

theorem all_twin {f : PyLine α → Bool} {q q' : List (PyLine α)} (h : List.Forall₂ (Twin dx dy) q q') (hf : ∀ l l', Twin dx dy l l' → f l' = f l) :
    q'.all f = q.all f ∧ q'.any f = q.any f := by
  induction h with
  | nil => exact ⟨rfl, rfl⟩
  | cons h _ ih =>
    simp only [List.all_cons, List.any_cons, hf _ _ h, ih.1, ih.2, and_self]

theorem uniformTail_twin {q q' : List (PyLine α)} (h : List.Forall₂ (Twin dx dy) q q') : uniformTail q' = uniformTail q := by
  unfold uniformTail
  cases h with
  | nil => rfl
  | cons h hs =>
    cases hs with
    | nil => rfl
    | cons h2 hs =>
      simp only [List.getElem?_cons_succ, List.getElem?_cons_zero, List.drop_succ_cons, List.drop_zero]
      have hall := List.Forall₂.cons h2 hs
      have k1 := all_twin (f := fun l : PyLine α => l.e.isSome) hall (fun l l' k => by simp only [k.e])
      rename_i q1 q1' _ _
      have k2 := all_twin (f := fun l : PyLine α => decide (l.currentF = q1.currentF)) hall (fun l l' k => by simp only [k.pf])
      have k3 := all_twin (f := fun l : PyLine α => decide (l.currentZ = q1.currentZ)) hall (fun l l' k => by simp only [k.pz])
      rw [h2.pf, h2.pz, h2.e, k1.1, k1.2, k2.1, k3.1]

theorem queueValid_twin (t : Trig α) {q q' : List (PyLine α)} (h : List.Forall₂ (Twin dx dy) q q') :
    SameEnd (fun p p' => p'.1 = p.1) (queueValid t q) (queueValid t q') := by
  have hgo : SameEnd (fun p p' : Bool × Option (Circle α) => p'.1 = p.1)
      (match points q with | .error er => .error er | .ok pts => getCircle t pts)
      (match points q' with | .error er => .error er | .ok pts => getCircle t pts) := by
    rcases (points_twin h).outcomes with ⟨e, k1, k2⟩ | ⟨p, p', k1, k2, rfl⟩
    · rw [k1, k2]; exact rfl
    · rw [k1, k2]
      exact (getCircle_move dx dy t p).mono fun _ _ k => k.1
  unfold queueValid
  rw [uniformTail_twin h, getDistances_twin t h]
  cases uniformTail q with
  | error e => exact rfl
  | ok b =>
    obtain ⟨b, allE⟩ := b
    cases b with
    | false => exact rfl
    | true =>
      simp only
      cases allE with
      | false => exact hgo
      | true =>
        rw [if_pos rfl, if_pos rfl]
        cases getDistances t q with
        | error e => exact rfl
        | ok d =>
          simp only
          by_cases hr : ratioOk d = true
          · rw [if_pos hr, if_pos hr]; exact hgo
          · rw [if_neg hr, if_neg hr]; exact rfl

/-- Generated lines at the two places. -/
def GenTwin (dx dy : α) (l l' : PyLine α) : Prop := MovedArc dx dy l.raw l'.raw ∨ SameCorrection l.raw l'.raw

/-- A rounded number is printed as it is. -/
theorem fixedVal_pyRound (mode : RoundMode) (d : ℕ) (v : α) : fixedVal d (pyRound mode d v) = pyRound mode d v := by
  have hp : (0 : α) < 10 ^ d := by positivity
  obtain ⟨n, hn⟩ : ∃ n : ℤ, pyRound mode d v = (n : α) / 10 ^ d := ⟨_, rfl⟩
  have hb := fixedVal_bound d (pyRound mode d v)
  obtain ⟨k, hk⟩ : ∃ k : ℤ, fixedVal d (pyRound mode d v) = (k : α) / 10 ^ d := by
    unfold fixedVal
    split_ifs
    · exact ⟨-((roundEven (|pyRound mode d v| * 10 ^ d)).toNat : ℤ), by push_cast; ring⟩
    · exact ⟨((roundEven (|pyRound mode d v| * 10 ^ d)).toNat : ℤ), by push_cast; ring⟩
  rw [hk, hn] at hb ⊢
  have h1 : |((k - n : ℤ) : α)| ≤ 1 / 2 := by
    have e : (k : α) / 10 ^ d - n / 10 ^ d = ((k - n : ℤ) : α) / 10 ^ d := by push_cast; ring
    rw [e, abs_div, abs_of_pos hp, div_le_iff₀ hp] at hb
    calc _ ≤ _ := hb
      _ = 1 / 2 := by field_simp
  have h2 : |k - n| < 1 := by
    have : ((|k - n| : ℤ) : α) < ((1 : ℤ) : α) := by
      push_cast at h1 ⊢
      linarith
    exact_mod_cast this
  have h3 : k = n := by
    have := Int.abs_lt_one_iff.1 h2
    omega
  rw [h3]

theorem round_move (mode : RoundMode) (v d : α) : |pyRound mode 3 (v + d) - (pyRound mode 3 v + d)| ≤ 1 / 1000 := by
  have h3 := pyRound_bound mode 3 (v + d)
  have h4 := pyRound_bound mode 3 v
  norm_num at h3 h4
  rw [abs_le] at *
  constructor <;> linarith [h3.1, h3.2, h4.1, h4.2]

theorem decimal_round (mode : RoundMode) (v : α) : Decimal (fmtFixed 3 (pyRound mode 3 v)) (pyRound mode 3 v) := by
  rw [← parseFloat_iff, parseFloat_fmtFixed, fixedVal_pyRound]

/-- The replacements at the two places. -/
theorem toGcode_twin (t : Trig α) {q q' : List (PyLine α)} (h : List.Forall₂ (Twin dx dy) q q') (last last' : PyLine α) :
    SameEnd (fun r r' => ∃ first first' gen gen', q.head? = some first ∧ q'.head? = some first' ∧ r = first :: gen ++ [last] ∧ r' = first' :: gen' ++ [last'] ∧
      List.Forall₂ (GenTwin dx dy) gen gen') (toGcode t q last) (toGcode t q' last') := by
  unfold toGcode
  have hlen := h.length_eq
  cases hh : q.head? with
  | none =>
    cases q with
    | nil => cases h; exact rfl
    | cons => simp at hh
  | some first =>
    obtain ⟨first', hh', htw⟩ : ∃ first', q'.head? = some first' ∧ Twin dx dy first first' := by
      cases h with
      | nil => cases hh
      | cons h _ => cases hh; exact ⟨_, rfl, h⟩
    obtain ⟨lw, lw', hl, hl', htl⟩ : ∃ lw lw', q.getLast? = some lw ∧ q'.getLast? = some lw' ∧ Twin dx dy lw lw' := by
      have hr := List.rel_reverse h
      rw [← List.head?_reverse, ← List.head?_reverse]
      generalize q.reverse = a at hr
      generalize hb : q'.reverse = b at hr
      cases hr with
      | nil =>
        rw [List.reverse_eq_nil_iff] at hb
        subst hb
        cases hh'
      | cons h _ => exact ⟨_, _, rfl, rfl, h⟩
    rw [hh', hl, hl', getDistances_twin t h, ← hlen]
    simp only
    rcases (points_twin h).outcomes with ⟨e, k1, k2⟩ | ⟨p, p', k1, k2, rfl⟩
    · rw [k1, k2]; exact rfl
    rw [k1, k2]
    simp only
    rcases (getCircle_move dx dy t p).outcomes with ⟨e, k1, k2⟩ | ⟨⟨b, c⟩, ⟨b', c'⟩, k1, k2, hb, hc⟩
    · rw [k1, k2]; exact rfl
    rw [k1, k2]
    simp only at hb hc ⊢
    subst hb hc
    cases getDistances t q with
    | error e => exact rfl
    | ok d =>
      simp only
      cases c with
      | none => exact rfl
      | some c =>
        simp only [Option.map_some]
        rw [phaseDiffs_move, htl.relativeE, htl.pf, htl.pe, htw.pe]
        have harc : ∀ (cmd : Str) (e : Option α) (re : Option Bool) (f i j : Option α) (n : ℕ), (cmd = c!"G2" ∨ cmd = c!"G3") →
            GenTwin dx dy
              { unsplit { command := some cmd, x := some (pyRound t.mode 3 c.endX), y := some (pyRound t.mode 3 c.endY), i := i, j := j, f := f, e := e, relativeE := re } with
                raw := (unsplit ({ command := some cmd, x := some (pyRound t.mode 3 c.endX), y := some (pyRound t.mode 3 c.endY), i := i, j := j, f := f, e := e, relativeE := re } : PyLine α)).raw ++ arcComment n }
              { unsplit { command := some cmd, x := some (pyRound t.mode 3 (c.endX + dx)), y := some (pyRound t.mode 3 (c.endY + dy)), i := i, j := j, f := f, e := e, relativeE := re } with
                raw := (unsplit ({ command := some cmd, x := some (pyRound t.mode 3 (c.endX + dx)), y := some (pyRound t.mode 3 (c.endY + dy)), i := i, j := j, f := f, e := e, relativeE := re } : PyLine α)).raw ++ arcComment n } := by
          intro cmd e re f i j n hcmd
          left
          refine ⟨cmd, fmtFixed 3 (pyRound t.mode 3 c.endX), fmtFixed 3 (pyRound t.mode 3 c.endY), fmtFixed 3 (pyRound t.mode 3 (c.endX + dx)),
            fmtFixed 3 (pyRound t.mode 3 (c.endY + dy)), fmtArg 'E' 5 e ++ fmtArg 'F' 3 f ++ fmtArg 'I' 3 i ++ fmtArg 'J' 3 j ++ arcComment n,
            pyRound t.mode 3 c.endX, pyRound t.mode 3 c.endY, pyRound t.mode 3 (c.endX + dx), pyRound t.mode 3 (c.endY + dy), hcmd, ?_,
            decimal_round _ _, decimal_round _ _, decimal_round _ _, decimal_round _ _, round_move _ _ _, round_move _ _ _, ?_, ?_⟩
          · exact ⟨fmtArg 'E' 5 e ++ fmtArg 'F' 3 f ++ fmtArg 'I' 3 i ++ fmtArg 'J' 3 j, natDigits n ++ c!" segments", by simp [arcComment]⟩
          · simp [unsplit, fmtArg]
          · simp [unsplit, fmtArg]
        have hcmd : ((if 0 < c.direction then c!"G3" else c!"G2") = c!"G2" ∨ (if 0 < c.direction then c!"G3" else c!"G2") = c!"G3") := by
          split_ifs
          · exact .inr rfl
          · exact .inl rfl
        have m1 : (moveCircle dx dy c).radius = c.radius := rfl
        have m2 : (moveCircle dx dy c).direction = c.direction := rfl
        have m3 : (moveCircle dx dy c).cx - (moveCircle dx dy c).startX = c.cx - c.startX := by simp [moveCircle]
        have m4 : (moveCircle dx dy c).cy - (moveCircle dx dy c).startY = c.cy - c.startY := by simp [moveCircle]
        have m5 : (moveCircle dx dy c).endX = c.endX + dx := rfl
        have m6 : (moveCircle dx dy c).endY = c.endY + dy := rfl
        rw [m1, m2, m3, m4, m5, m6]
        generalize (if 0 < c.direction then c!"G3" else c!"G2") = cmd at hcmd
        by_cases hr : lw.relativeE.getD false = true
        · rw [if_pos hr, if_pos hr]
          split
          · exact rfl
          · exact ⟨first, first', [_], [_], rfl, rfl, rfl, rfl, .cons (harc _ _ _ _ _ _ _ hcmd) .nil⟩
        · rw [if_neg hr, if_neg hr]
          cases first.currentE with
          | none => exact rfl
          | some e0 =>
            cases divE ((List.map (fun a => a * c.radius) (phaseDiffs t c p)).sum * d.avgRatio) d.totalFilament with
            | error e => exact rfl
            | ok rel =>
              simp only
              by_cases hcr : correctionLimit < rel - 1
              · rw [if_pos hcr, if_pos hcr]
                refine ⟨first, first', [_, _], [_, _], rfl, rfl, rfl, rfl, .cons (harc _ _ _ _ _ _ _ hcmd) (.cons (.inr ⟨rfl, ?_, ?_⟩) .nil)⟩
                · simp [unsplit, fmtArg]
                · exact ⟨_, fmtFixed 6 rel, rfl⟩
              · rw [if_neg hcr, if_neg hcr]
                exact ⟨first, first', [_], [_], rfl, rfl, rfl, rfl, .cons (harc _ _ _ _ _ _ _ hcmd) .nil⟩

/-! ### the queue machine -/

/-- The states of the optimiser at the two places. -/
def QueueTwin (dx dy : α) (s s' : ArcSt α) : Prop := List.Forall₂ (Twin dx dy) s.queue s'.queue ∧ s'.validCircle = s.validCircle

/-- Lines written at the two places. -/
def OutTwin (dx dy : α) (l l' : PyLine α) : Prop := Twin dx dy l l' ∨ GenTwin dx dy l l'

theorem inheritPos_twin {q q' : List (PyLine α)} (h : List.Forall₂ (Twin dx dy) q q') {l l' : PyLine α} (hl : Twin dx dy l l') :
    Twin dx dy (inheritPos q l) (inheritPos q' l') := by
  unfold inheritPos
  rw [hl.command]
  cases hc : l.command with
  | some c => exact hl
  | none =>
    have hr := List.rel_reverse h
    rw [← List.head?_reverse, ← List.head?_reverse]
    generalize q.reverse = a at hr
    generalize q'.reverse = b at hr
    cases hr with
    | nil => exact hl
    | cons k _ => exact ⟨hl.text, rfl, hl.e, hl.relativeE, k.px, k.py, k.pz, k.pe, k.pf⟩

theorem valid_twin (t : Trig α) {q q' : List (PyLine α)} (h : List.Forall₂ (Twin dx dy) q q') : (arcOps t).valid q' = (arcOps t).valid q := by
  unfold arcOps
  simp only
  rcases (queueValid_twin t h).outcomes with ⟨e, k1, k2⟩ | ⟨⟨a, b⟩, ⟨a', b'⟩, k1, k2, k3⟩
  · rw [k1, k2]
  · rw [k1, k2]
    simp only at k3 ⊢
    rw [k3]

theorem forall₂_left {q q' : List (PyLine α)} (h : List.Forall₂ (Twin dx dy) q q') : List.Forall₂ (OutTwin dx dy) q q' := h.imp fun _ _ k => .inl k

theorem arcFilter_twin (t : Trig α) {s s' : ArcSt α} (h : QueueTwin dx dy s s') {l l' : PyLine α} (hl : Twin dx dy l l') :
    SameEnd (fun p p' => QueueTwin dx dy p.1 p'.1 ∧ List.Forall₂ (OutTwin dx dy) (replacement l p.2) (replacement l' p'.2))
      (arcFilter (arcOps t) s l) (arcFilter (arcOps t) s' l') := by
  obtain ⟨hq, hv⟩ := h
  have hi := inheritPos_twin hq hl
  unfold arcFilter
  simp only
  generalize inheritPos s.queue l = k at hi
  generalize inheritPos s'.queue l' = k' at hi
  have hq2 : List.Forall₂ (Twin dx dy) (s.queue ++ [k]) (s'.queue ++ [k']) := forall₂_append hq (.cons hi .nil)
  have hm : k'.inMoves = k.inMoves := by unfold PyLine.inMoves; rw [hi.command]
  have hem := toGcode_twin t hq k k'
  have hem' : SameEnd (fun r r' => ∃ first first' gen gen', s.queue.head? = some first ∧ s'.queue.head? = some first' ∧ r = first :: gen ++ [k] ∧
      r' = first' :: gen' ++ [k'] ∧ List.Forall₂ (GenTwin dx dy) gen gen') ((arcOps t).emit s.queue k) ((arcOps t).emit s'.queue k') := hem
  have hfirst : ∀ first first', s.queue.head? = some first → s'.queue.head? = some first' → Twin dx dy first first' := by
    intro a b ha hb
    generalize s.queue = u at hq ha
    generalize s'.queue = w at hq hb
    cases hq with
    | nil => cases ha
    | cons h _ => cases ha; cases hb; exact h
  rw [← hq2.length_eq, hm, hv, valid_twin t hq2, hi.command]
  by_cases c1 : minSegments < (s.queue ++ [k]).length
  · rw [if_pos c1, if_pos c1]
    by_cases c2 : (!k.inMoves) = true
    · rw [if_pos c2, if_pos c2]
      by_cases c3 : s.validCircle = true
      · rw [if_pos c3, if_pos c3]
        rcases hem'.outcomes with ⟨e, k1, k2⟩ | ⟨r, r', k1, k2, first, first', gen, gen', f1, f2, rfl, rfl, f3⟩
        · rw [k1, k2]; exact rfl
        · rw [k1, k2]
          exact ⟨⟨.nil, rfl⟩, forall₂_append (.cons (.inl (hfirst _ _ f1 f2)) (f3.imp fun _ _ w => .inr w)) (.cons (.inl hi) .nil)⟩
      · rw [if_neg c3, if_neg c3]
        exact ⟨⟨.nil, rfl⟩, forall₂_left hq2⟩
    · rw [if_neg c2, if_neg c2]
      cases (arcOps t).valid (s.queue ++ [k]) with
      | error e => exact rfl
      | ok b =>
        cases b with
        | true => exact ⟨⟨hq2, rfl⟩, .nil⟩
        | false =>
          simp only
          by_cases c3 : s.validCircle = true
          · rw [if_pos c3, if_pos c3]
            rcases hem'.outcomes with ⟨e, k1, k2⟩ | ⟨r, r', k1, k2, first, first', gen, gen', f1, f2, rfl, rfl, f3⟩
            · rw [k1, k2]; exact rfl
            · rw [k1, k2]
              simp only [List.getLast?_append, List.getLast?_singleton, Option.some_or, List.dropLast_append_cons, List.dropLast_singleton, List.append_nil]
              exact ⟨⟨.cons hi .nil, rfl⟩, .cons (.inl (hfirst _ _ f1 f2)) (f3.imp fun _ _ w => .inr w)⟩
          · rw [if_neg c3, if_neg c3]
            generalize s.queue ++ [k] = u at hq2
            generalize s'.queue ++ [k'] = w at hq2
            cases hq2 with
            | nil => exact rfl
            | cons h hs => exact ⟨⟨hs, rfl⟩, .cons (.inl h) .nil⟩
  · rw [if_neg c1, if_neg c1]
    by_cases c2 : (k.inMoves || decide (k.command = none)) = true
    · rw [if_pos c2, if_pos c2]
      exact ⟨⟨hq2, rfl⟩, .nil⟩
    · rw [if_neg c2, if_neg c2]
      exact ⟨⟨.nil, rfl⟩, forall₂_left hq2⟩

theorem filterLines_twin (t : Trig α) {ls ls' : List (PyLine α)} (h : List.Forall₂ (Twin dx dy) ls ls') : ∀ {s s' : ArcSt α}, QueueTwin dx dy s s' →
    SameEnd (fun p p' => QueueTwin dx dy p.1 p'.1 ∧ List.Forall₂ (OutTwin dx dy) p.2 p'.2) (filterLines (arcFilter (arcOps t)) s ls)
      (filterLines (arcFilter (arcOps t)) s' ls') := by
  induction h with
  | nil => intro s s' hs; exact ⟨hs, .nil⟩
  | cons h _ ih =>
    intro s s' hs
    unfold filterLines
    rcases (arcFilter_twin t hs h).outcomes with ⟨e, k1, k2⟩ | ⟨⟨a, b⟩, ⟨a', b'⟩, k1, k2, k3, k4⟩
    · rw [k1, k2]; exact rfl
    · rw [k1, k2]
      simp only
      rcases (ih k3).outcomes with ⟨e, k1, k2⟩ | ⟨⟨c, d⟩, ⟨c', d'⟩, k1, k2, k5, k6⟩
      · rw [k1, k2]; exact rfl
      · rw [k1, k2]
        exact ⟨k5, forall₂_append k4 k6⟩

end lines

/-! ### whole programs -/

theorem filterLayers_fails {σ : Type} (f : OpFilter σ α) (Ls : List (Layer α)) : ∀ s e, filterLayers f s Ls = .error e →
    filterLines f s (Ls.flatMap (·.lines)) = .error e := by
  induction Ls with
  | nil => intro s e h; cases h
  | cons L Ls ih =>
    intro s e h
    unfold filterLayers at h
    rw [List.flatMap_cons, filterLines_append]
    cases h1 : filterLines f s L.lines with
    | error e' => rw [h1] at h; simpa using h
    | ok p =>
      rw [h1] at h
      simp only at h ⊢
      cases h2 : filterLayers f p.1 Ls with
      | error e' =>
        rw [h2] at h
        rw [ih _ _ h2]
        simpa using h
      | ok q => rw [h2] at h; simp at h

/-- The optimiser on the lines of a program. -/
theorem optimizeArcs_flat (t : Trig α) (g : GCode α) (hne : g.allLayers ≠ []) :
    SameEnd (fun o p => program o = p.2 ++ p.1.queue) (g.optimizeArcs t) (filterLines (arcFilter (arcOps t)) {} (program g)) := by
  have e1 : program g = g.allLayers.flatMap (·.lines) := by unfold program layerLines; rw [List.flatMap_def]
  unfold GCode.optimizeArcs arcRun runFilter
  rw [parseLayers_eq, e1]
  cases hf : filterLayers (arcFilter (arcOps t)) {} g.allLayers with
  | error e =>
    rw [filterLayers_fails _ _ _ _ hf]
    exact rfl
  | ok p =>
    obtain ⟨s1, Ls⟩ := p
    obtain ⟨f1, f2, _⟩ := filterLayers_flat _ _ _ _ _ hf
    rw [f1]
    have hLs : Ls ≠ [] := by
      intro hc
      rw [hc] at f2
      exact hne (by simpa using f2.symm)
    show program _ = _
    simp only
    by_cases hq : s1.queue.isEmpty = true
    · rw [if_pos hq]
      rw [List.isEmpty_iff] at hq
      rw [hq, List.append_nil]
      unfold program layerLines; rw [← List.flatMap_def]
    · rw [if_neg hq]
      unfold program layerLines
      rw [← List.flatMap_def, modifyLast_flat _ _ hLs]

/-- A processed line carries the position of the machine after it. -/
theorem processLine_stamps {home : Home α} {m m' : Machine α} {r : Str} {l : PyLine α} (h : processLine home m { raw := r } = .ok (m', l)) :
    ((l.command = none ∨ l.command = some []) ∧ l.currentX = none ∧ l.currentY = none ∧ l.currentZ = none ∧ l.currentE = none ∧ l.currentF = none) ∨
    ((l.command ≠ none ∧ l.command ≠ some []) ∧ l.currentX = some m'.currentX ∧ l.currentY = some m'.currentY ∧ l.currentZ = some m'.currentZ ∧
      l.currentE = some m'.currentE ∧ l.currentF = some m'.currentF) := by
  have hk := processLine_keeps h
  rcases processLine_ok h with ⟨hn, rfl, rfl⟩ | ⟨cmd, hc, hne, m1, l1, l2, m3, l3, h1, h2, h3, rfl, rfl⟩
  · left
    obtain ⟨c, b, hs⟩ := split_shape ({ raw := r } : PyLine α)
    refine ⟨hn, ?_⟩
    rw [hs]
    exact ⟨rfl, rfl, rfl, rfl, rfl⟩
  · right
    rw [hk.2.1, hc]
    refine ⟨⟨by simp, by simpa using hne⟩, ?_⟩
    obtain ⟨te, ce, me, oe, ex, h4⟩ := stepExtrusion_shape (stepPos home m1 l2 cmd) (stamp (stepPos home m1 l2 cmd) l2) cmd
    rw [h4] at h3
    simp only [Prod.mk.injEq] at h3
    obtain ⟨rfl, rfl⟩ := h3
    exact ⟨rfl, rfl, rfl, rfl, rfl⟩

section load

variable {dx dy : α}

/-- The machines of the two runs once they are at their places. -/
def PutRel (m m' : Machine α) : Prop :=
  MachRel m m' ∧ m.relative = false ∧ m'.offsetX = m.offsetX ∧ m'.offsetY = m.offsetY

theorem twin_step (home : Home α) {m m' n n' : Machine α} (hm : PutRel m m') {r r' : Str} (hr : Elsewhere dx dy r r')
    (hc : MovedMove dx dy r r' ∨ StaysPut r ∧ m'.currentX = m.currentX + dx ∧ m'.currentY = m.currentY + dy) {l l' : PyLine α}
    (hp : processLine home m { raw := r } = .ok (n, l)) (hp' : processLine home m' { raw := r' } = .ok (n', l')) :
    PutRel n n' ∧ (n'.currentX = n.currentX + dx ∧ n'.currentY = n.currentY + dy) ∧ Twin dx dy l l' := by
  obtain ⟨h1, h2, h3, h4⟩ := hm
  have hsx : MachRel n n' ∧ Shift dx dy l l' ∧ (XYMove l ∨ StaysPut r ∧ m'.currentX = m.currentX + dx ∧ m'.currentY = m.currentY + dy) := by
    rcases hc with hc | hc
    · have := processLine_moved home h1 hc
      rw [hp, hp'] at this
      exact ⟨this.1, this.2.1, .inl this.2.2⟩
    · have := processLine_shift home h1 hr
      rw [hp, hp'] at this
      exact ⟨this.1, this.2, .inr ⟨hc.1, hc.2⟩⟩
  obtain ⟨hM, hs, hx⟩ := hsx
  obtain ⟨a1, a2, a3, a4, a5, _⟩ := place_after hp hp' hs h2 (h1.relative.trans h2) h3 h4 hx
  obtain ⟨a, b, hab⟩ := hs.args
  have k := processLine_keeps hp
  have k' := processLine_keeps hp'
  refine ⟨⟨hM, a1, a2, a3⟩, ⟨a4, a5⟩, ?_⟩
  have ht : Elsewhere dx dy l.raw l'.raw := by rw [k.1, k'.1]; exact hr
  rcases processLine_stamps hp with ⟨hn, x1, x2, x3, x4, x5⟩ | ⟨hn, x1, x2, x3, x4, x5⟩
  · rcases processLine_stamps hp' with ⟨_, y1, y2, y3, y4, y5⟩ | ⟨hn', _⟩
    · exact ⟨ht, hab.command, hab.e, hab.relativeE, by rw [x1, y1]; rfl, by rw [x2, y2]; rfl, by rw [x3, y3], by rw [x4, y4], by rw [x5, y5]⟩
    · rw [hab.command] at hn'
      rcases hn with hn | hn
      · exact absurd hn hn'.1
      · exact absurd hn hn'.2
  · rcases processLine_stamps hp' with ⟨hn', _⟩ | ⟨_, y1, y2, y3, y4, y5⟩
    · rw [hab.command] at hn'
      rcases hn' with hn' | hn'
      · exact absurd hn' hn.1
      · exact absurd hn' hn.2
    · exact ⟨ht, hab.command, hab.e, hab.relativeE, by rw [x1, y1, a4]; rfl, by rw [x2, y2, a5]; rfl, by rw [x3, y3, hM.z], by rw [x4, y4, hM.e], by rw [x5, y5, hM.f]⟩

theorem twin_run (home : Home α) {rs rs' : List Str} (hr : List.Forall₂ (Elsewhere dx dy) rs rs') : (∀ r ∈ rs, StaysPut r) →
    ∀ {m m' n n' : Machine α} {ls ls' : List (PyLine α)}, PutRel m m' → m'.currentX = m.currentX + dx → m'.currentY = m.currentY + dy →
    Run home m (bare rs) n ls → Run home m' (bare rs') n' ls' → List.Forall₂ (Twin dx dy) ls ls' := by
  induction hr with
  | nil =>
    intro _ m m' n n' ls ls' _ _ _ h h'
    cases h; cases h'
    exact .nil
  | cons h1 _ ih =>
    intro hp m m' n n' ls ls' hm hx hy h h'
    cases h with
    | cons p h =>
      cases h' with
      | cons p' h' =>
        obtain ⟨k1, ⟨k2, k3⟩, k4⟩ := twin_step home hm h1 (.inr ⟨hp _ (by simp), hx, hy⟩) p p'
        exact .cons k4 (ih (fun r hr => hp r (List.mem_cons_of_mem _ hr)) k1 k2 k3 h h')

end load

end GCodeUtils
