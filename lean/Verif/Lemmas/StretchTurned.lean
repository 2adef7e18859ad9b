import Verif.Lemmas.Turned
import Verif.Lemmas.Reading
import Verif.Lemmas.ElsewhereStretch
import Verif.Lemmas.ArcTurned
import Verif.Spec.StretchTurned

/-
  The stretch filter on a program and the same program turned or mirrored.
-/

set_option linter.unusedSectionVars false

namespace GCodeUtils

open Spec

variable {α : Type} [Field α] [LinearOrder α] [IsStrictOrderedRing α] [FloorRing α]

/-! ### lines -/

/-- A line and the turned line, possibly with the same marks. -/
inductive TurnMarked (T : Turn) (l l' : PyLine α) : Prop
  | kept (r s : Str) : l.raw = r ++ s → l'.raw = r ++ s → Marks s → ¬ Nested r → '\n' ∉ r → List.Forall₂ (TurnWord T α) (toksOf r) (toksOf r) →
      (∀ w ts, toksOf r = some w :: ts → T.cmd (w.1.toUpper :: w.2) = w.1.toUpper :: w.2) → TurnedLine T l l' → TurnMarked T l l'
  | moved (hd hd' t n n' : Str) (ts ts' : List Tok) : l.raw = hd ++ t → l'.raw = hd' ++ t → hd ≠ [] → hd' ≠ [] → Bland hd → Bland hd' →
      (t = [] ∨ Trailing t) → toksOf hd = some ('g', n) :: ts → toksOf hd' = some ('g', n') :: ts' → 'G' :: n' = T.cmd ('G' :: n) →
      List.Forall₂ (TurnWord T α) ts ts' → TurnedLine T l l' → TurnMarked T l l'

variable {T : Turn} {l l' : PyLine α}

theorem TurnMarked.turned (h : TurnMarked T l l') : TurnedLine T l l' := by
  cases h with
  | kept r s h1 h2 hs hn hnl hw hc ht => exact ht
  | moved hd hd' t n n' ts ts' h1 h2 hne hne' hb hb' ht k1 k2 hc hw hT => exact hT

theorem TurnMarked.line (h : TurnMarked T l l') : l' = turnRaw T l'.raw l := h.turned

theorem turned_command (h : TurnedLine T l l') : l'.command = l.command.map T.cmd := by rw [h]

theorem turned_fields (h : TurnedLine T l l') : l'.x = T.optX l.x l.y ∧ l'.y = T.optY l.x l.y ∧ l'.z = l.z ∧ l'.e = l.e ∧ l'.f = l.f :=
  ⟨by rw [h], by rw [h], by rw [h], by rw [h], by rw [h]⟩

theorem turned_inLinear (h : TurnedLine T l l') : l'.inLinear = l.inLinear := by
  unfold PyLine.inLinear
  rw [turned_command h]
  cases l.command with
  | none => rfl
  | some c =>
    simp only [Option.map_some]
    have k0 := cmd_eq T c c!"G0" (by decide) (by decide)
    have k1 := cmd_eq T c c!"G1" (by decide) (by decide)
    rw [Bool.eq_iff_iff]
    simp only [linearMoveGcodes, List.contains_cons, List.contains_nil, Bool.or_false, Bool.or_eq_true, beq_iff_eq]
    rw [k0, k1]

theorem turned_xyMove (h : TurnedLine T l l') : isXYMove l' = isXYMove l := by
  unfold isXYMove
  rw [turned_inLinear h, (turned_fields h).1, (turned_fields h).2.1]
  obtain ⟨sw, nx, ny⟩ := T
  cases sw <;> simp [Turn.optX, Turn.optY, Bool.or_comm]

theorem turned_mark (h : TurnedLine T l l') (sep m : Str) : TurnedLine T (addMark sep m l) (addMark sep m l') := by
  unfold TurnedLine at h ⊢
  unfold addMark
  obtain ⟨a, b⟩ : ∃ a, l'.raw = a := ⟨_, rfl⟩
  rw [b] at h ⊢
  rw [h]

theorem TurnMarked.add (h : TurnMarked T l l') {sep m : Str} (hsep : sep = c!" ; " ∨ sep = c!"; ") (hm : m ∈ markTexts) :
    TurnMarked T (addMark sep m l) (addMark sep m l') := by
  have hmk : Marks (sep ++ m) := by have := Marks.cons sep m [] hsep hm .nil; rwa [List.append_nil] at this
  cases h with
  | kept r s h1 h2 hs hn hnl hw hc ht =>
    refine .kept r (s ++ (sep ++ m)) ?_ ?_ (marks_append hs hmk) hn hnl hw hc (turned_mark ht sep m)
    · simp [addMark, h1]
    · simp [addMark, h2]
  | moved hd hd' t n n' ts ts' h1 h2 hne hne' hb hb' ht k1 k2 hc hw hT =>
    refine .moved hd hd' (t ++ (sep ++ m)) n n' ts ts' ?_ ?_ hne hne' hb hb' ?_ k1 k2 hc hw (turned_mark hT sep m)
    · simp [addMark, h1]
    · simp [addMark, h2]
    · right
      rcases marks_trailing hmk with k | k
      · exfalso
        rcases hsep with rfl | rfl <;> simp at k
      · rcases ht with rfl | ht
        · simpa using k
        · obtain ⟨sp, c, e1, e2⟩ := ht.form
          refine ⟨⟨sp, c ++ (sep ++ m), by rw [e1]; simp, e2⟩, ?_⟩
          intro d hd
          rcases List.mem_append.1 hd with hd | hd
          · exact ht.clean d hd
          · exact k.clean d hd

theorem turned_reading (T : Turn) : Reading (TurnMarked (α := α) T) where
  hasSub h _ _ hc := by
    cases h with
    | kept r s h1 h2 => rw [h1, h2]
    | moved hd hd' t n n' ts ts' h1 h2 hne hne' hb hb' => rw [h1, h2, hasSub_bland hb hc, hasSub_bland hb' hc]
  dropPrefix h c _ hc := by
    cases h with
    | kept r s h1 h2 => rw [h1, h2]
    | moved hd hd' t n n' ts ts' h1 h2 hne hne' hb hb' =>
      obtain ⟨d, r, e, hd1⟩ := bland_head hb hne hc t
      obtain ⟨d', r', e', hd2⟩ := bland_head hb' hne' hc t
      rw [h1, h2, e, e', dropPrefix?, dropPrefix?, if_neg hd1, if_neg hd2]
  startsWith h c _ hc := by
    cases h with
    | kept r s h1 h2 => rw [h1, h2]
    | moved hd hd' t n n' ts ts' h1 h2 hne hne' hb hb' =>
      obtain ⟨d, r, e, hd1⟩ := bland_head hb hne hc t
      obtain ⟨d', r', e', hd2⟩ := bland_head hb' hne' hc t
      rw [h1, h2, e, e']
      have k1 : (c == d) = false := by simpa using hd1
      have k2 : (c == d') = false := by simpa using hd2
      simp only [startsWith, List.isPrefixOf, k1, k2, Bool.false_and]
  inLinear h := turned_inLinear h.turned
  isCmd h := by
    rw [h.line]
    exact ⟨isCmd_turn T _ _ (by decide) (by decide), isCmd_turn T _ _ (by decide) (by decide)⟩
  e h := (turned_fields h.turned).2.2.2.1
  xyMove h := turned_xyMove h.turned
  add h _ _ hsep hm := h.add hsep hm

/-! ### reading a line again -/

theorem parseCoordinates_turn {ts ts' : List Tok} (ht : List.Forall₂ (TurnWord T α) ts ts') (r : Str) (l : PyLine α) :
    parseCoordinates (turnRaw T r l) ts' false = (parseCoordinates l ts false).map (turnRaw T r) := by
  unfold parseCoordinates
  have hc : (turnRaw T r l).command = l.command.map T.cmd := rfl
  rw [hc]
  cases l.command with
  | none => rfl
  | some c =>
    simp only [Option.map_some, cmd_head]
    by_cases hg : c.head? ≠ some 'G'
    · rw [if_pos hg, if_pos hg]; rfl
    · rw [if_neg hg, if_neg hg]
      exact foldTok_turn T ht _ r l

theorem forall₂_nones (T : Turn) {ts ts' : List Tok} (h : List.Forall₂ (TurnWord T α) ts ts') (j : ℕ) :
    List.Forall₂ (TurnWord T α) (ts ++ List.replicate j none) (ts' ++ List.replicate j none) := by
  refine List.rel_append h ?_
  induction j with
  | zero => exact .nil
  | succ j ih => exact .cons .comment ih

theorem inMoves_eq (T : Turn) (l : PyLine α) (r : Str) : (turnRaw T r l).inMoves = l.inMoves := by
  unfold PyLine.inMoves
  have hc : (turnRaw T r l).command = l.command.map T.cmd := rfl
  rw [hc]
  cases l.command with
  | none => rfl
  | some c =>
    have := inMoves_turn (α := α) T c [] []
    unfold PyLine.inMoves at this
    exact this

theorem cmd_of_toks {r : Str} (h : toksOf r = []) : T.cmd r = r := by
  rcases cmd_cases T r with k | ⟨k, _⟩ | ⟨k, _⟩
  · exact k
  · subst k; exact absurd h (by decide)
  · subst k; exact absurd h (by decide)

theorem reparse_turn (h : TurnMarked T l l') : SameEnd (TurnMarked T) (reparse l) (reparse l') := by
  have hl := h.line
  have key : reparse l' = (reparse l).map (turnRaw T l'.raw) := by
    cases h with
    | kept r s h1 h2 hs hn hnl hw hc ht =>
      obtain ⟨j, hj⟩ := toksOf_marks (marks_trailing hs) hn hnl
      have hraw : l'.raw = l.raw := by rw [h1, h2]
      have hw2 := forall₂_nones T hw j
      have hsplit : (split l').1 = turnRaw T l'.raw (split l).1 ∧ List.Forall₂ (TurnWord T α) (split l).2 (split l').2 := by
        have e1 : dropN (findall (lower l.raw)) = toksOf r ++ List.replicate j none := by rw [← hj, h1]; rfl
        have e2 : dropN (findall (lower l'.raw)) = toksOf r ++ List.replicate j none := by rw [hraw, e1]
        have ec : ∀ w ts, toksOf r ++ List.replicate j none = some w :: ts → T.cmd (w.1.toUpper :: w.2) = w.1.toUpper :: w.2 := by
          intro w ts hk
          cases hr : toksOf r with
          | nil =>
            rw [hr] at hk
            cases j with
            | zero => cases hk
            | succ j => cases hk
          | cons t rest =>
            rw [hr] at hk
            cases hk
            exact hc w rest hr
        have eraw : toksOf r ++ List.replicate j none = [] → T.cmd l.raw = l.raw := by
          intro hk
          apply cmd_of_toks
          rw [h1, hj, hk]
        unfold split
        rw [e1, e2]
        revert ec eraw hw2
        generalize toksOf r ++ List.replicate j none = K
        intro hw2 ec eraw
        cases K with
        | nil =>
          refine ⟨?_, .nil⟩
          simp only
          rw [hl]
          simp only [turnRaw, Option.map_some]
          rw [hraw, eraw rfl]
        | cons t ts =>
          cases t with
          | none =>
            refine ⟨?_, hw2⟩
            simp only
            have e3 : l'.inMoves = l.inMoves := by
              have := inMoves_eq T l l'.raw
              rwa [← hl] at this
            rw [e3]
            conv_lhs => rw [hl]
            rfl
          | some w =>
            refine ⟨?_, hw2⟩
            simp only
            conv_lhs => rw [hl]
            simp only [turnRaw, Option.map_some, ec w ts rfl]
            rfl
      unfold reparse
      simp only
      rw [hsplit.1]
      exact parseCoordinates_turn hsplit.2 l'.raw _
    | moved hd hd' t n n' ts ts' h1 h2 hne hne' hb hb' ht k1 k2 hc hw hT =>
      obtain ⟨j, hj⟩ := toksOf_marks ht hb.clean.1 hb.clean.2
      obtain ⟨j', hj'⟩ := toksOf_marks ht hb'.clean.1 hb'.clean.2
      rw [k1, List.cons_append, ← h1] at hj
      rw [k2, List.cons_append, ← h2] at hj'
      rw [reparse_g hj, reparse_g hj']
      have e3 : ({ l' with command := some ('G' :: n'), isMove := moveGcodes.contains ('G' :: n') } : PyLine α) =
          turnRaw T l'.raw { l with command := some ('G' :: n), isMove := moveGcodes.contains ('G' :: n) } := by
        have e4 : moveGcodes.contains ('G' :: n') = moveGcodes.contains ('G' :: n) := by
          rw [hc]
          have := inMoves_turn (α := α) T ('G' :: n) [] []
          unfold PyLine.inMoves at this
          exact this
        rw [e4, hc]
        conv_lhs => rw [hl]
        rfl
      rw [e3]
      exact foldTok_turn T hw _ _ _
  rw [key]
  cases hq : reparse l with
  | error er => exact rfl
  | ok a =>
    have ha := reparse_raw hq
    show TurnMarked T a (turnRaw T l'.raw a)
    cases h with
    | kept r s h1 h2 hs hn hnl hw hc ht => exact .kept r s (by rw [ha, h1]) h2 hs hn hnl hw hc rfl
    | moved hd hd' t n n' ts ts' h1 h2 hne hne' hb hb' ht k1 k2 hc hw hT =>
      exact .moved hd hd' t n n' ts ts' (by rw [ha, h1]) h2 hne hne' hb hb' ht k1 k2 hc hw rfl

/-! ### points -/

/-- A point of the turned program. -/
def Cx.turned (T : Turn) (p : Cx α) : Cx α := ⟨T.x p.re p.im, T.y p.re p.im⟩

/-- A place of the turned program. -/
def Vec3.turned (T : Turn) (v : Vec3 α) : Vec3 α := ⟨T.x v.x v.y, T.y v.x v.y, v.z⟩

theorem Cx.sub_turned (p q : Cx α) : (p.turned T).sub (q.turned T) = (p.sub q).turned T := by
  simp only [Cx.turned, Cx.sub, (turn_sub T _ _ _ _).1, (turn_sub T _ _ _ _).2]

theorem turn_add (T : Turn) (a b c d : α) : T.x a b + T.x c d = T.x (a + c) (b + d) ∧ T.y a b + T.y c d = T.y (a + c) (b + d) := by
  obtain ⟨sw, nx, ny⟩ := T
  cases sw <;> simp only [Turn.x, Turn.y, if_true, Bool.false_eq_true, if_false] <;> constructor <;> ring

theorem turn_smul (T : Turn) (k a b : α) : k * T.x a b = T.x (k * a) (k * b) ∧ k * T.y a b = T.y (k * a) (k * b) := by
  obtain ⟨sw, nx, ny⟩ := T
  cases sw <;> simp only [Turn.x, Turn.y, if_true, Bool.false_eq_true, if_false] <;> constructor <;> ring

theorem Cx.add_turned (p q : Cx α) : (p.turned T).add (q.turned T) = (p.add q).turned T := by
  simp only [Cx.turned, Cx.add, (turn_add T _ _ _ _).1, (turn_add T _ _ _ _).2]

theorem Cx.smul_turned (k : α) (p : Cx α) : Cx.smul k (p.turned T) = (Cx.smul k p).turned T := by
  simp only [Cx.turned, Cx.smul, (turn_smul T k _ _).1, (turn_smul T k _ _).2]

theorem Cx.abs_turned (sqrt : α → α) (p : Cx α) : (p.turned T).abs sqrt = p.abs sqrt := by
  simp only [Cx.turned, Cx.abs, turn_dot]

theorem Cx.dot_turned (p q : Cx α) : (p.turned T).dot (q.turned T) = p.dot q := by
  simp only [Cx.turned, Cx.dot, turn_dot]

theorem Cx.div_turned (p : Cx α) (k : α) : (p.turned T).div k = (p.div k).map (Cx.turned T) := by
  unfold Cx.div
  split_ifs
  · rfl
  · obtain ⟨sw, nx, ny⟩ := T
    cases sw <;> simp only [Except.map, Cx.turned, Turn.x, Turn.y, if_true, Bool.false_eq_true, if_false, mul_div_assoc]

theorem Cx.zero_turned : (⟨0, 0⟩ : Cx α).turned T = ⟨0, 0⟩ := by
  obtain ⟨sw, nx, ny⟩ := T
  cases sw <;> simp [Cx.turned, Turn.x, Turn.y]

/-- The part of a displacement across a direction. -/
theorem cross_turned (p s : Cx α) : Cx.smul ((⟨(p.turned T).im, -(p.turned T).re⟩ : Cx α).dot (s.turned T)) ⟨(p.turned T).im, -(p.turned T).re⟩ =
    (Cx.smul ((⟨p.im, -p.re⟩ : Cx α).dot s) ⟨p.im, -p.re⟩).turned T := by
  obtain ⟨sw, nx, ny⟩ := T
  cases sw <;> cases nx <;> cases ny <;>
    simp only [Cx.turned, Cx.smul, Cx.dot, Turn.x, Turn.y, sign, if_true, Bool.false_eq_true, if_false, Cx.mk.injEq] <;> constructor <;> ring

theorem location_turned (h : TurnedLine T l l') (old : Option (Vec3 α)) :
    locationFromLine (old.map (Vec3.turned T)) l' = (locationFromLine old l).turned T := by
  obtain ⟨h1, h2, h3, _⟩ := turned_fields h
  have hz : ((old.map (Vec3.turned T)).getD Vec3.zero) = (old.getD Vec3.zero).turned T := by
    cases old with
    | some v => rfl
    | none =>
      obtain ⟨sw, nx, ny⟩ := T
      cases sw <;> simp [Vec3.turned, Vec3.zero, Turn.x, Turn.y]
  unfold locationFromLine
  simp only [hz, h1, h2, h3]
  simp only [Vec3.turned, optX_getD, optY_getD]

theorem pointOf_turned (h : TurnedLine T l l') (old : Option (Vec3 α)) : pointOf (old.map (Vec3.turned T)) l' = (pointOf old l).turned T := by
  unfold pointOf
  simp only [location_turned h]
  rfl

section points

variable {ls ls' : List (PyLine α)} (sqrt : α → α) (fuel : ℕ) (d : StretchDist α)

theorem crossLimited_turned (h : List.Forall₂ (TurnMarked T) ls ls') (old : Option (Vec3 α)) (kind : ItKind) (start : ℤ) (loc s : Cx α) :
    crossLimited sqrt fuel d (old.map (Vec3.turned T)) kind ls' start (loc.turned T) (s.turned T) =
      (crossLimited sqrt fuel d old kind ls start loc s).map (Cx.turned T) := by
  unfold crossLimited
  rcases (getNext_alike (turned_reading T) h fuel kind { idx := start }).outcomes with ⟨e, h1, h2⟩ | ⟨⟨l, st⟩, ⟨l', st'⟩, h1, h2, _, h3, hx⟩
  · rw [h1, h2]
    cases e <;> rfl
  · rw [h1, h2]
    simp only [pointOf_turned h3.turned, Cx.sub_turned, Cx.abs_turned, Cx.div_turned]
    by_cases c1 : (loc.sub (pointOf old l)).abs sqrt ≤ d.crossFraction
    · rw [if_pos c1, if_pos c1]; rfl
    rw [if_neg c1, if_neg c1]
    cases (loc.sub (pointOf old l)).div ((loc.sub (pointOf old l)).abs sqrt) with
    | error er => rfl
    | ok par =>
      simp only [Except.map, Cx.dot_turned, cross_turned, Cx.smul_turned, Cx.add_turned]
      by_cases c2 : d.crossLimit < (loc.sub (pointOf old l)).abs sqrt
      · rw [if_pos c2, if_pos c2]
      rw [if_neg c2, if_neg c2]
      by_cases c3 : d.crossRemainder = 0
      · rw [if_pos c3, if_pos c3]
      · rw [if_neg c3, if_neg c3]

theorem relStretchLoop_turned (h : List.Forall₂ (TurnMarked T) ls ls') (old : Option (Vec3 α)) (kind : ItKind) (loc : Cx α) :
    ∀ (n : ℕ) (st : ItSt) (last : Cx α) (oldTotal : α) (point : Cx α) (total : α),
    relStretchLoop sqrt fuel d (old.map (Vec3.turned T)) kind ls' (loc.turned T) n st (last.turned T) oldTotal (point.turned T) total =
      (relStretchLoop sqrt fuel d old kind ls loc n st last oldTotal point total).map (Cx.turned T) := by
  intro n
  induction n with
  | zero => intros; rfl
  | succ n ih =>
    intro st last oldTotal point total
    unfold relStretchLoop
    rcases (getNext_alike (turned_reading T) h fuel kind st).outcomes with ⟨e, h1, h2⟩ | ⟨⟨l, st1⟩, ⟨l', st1'⟩, h1, h2, e, h3, hx⟩
    · rw [h1, h2]
      cases e <;> simp only [Cx.sub_turned, Cx.abs_turned, Cx.div_turned, Except.map]
      split_ifs
      · rfl
      · simp only [Cx.zero_turned]
    · simp only at e
      subst e
      rw [h1, h2]
      simp only [pointOf_turned h3.turned, Cx.sub_turned, Cx.abs_turned, Cx.smul_turned, Cx.add_turned, Cx.div_turned, ih]
      split_ifs <;> rfl

theorem displacement_turned (h : List.Forall₂ (TurnMarked T) ls ls') (old : Option (Vec3 α)) (kf kb : ItKind) (n : ℕ) (tmax : α) (loc : Cx α) :
    displacement sqrt fuel d (old.map (Vec3.turned T)) kf kb ls' n tmax (loc.turned T) =
      (displacement sqrt fuel d old kf kb ls n tmax loc).map (Cx.turned T) := by
  unfold displacement relStretch
  simp only [relStretchLoop_turned sqrt fuel d h old]
  cases relStretchLoop sqrt fuel d old kf ls loc fuel { idx := (n : ℤ) + 1 } loc 0 loc 0 with
  | error er => rfl
  | ok a =>
    cases relStretchLoop sqrt fuel d old kb ls loc fuel { idx := (n : ℤ) - 1 } loc 0 loc 0 with
    | error er => rfl
    | ok b =>
      simp only [Except.map, bind, Except.bind, Cx.add_turned, Cx.smul_turned, crossLimited_turned sqrt fuel d h old]
      cases crossLimited sqrt fuel d old kf ls ((n : ℤ) + 1) loc (Cx.smul (8 / 10) (a.add b)) with
      | error er => rfl
      | ok s =>
        simp only [crossLimited_turned sqrt fuel d h old]
        cases crossLimited sqrt fuel d old kb ls ((n : ℤ) - 1) loc s with
        | error er => rfl
        | ok s =>
          simp only [Except.map, Cx.abs_turned, Cx.div_turned]
          by_cases c : 1 < s.abs sqrt
          · rw [if_pos c, if_pos c]
            cases s.div (s.abs sqrt) with
            | error er => rfl
            | ok s => simp only [Cx.smul_turned]
          · rw [if_neg c, if_neg c]
            simp only [Cx.smul_turned]

end points

/-! ### lines -/

theorem fixedVal_neg (d : ℕ) (x : α) : fixedVal d (-x) = -fixedVal d x := by
  unfold fixedVal
  rw [abs_neg]
  rcases lt_trichotomy x 0 with h | h | h
  · rw [if_neg (by linarith), if_pos h]; ring
  · subst h
    have e : roundEven (|(0 : α)| * 10 ^ d) = 0 := by
      have := roundEven_neg (0 : α)
      simp only [neg_zero] at this
      rw [abs_zero, zero_mul]
      omega
    rw [e]; simp
  · rw [if_pos (by linarith), if_neg (by linarith)]; ring

theorem fixedVal_turned (d : ℕ) (a b : α) : fixedVal d (T.x a b) = T.x (fixedVal d a) (fixedVal d b) ∧ fixedVal d (T.y a b) = T.y (fixedVal d a) (fixedVal d b) := by
  obtain ⟨sw, nx, ny⟩ := T
  cases sw <;> cases nx <;> cases ny <;> simp [Turn.x, Turn.y, sign, fixedVal_neg]

/-- The states of the two runs. -/
structure StretchTurn (T : Turn) (s s' : StretchSt α) : Prop where
  dist : s'.dist = s.dist
  isLoop : s'.isLoop = s.isLoop
  feed : s'.feed = s.feed
  tmax : s'.tmax = s.tmax
  old : s'.old = s.old.map (Vec3.turned T)

theorem loopSwitch_turned {s s' : StretchSt α} (h : StretchTurn T s s') (hl : TurnMarked T l l') :
    SameEnd (StretchTurn T) (loopSwitch s l) (loopSwitch s' l') := by
  obtain ⟨h1, h2, h3, h4, h5⟩ := h
  unfold loopSwitch
  simp only [marked_alike (turned_reading T) hl (m := innerEdgeMarker) rfl, marked_alike (turned_reading T) hl (m := outerEdgeMarker) rfl,
    marked_alike (turned_reading T) hl (m := loopStartMarker) rfl, marked_alike (turned_reading T) hl (m := loopStopMarker) rfl, h1]
  have enter : ∀ f : StretchDist α → α, SameEnd (StretchTurn T)
      (match s.dist with | none => (.error .attributeError : Except Err (StretchSt α)) | some d => .ok { s with isLoop := true, tmax := f d })
      (match s.dist with | none => (.error .attributeError : Except Err (StretchSt α)) | some d => .ok { s' with isLoop := true, tmax := f d, dist := s.dist }) := by
    intro f
    generalize s.dist = q
    cases q with
    | none => exact rfl
    | some d => exact ⟨rfl, rfl, h3, rfl, h5⟩
  by_cases c1 : marked innerEdgeMarker l = true
  · rw [if_pos c1, if_pos c1]; exact enter _
  rw [if_neg c1, if_neg c1]
  by_cases c2 : marked outerEdgeMarker l = true
  · rw [if_pos c2, if_pos c2]; exact enter _
  rw [if_neg c2, if_neg c2]
  by_cases c3 : marked loopStartMarker l = true
  · rw [if_pos c3, if_pos c3]; exact enter _
  rw [if_neg c3, if_neg c3]
  by_cases c4 : marked loopStopMarker l = true
  · rw [if_pos c4, if_pos c4]; exact ⟨rfl, rfl, h3, rfl, h5⟩
  · rw [if_neg c4, if_neg c4]; exact ⟨h1, h2, h3, h4, h5⟩

/-- What is put in place of a line: the line itself, or a new line. -/
def ReplacedAlike (T : Turn) (p q : StretchSt α × PyLine α × Bool) : Prop :=
  StretchTurn T p.1 q.1 ∧ q.2.2 = p.2.2 ∧ (p.2.2 = true → TurnMarked T p.2.1 q.2.1) ∧
    (p.2.2 = false → ∃ r r', reparse p.2.1 = .ok r ∧ reparse q.2.1 = .ok r' ∧ TurnedLine T r r')

section lines

variable {ls ls' : List (PyLine α)} (sqrt : α → α) (fuel : ℕ)

theorem stretchedLine_turned (h : List.Forall₂ (TurnMarked T) ls ls') (d : StretchDist α) (old : Option (Vec3 α)) (kf kb : ItKind) (n : ℕ)
    (tmax feed : α) (hl : TurnMarked T l l') (hx : isXYMove l = true) (loc : Vec3 α) :
    SameEnd (fun p q => ∃ r r', reparse p = .ok r ∧ reparse q = .ok r' ∧ TurnedLine T r r')
      (stretchedLine sqrt fuel d old kf kb ls n tmax feed loc l)
      (stretchedLine sqrt fuel d (old.map (Vec3.turned T)) kf kb ls' n tmax feed (loc.turned T) l') := by
  obtain ⟨_, _, fz, fe, _⟩ := turned_fields hl.turned
  obtain ⟨nn, hc, hnn⟩ : ∃ nn, l.command = some ('G' :: nn) ∧ (nn = ['0'] ∨ nn = ['1']) := by
    rcases ((isXYMove_iff l).1 hx).1 with k | k
    · exact ⟨_, k, .inl rfl⟩
    · exact ⟨_, k, .inr rfl⟩
  have hlen : numLen nn = nn.length := by rcases hnn with rfl | rfl <;> decide
  have hcc : T.cmd ('G' :: nn) = 'G' :: nn := by
    rcases cmd_cases T ('G' :: nn) with k | ⟨k, _⟩ | ⟨k, _⟩
    · exact k
    · rcases hnn with rfl | rfl <;> simp at k
    · rcases hnn with rfl | rfl <;> simp at k
  have hc' : l'.command = some ('G' :: nn) := by rw [turned_command hl.turned, hc, Option.map_some, hcc]
  have hd := displacement_turned (T := T) sqrt fuel d h old kf kb n tmax ⟨loc.x, loc.y⟩
  have e : (⟨(loc.turned T).x, (loc.turned T).y⟩ : Cx α) = (⟨loc.x, loc.y⟩ : Cx α).turned T := rfl
  unfold stretchedLine
  rw [e, hd, hc, hc', fz, fe]
  cases displacement sqrt fuel d old kf kb ls n tmax ⟨loc.x, loc.y⟩ with
  | error er => exact rfl
  | ok a =>
    simp only [bind, Except.bind, Except.map, Cx.abs_turned]
    obtain ⟨m, hm⟩ : ∃ m : PyLine α, m = ({ command := some ('G' :: nn), x := some (loc.x + a.re), y := some (loc.y + a.im), z := l.z, f := some feed, e := l.e.map (fun e => e * (1 - a.abs sqrt)) } : PyLine α) := ⟨_, rfl⟩
    obtain ⟨m', hm'⟩ : ∃ m : PyLine α, m = ({ command := some ('G' :: nn), x := some ((loc.turned T).x + (a.turned T).re), y := some ((loc.turned T).y + (a.turned T).im), z := l.z, f := some feed, e := l.e.map (fun e => e * (1 - a.abs sqrt)) } : PyLine α) := ⟨_, rfl⟩
    rw [← hm, ← hm']
    refine ⟨_, _, reparse_unsplit m nn (by rw [hm]) hlen, reparse_unsplit m' nn (by rw [hm']) hlen, ?_⟩
    have ex : (loc.turned T).x + (a.turned T).re = T.x (loc.x + a.re) (loc.y + a.im) := (turn_add T _ _ _ _).1
    have ey : (loc.turned T).y + (a.turned T).im = T.y (loc.x + a.re) (loc.y + a.im) := (turn_add T _ _ _ _).2
    rw [ex, ey] at hm'
    have ox : ∀ u v : α, T.optX (some u) (some v) = some (T.x u v) := by
      intro u v; obtain ⟨sw, nx, ny⟩ := T; cases sw <;> rfl
    have oy : ∀ u v : α, T.optY (some u) (some v) = some (T.y u v) := by
      intro u v; obtain ⟨sw, nx, ny⟩ := T; cases sw <;> rfl
    have nn1 : T.optX (none : Option α) none = none := by obtain ⟨sw, nx, ny⟩ := T; cases sw <;> rfl
    have nn2 : T.optY (none : Option α) none = none := by obtain ⟨sw, nx, ny⟩ := T; cases sw <;> rfl
    subst hm hm'
    unfold TurnedLine
    simp [reread, unsplit, ox, oy, nn1, nn2, hcc, (fixedVal_turned (T := T) 3 _ _).1, (fixedVal_turned (T := T) 3 _ _).2]

theorem stretchLine_turned (h : List.Forall₂ (TurnMarked T) ls ls') (kf kb : ItKind) (n : ℕ) {s s' : StretchSt α} (hs : StretchTurn T s s')
    (hl : TurnMarked T l l') (hx : isXYMove l = true) :
    SameEnd (ReplacedAlike T) (stretchLine sqrt fuel kf kb ls n s l) (stretchLine sqrt fuel kf kb ls' n s' l') := by
  obtain ⟨h1, h2, h3, h4, h5⟩ := hs
  have hf := (turned_fields hl.turned).2.2.2.2
  have hloc : locationFromLine s'.old l' = (locationFromLine s.old l).turned T := by rw [h5]; exact location_turned hl.turned s.old
  unfold stretchLine
  simp only [hf, h1, h3, h4, hloc]
  cases l.f <;> simp only <;>
  · by_cases ht : 0 < s.tmax
    · rw [if_pos ht, if_pos ht]
      cases hd : s.dist with
      | none => exact rfl
      | some d =>
        simp only
        rcases (stretchedLine_turned sqrt fuel h d (some (locationFromLine s.old l)) kf kb n s.tmax _ hl hx (locationFromLine s.old l)).outcomes
          with ⟨e, k1, k2⟩ | ⟨r, r', k1, k2, k3⟩
        · rw [Option.map_some] at k2
          rw [k1, k2]; exact rfl
        · rw [Option.map_some] at k2
          rw [k1, k2]
          exact ⟨⟨rfl, h2, rfl, rfl, rfl⟩, rfl, fun k => (by cases k), fun _ => k3⟩
    · rw [if_neg ht, if_neg ht]
      exact ⟨⟨rfl, h2, rfl, rfl, rfl⟩, rfl, fun _ => hl, fun k => by cases k⟩

theorem stretchParseLine_turned (h : List.Forall₂ (TurnMarked T) ls ls') (kf kb : ItKind) (n : ℕ) {s s' : StretchSt α} (hs : StretchTurn T s s')
    (hl : TurnMarked T l l') :
    SameEnd (ReplacedAlike T) (stretchParseLine sqrt fuel kf kb ls n s l) (stretchParseLine sqrt fuel kf kb ls' n s' l') := by
  unfold stretchParseLine
  rcases (loopSwitch_turned hs hl).outcomes with ⟨e, k1, k2⟩ | ⟨t, t', k1, k2, k3⟩
  · rw [k1, k2]; exact rfl
  · rw [k1, k2]
    simp only [turned_xyMove hl.turned, k3.isLoop]
    by_cases hb : (isXYMove l && t.isLoop) = true
    · rw [if_pos hb, if_pos hb]
      rw [Bool.and_eq_true] at hb
      exact stretchLine_turned sqrt fuel h kf kb n k3 hl hb.1
    · rw [if_neg hb, if_neg hb]
      exact ⟨k3, rfl, fun _ => hl, fun k => by cases k⟩

theorem stretchLayer_turned (kf kb : ItKind) {todo todo' : List (PyLine α)} (ht : List.Forall₂ (TurnMarked T) todo todo') :
    ∀ {s s' : StretchSt α}, StretchTurn T s s' → ∀ {cur cur' : List (PyLine α)}, List.Forall₂ (TurnMarked T) cur cur' → ∀ n : ℕ,
    SameEnd (fun p q => StretchTurn T p.1 q.1 ∧ List.Forall₂ (TurnedLine T) p.2 q.2)
      (stretchLayer sqrt fuel kf kb s cur n todo) (stretchLayer sqrt fuel kf kb s' cur' n todo') := by
  induction ht with
  | nil => intro s s' hs cur cur' _ n; exact ⟨hs, .nil⟩
  | @cons l l' rest rest' hl hr ih =>
    intro s s' hs cur cur' hcur n
    unfold stretchLayer
    rcases (stretchParseLine_turned sqrt fuel hcur kf kb n hs hl).outcomes with ⟨e, k1, k2⟩ | ⟨⟨t, r, b⟩, ⟨t', r', b'⟩, k1, k2, k3, k4, k5, k6⟩
    · rw [k1, k2]; exact rfl
    · rw [k1, k2]
      simp only at k3 k4 k5 k6 ⊢
      subst k4
      have hre : SameEnd (fun p q => TurnedLine T p q ∧ (b' = true → TurnMarked T p q)) (reparse r) (reparse r') := by
        cases b' with
        | true => exact (reparse_turn (k5 rfl)).mono fun a b h => ⟨h.turned, fun _ => h⟩
        | false =>
          obtain ⟨q, q', e1, e2, e3⟩ := k6 rfl
          rw [e1, e2]
          exact ⟨e3, fun k => by cases k⟩
      rcases hre.outcomes with ⟨e, j1, j2⟩ | ⟨q, q', j1, j2, j3, j4⟩
      · rw [j1, j2]; exact rfl
      · rw [j1, j2]
        simp only
        have hcur1 : List.Forall₂ (TurnMarked T) (if b' = true then cur.set n q else cur) (if b' = true then cur'.set n q' else cur') := by
          by_cases hb : b' = true
          · rw [if_pos hb, if_pos hb]; exact forall₂_set hcur (j4 hb) n
          · rw [if_neg hb, if_neg hb]; exact hcur
        rcases (ih k3 hcur1 (n + 1)).outcomes with ⟨e, i1, i2⟩ | ⟨⟨u, o⟩, ⟨u', o'⟩, i1, i2, i3, i4⟩
        · rw [i1, i2]; exact rfl
        · rw [i1, i2]; exact ⟨i3, .cons j3 i4⟩

theorem stretchLayers_turned (kf kb : ItKind) {Ls Ls' : List (Layer α)} (h : LinesAlike (TurnMarked T) Ls Ls') :
    ∀ {s s' : StretchSt α}, StretchTurn T s s' →
    SameEnd (fun p q => StretchTurn T p.1 q.1 ∧ List.Forall₂ (fun L L' => List.Forall₂ (TurnedLine T) L.lines L'.lines) p.2 q.2)
      (stretchLayers sqrt fuel kf kb s Ls) (stretchLayers sqrt fuel kf kb s' Ls') := by
  unfold LinesAlike at h
  induction h with
  | nil => intro s s' hs; exact ⟨hs, .nil⟩
  | @cons L L' rest rest' hl hr ih =>
    intro s s' hs
    unfold stretchLayers
    rcases (stretchLayer_turned sqrt fuel kf kb hl hs hl 0).outcomes with ⟨e, k1, k2⟩ | ⟨⟨t, r⟩, ⟨t', r'⟩, k1, k2, k3, k4⟩
    · rw [k1, k2]; exact rfl
    · rw [k1, k2]
      simp only at k3 k4 ⊢
      rcases (ih k3).outcomes with ⟨e, i1, i2⟩ | ⟨⟨u, o⟩, ⟨u', o'⟩, i1, i2, i3, i4⟩
      · rw [i1, i2]; exact rfl
      · rw [i1, i2]; exact ⟨i3, .cons k4 i4⟩

theorem stretch_turned (slicer : Slicer) (repo : StretchRepo α) (profile : ProfileOracle α) {g g' : GCode α}
    (h : LinesAlike (TurnMarked T) g.allLayers g'.allLayers) :
    SameEnd (fun p q => List.Forall₂ (fun L L' => List.Forall₂ (TurnedLine T) L.lines L'.lines) p.allLayers q.allLayers)
      (g.stretch sqrt fuel slicer repo profile) (g'.stretch sqrt fuel slicer repo profile) := by
  unfold GCode.stretch
  rcases (setupFilter_alike (turned_reading T) slicer repo profile h).outcomes with ⟨e, k1, k2⟩ | ⟨⟨d, Ls⟩, ⟨d', Ls'⟩, k1, k2, k3, k4⟩
  · rw [k1, k2]; exact rfl
  · simp only at k3 k4
    subst k3
    rw [k1, k2]
    simp only
    rcases (stretchLayers_turned sqrt fuel slicer.forward slicer.backward k4 (s := { StretchSt.init with dist := d' })
      (s' := { StretchSt.init with dist := d' }) ⟨rfl, rfl, rfl, rfl, rfl⟩).outcomes with ⟨e, i1, i2⟩ | ⟨⟨u, o⟩, ⟨u', o'⟩, i1, i2, i3, i4⟩
    · rw [i1, i2]; exact rfl
    · rw [i1, i2]; exact i4

end lines

end GCodeUtils
