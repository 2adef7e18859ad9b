import Verif.Props.ArcCount
import Verif.Props.Analysis
import Verif.Lemmas.Cast

/-
  C54: when the arc optimiser does not raise.
-/

set_option linter.unusedSectionVars false

namespace GCodeUtils

open Spec

variable {α : Type} [Field α] [LinearOrder α] [IsStrictOrderedRing α] [FloorRing α]

/-! ### programs on which it does -/

/-- Nine extruding moves on a slanted line. -/
def diagonal : List Str :=
  [c!"G1 X1 Y1 E1 F900", c!"G1 X2 Y2 E2", c!"G1 X3 Y3 E3", c!"G1 X4 Y4 E4", c!"G1 X5 Y5 E5", c!"G1 X6 Y6 E6", c!"G1 X7 Y7 E7", c!"G1 X8 Y8 E8", c!"G1 X9 Y9 E9"]

/-- Nine extruding moves in place. -/
def inPlace : List Str :=
  [c!"G1 X1 Y1 E1 F900", c!"G1 E2", c!"G1 E3", c!"G1 E4", c!"G1 E5", c!"G1 E6", c!"G1 E7", c!"G1 E8", c!"G1 E9"]

/-- Ten moves without extrusion on an arc. -/
def arcTravel : List Str :=
  [c!"G1 X60.000 Y50.000 F1800", c!"G1 X59.659 Y52.588", c!"G1 X58.660 Y55.000", c!"G1 X57.071 Y57.071",
   c!"G1 X55.000 Y58.660", c!"G1 X52.588 Y59.659", c!"G1 X50.000 Y60.000", c!"G1 X47.412 Y59.659",
   c!"G1 X45.000 Y58.660", c!"G1 X42.929 Y57.071", c!"M107"]

/-- C54 is false: nine extruding moves along a slanted line raise `ZeroDivisionError`. -/
theorem C54_refuted_straight : ∃ g : GCode ℚ, GCode.load qEnv diagonal = .ok g ∧ g.optimizeArcs qTrig = .error .zeroDivision :=
  ⟨loadQ diagonal, by decide +kernel, by decide +kernel⟩

/-- C54 is false: nine extruding moves in one place raise `ZeroDivisionError`. -/
theorem C54_refuted_prime : ∃ g : GCode ℚ, GCode.load qEnv inPlace = .ok g ∧ g.optimizeArcs qTrig = .error .zeroDivision :=
  ⟨loadQ inPlace, by decide +kernel, by decide +kernel⟩

/-- C54 is false: ten moves without extrusion along an arc raise `ZeroDivisionError`. -/
theorem C54_refuted_travel : ∃ g : GCode ℚ, GCode.load qEnv arcTravel = .ok g ∧ g.optimizeArcs qTrig = .error .zeroDivision :=
  ⟨loadQ arcTravel, by decide +kernel, by decide +kernel⟩

/-! ### programs on which it does not -/

/-- C54, with real square root, sine and phase, for loaded programs with `SafeRuns`: no comment before eight extruding moves
unless it directly follows a move, no eight lines of travel, eight extruding moves go somewhere and not along one slanted
line, and with relative extrusion moves are longer than 0.031 mm.  The optimiser returns a program. -/
theorem C54_safe_partial (env : Env ℝ) (data : List Str) (home : Home ℝ) (g : GCode ℝ) (h : GCode.load env data false home = .ok g) (mode : RoundMode)
    (hs : SafeRuns (program g)) : ∃ g', g.optimizeArcs (realTrig mode) = .ok g' :=
  optimizeArcs_total mode ⟨load_here h, load_comment h, hs⟩

/-! ### the conditions can be met -/

/-- The window of eight lines at `n`. -/
def win {β : Type} (n : ℕ) (x : List β) : List β := (x.drop n).take 8

/-- The place of a line. -/
def placeQ (l : PyLine ℚ) : Option (ℚ × ℚ) :=
  match l.currentX, l.currentY with
  | some x, some y => some (x, y)
  | _, _ => none

/-- Consecutive moves are in one place or far apart. -/
def apartOk : Option (ℚ × ℚ) → List (PyLine ℚ) → Bool
  | _, [] => true
  | o, l :: x =>
    if l.command = none then apartOk o x
    else if l.inMoves then
      (match o, placeQ l with
        | some p, some q => l.e.isNone || p = q || decide ((31 / 1000) ^ 2 < distSq p q)
        | _, _ => true) && apartOk (placeQ l) x
    else apartOk none x

/-- What is checked of the window at `n`. -/
def winOk (n : ℕ) (x : List (PyLine ℚ)) : Bool :=
  let w := win n x
  if w.length = 8 then
    (if w.all (fun l => l.inMoves && l.e.isSome) then
      (match n with
        | 0 => true
        | k + 1 =>
          match x[k]? with
          | some c => if c.command = none then (match k with | 0 => false | i + 1 => match x[i]? with | some m => m.inMoves | none => false) else true
          | none => true) &&
      (steps w).any (fun s => match placeQ s.1, placeQ s.2 with | some p, some q => decide (1 / 10 ^ 12 ≤ distSq p q) | _, _ => false) &&
      (w.filterMap placeQ).any (fun p => (w.filterMap placeQ).any (fun q => (w.filterMap placeQ).any (fun r =>
        decide ((p.1 - q.1) * (r.2 - q.2) - (p.2 - q.2) * (r.1 - q.1) ≠ 0))))
    else true) &&
    (if w.all (fun l => (l.inMoves || l.command = none) && l.e.isNone) then !(w.getLast?.any (·.inMoves)) else true)
  else true

/-- All checks. -/
def safeOk (x : List (PyLine ℚ)) : Bool := (List.range (x.length + 1)).all (fun n => winOk n x) && apartOk none x

theorem cast_inMoves (l : PyLine ℚ) : IsMove (castLine l : PyLine α) ↔ l.inMoves = true := by
  rw [inMoves_iff]; exact isMove_congr rfl

theorem cast_place {l : PyLine ℚ} {p : α × α} (h : At (castLine l : PyLine α) p) : ∃ q, placeQ l = some q ∧ p = ((q.1 : α), (q.2 : α)) := by
  obtain ⟨h1, h2⟩ := h
  simp only [castLine, Option.map_eq_some_iff] at h1 h2
  obtain ⟨a, ha, ha'⟩ := h1
  obtain ⟨b, hb, hb'⟩ := h2
  exact ⟨(a, b), by unfold placeQ; rw [ha, hb], Prod.ext ha'.symm hb'.symm⟩

theorem place_cast {l : PyLine ℚ} {q : ℚ × ℚ} (h : placeQ l = some q) : At (castLine l : PyLine α) ((q.1 : α), (q.2 : α)) := by
  unfold placeQ at h
  cases hx : l.currentX with
  | none => rw [hx] at h; simp at h
  | some a =>
    cases hy : l.currentY with
    | none => rw [hx, hy] at h; simp at h
    | some b =>
      rw [hx, hy] at h
      obtain rfl := Option.some.inj h
      exact ⟨by simp [castLine, hx], by simp [castLine, hy]⟩

theorem distSq_cast (p q : ℚ × ℚ) : distSq ((p.1 : α), (p.2 : α)) ((q.1 : α), (q.2 : α)) = ((distSq p q : ℚ) : α) := by
  unfold distSq; push_cast; ring

theorem apartOk_sound (x : List (PyLine ℚ)) : ∀ o, apartOk o x = true →
    (∀ mid b post, x = mid ++ b :: post → (∀ c ∈ mid, c.command = none) → b.inMoves = true → b.e ≠ none → ∀ p q, o = some p → placeQ b = some q → p = q ∨ (31 / 1000) ^ 2 < distSq p q) ∧
    ∀ pre a mid b post, x = pre ++ a :: (mid ++ b :: post) → a.inMoves = true → (∀ c ∈ mid, c.command = none) → b.inMoves = true → b.e ≠ none →
      ∀ p q, placeQ a = some p → placeQ b = some q → p = q ∨ (31 / 1000) ^ 2 < distSq p q := by
  induction x with
  | nil =>
    intro o _
    exact ⟨fun mid b post h => by simp at h, fun pre a mid b post h => by simp at h⟩
  | cons l x ih =>
    intro o h
    have hmv : ∀ {l : PyLine ℚ}, l.inMoves = true → l.command ≠ none := by
      intro l hl hc
      unfold PyLine.inMoves at hl
      rw [hc] at hl; cases hl
    unfold apartOk at h
    by_cases hc : l.command = none
    · rw [if_pos hc] at h
      obtain ⟨i1, i2⟩ := ih o h
      refine ⟨?_, ?_⟩
      · intro mid b post hx hmid hb
        cases mid with
        | nil =>
          simp only [List.nil_append, List.cons.injEq] at hx
          obtain ⟨rfl, _⟩ := hx
          exact absurd hc (hmv hb)
        | cons m mid =>
          simp only [List.cons_append, List.cons.injEq] at hx
          obtain ⟨rfl, rfl⟩ := hx
          exact i1 mid b post rfl (fun c hcm => hmid c (List.mem_cons_of_mem _ hcm)) hb
      · intro pre a mid b post hx ha
        cases pre with
        | nil =>
          simp only [List.nil_append, List.cons.injEq] at hx
          obtain ⟨rfl, _⟩ := hx
          exact absurd hc (hmv ha)
        | cons y pre =>
          simp only [List.cons_append, List.cons.injEq] at hx
          exact i2 pre a mid b post hx.2 ha
    · rw [if_neg hc] at h
      by_cases hm : l.inMoves = true
      · rw [if_pos hm, Bool.and_eq_true] at h
        obtain ⟨i1, i2⟩ := ih _ h.2
        refine ⟨?_, ?_⟩
        · intro mid b post hx hmid hb he p q hp hq
          cases mid with
          | nil =>
            simp only [List.nil_append, List.cons.injEq] at hx
            obtain ⟨rfl, _⟩ := hx
            have := h.1
            rw [hp, hq] at this
            simp only [Bool.or_eq_true, decide_eq_true_eq, Option.isNone_iff_eq_none] at this
            rcases this with (h1 | h1) | h1
            · exact absurd h1 he
            · exact Or.inl h1
            · exact Or.inr h1
          | cons m mid =>
            simp only [List.cons_append, List.cons.injEq] at hx
            obtain ⟨rfl, _⟩ := hx
            exact absurd (hmid l (by simp)) hc
        · intro pre a mid b post hx ha hmid hb he p q hp hq
          cases pre with
          | nil =>
            simp only [List.nil_append, List.cons.injEq] at hx
            obtain ⟨rfl, rfl⟩ := hx
            exact i1 mid b post rfl hmid hb he p q hp hq
          | cons y pre =>
            simp only [List.cons_append, List.cons.injEq] at hx
            exact i2 pre a mid b post hx.2 ha hmid hb he p q hp hq
      · rw [if_neg hm] at h
        obtain ⟨i1, i2⟩ := ih none h
        refine ⟨?_, ?_⟩
        · intro mid b post hx hmid hb
          cases mid with
          | nil =>
            simp only [List.nil_append, List.cons.injEq] at hx
            obtain ⟨rfl, _⟩ := hx
            exact absurd hb hm
          | cons m mid =>
            simp only [List.cons_append, List.cons.injEq] at hx
            obtain ⟨rfl, _⟩ := hx
            exact absurd (hmid l (by simp)) hc
        · intro pre a mid b post hx ha
          cases pre with
          | nil =>
            simp only [List.nil_append, List.cons.injEq] at hx
            obtain ⟨rfl, _⟩ := hx
            exact absurd ha hm
          | cons y pre =>
            simp only [List.cons_append, List.cons.injEq] at hx
            exact i2 pre a mid b post hx.2 ha

theorem map_eq_append3 {β γ : Type} {f : β → γ} {x : List β} {pre w post : List γ} (h : x.map f = pre ++ (w ++ post)) :
    ∃ pre' w' post', x = pre' ++ (w' ++ post') ∧ pre'.map f = pre ∧ w'.map f = w ∧ post'.map f = post := by
  obtain ⟨a, b, rfl, rfl, hb⟩ := List.map_eq_append_iff.1 h
  obtain ⟨c, d, rfl, rfl, rfl⟩ := List.map_eq_append_iff.1 hb
  exact ⟨a, c, d, rfl, rfl, rfl, rfl⟩

theorem win_of {β : Type} {x pre w post : List β} (h : x = pre ++ (w ++ post)) (h8 : w.length = 8) : win pre.length x = w ∧ pre.length < x.length + 1 := by
  subst h
  refine ⟨?_, by simp⟩
  unfold win
  rw [List.drop_left, ← h8, List.take_left]

theorem safe_of_ok {x : List (PyLine ℚ)} (h : safeOk x = true) : SafeRuns (x.map (castLine (α := α))) := by
  unfold safeOk at h
  rw [Bool.and_eq_true, List.all_eq_true] at h
  obtain ⟨hw, hap⟩ := h
  have key : ∀ {pre w post : List (PyLine ℚ)}, x = pre ++ (w ++ post) → w.length = 8 → winOk pre.length x = true ∧ win pre.length x = w := by
    intro pre w post hx h8
    obtain ⟨k1, k2⟩ := win_of hx h8
    exact ⟨hw _ (List.mem_range.2 k2), k1⟩
  have ext : ∀ {pre w post : List (PyLine ℚ)}, x = pre ++ (w ++ post) → ExtrudingRun (w.map (castLine (α := α))) → w.length = 8 ∧ w.all (fun l => l.inMoves && l.e.isSome) = true := by
    intro pre w post hx he
    refine ⟨by simpa using he.1, ?_⟩
    rw [List.all_eq_true]
    intro l hl
    obtain ⟨h1, h2⟩ := he.2 _ (List.mem_map_of_mem hl)
    rw [Bool.and_eq_true]
    refine ⟨(cast_inMoves l).1 h1, ?_⟩
    simp only [castLine, ne_eq, Option.map_eq_none_iff] at h2
    exact Option.isSome_iff_ne_none.2 h2
  refine ⟨?_, ?_, ?_, ?_, Or.inr ?_⟩
  · intro pre c w post hx hc he
    have hx' : x.map castLine = (pre ++ [c]) ++ (w ++ post) := by rw [hx]; simp
    obtain ⟨p', w', q', e1, e2, rfl, rfl⟩ := map_eq_append3 hx'
    obtain ⟨pre', c', rfl, rfl, hc'⟩ := List.map_eq_append_iff.1 e2
    rw [List.map_eq_singleton_iff] at hc'
    obtain ⟨c0, rfl, rfl⟩ := hc'
    obtain ⟨h8, hall⟩ := ext e1 he
    obtain ⟨k1, k2⟩ := key e1 h8
    unfold winOk at k1
    simp only [k2, h8, hall, if_true, Bool.and_eq_true] at k1
    obtain ⟨⟨⟨k1, _⟩, _⟩, _⟩ := k1
    have hlen : (pre' ++ [c0]).length = pre'.length + 1 := by simp
    rw [hlen] at k1
    simp only at k1
    have hxk : x[pre'.length]? = some c0 := by rw [e1]; simp
    rw [hxk] at k1
    simp only [show c0.command = none from hc, if_true] at k1
    cases hl : pre'.getLast? with
    | none =>
      rw [List.getLast?_eq_none_iff] at hl
      rw [hl] at k1; simp at k1
    | some m =>
      obtain ⟨ys, rfl⟩ := List.getLast?_eq_some_iff.1 hl
      rw [show (ys ++ [m]).length = ys.length + 1 by simp] at k1
      have hxm : x[ys.length]? = some m := by rw [e1]; simp
      simp only [hxm] at k1
      exact ⟨castLine m, by simp, (cast_inMoves m).2 k1⟩
  · rintro pre w post hx h8 hall ⟨l, hl, hm⟩
    obtain ⟨p', w', q', e1, rfl, rfl, rfl⟩ := map_eq_append3 hx
    have h8' : 8 ≤ w'.length := by simpa using h8
    have e2 : x = (p' ++ w'.take (w'.length - 8)) ++ (w'.drop (w'.length - 8) ++ q') := by
      rw [e1, List.append_assoc, ← List.append_assoc (w'.take _), List.take_append_drop]
    have h82 : (w'.drop (w'.length - 8)).length = 8 := by rw [List.length_drop]; omega
    obtain ⟨k1, k2⟩ := key e2 h82
    unfold winOk at k1
    have ha : (w'.drop (w'.length - 8)).all (fun l => (l.inMoves || l.command = none) && l.e.isNone) = true := by
      rw [List.all_eq_true]
      intro a hain
      obtain ⟨h1, h2⟩ := hall _ (List.mem_map_of_mem (List.mem_of_mem_drop hain))
      rw [Bool.and_eq_true]
      simp only [castLine, Option.map_eq_none_iff] at h2
      refine ⟨?_, by rw [h2]; rfl⟩
      rw [Bool.or_eq_true]
      rcases h1 with h1 | h1
      · exact Or.inl ((cast_inMoves a).1 h1)
      · exact Or.inr (by simpa [castLine] using h1)
    simp only [k2, h82, ha, if_true, Bool.and_eq_true, Bool.not_eq_true'] at k1
    have k3 := k1.2
    rw [List.getLast?_map, Option.map_eq_some_iff] at hl
    obtain ⟨a, hla, rfl⟩ := hl
    have hlast : (w'.drop (w'.length - 8)).getLast? = some a := by
      rw [List.getLast?_drop, if_neg (by omega), hla]
    rw [hlast] at k3
    simp only [Option.any_some] at k3
    rw [(cast_inMoves a).1 hm] at k3
    cases k3
  · intro pre w post hx he
    obtain ⟨p', w', q', e1, rfl, rfl, rfl⟩ := map_eq_append3 hx
    obtain ⟨h8, hall⟩ := ext e1 he
    obtain ⟨k1, k2⟩ := key e1 h8
    unfold winOk at k1
    simp only [k2, h8, hall, if_true, Bool.and_eq_true] at k1
    obtain ⟨⟨⟨_, k1⟩, _⟩, _⟩ := k1
    rw [List.any_eq_true] at k1
    obtain ⟨⟨a, b⟩, hs, hd⟩ := k1
    obtain ⟨u, v, rfl⟩ := steps_mem _ _ _ hs
    refine ⟨u.map castLine, castLine a, castLine b, v.map castLine, by simp, ?_⟩
    intro p q hp hq
    obtain ⟨p', hp', rfl⟩ := cast_place hp
    obtain ⟨q', hq', rfl⟩ := cast_place hq
    simp only [hp', hq', decide_eq_true_eq] at hd
    rw [distSq_cast]
    have : ((1 / 10 ^ 12 : ℚ) : α) ≤ ((distSq p' q' : ℚ) : α) := Rat.cast_le.2 hd
    push_cast at this ⊢
    exact this
  · rintro pre w post hx he ⟨a, b, c, ha, hb, hline⟩
    obtain ⟨p', w', q', e1, rfl, rfl, rfl⟩ := map_eq_append3 hx
    obtain ⟨h8, hall⟩ := ext e1 he
    obtain ⟨k1, k2⟩ := key e1 h8
    unfold winOk at k1
    simp only [k2, h8, hall, if_true, Bool.and_eq_true] at k1
    obtain ⟨⟨_, k1⟩, _⟩ := k1
    simp only [List.any_eq_true, List.mem_filterMap, decide_eq_true_eq] at k1
    obtain ⟨p, ⟨lp, hlp, hp⟩, q, ⟨lq, hlq, hq⟩, r, ⟨lr, hlr, hr⟩, hcross⟩ := k1
    have h1 := hline _ (List.mem_map_of_mem hlp) _ (place_cast hp)
    have h2 := hline _ (List.mem_map_of_mem hlq) _ (place_cast hq)
    have h3 := hline _ (List.mem_map_of_mem hlr) _ (place_cast hr)
    simp only at h1 h2 h3
    apply hcross
    have : (((p.1 - q.1) * (r.2 - q.2) - (p.2 - q.2) * (r.1 - q.1) : ℚ) : α) = 0 := by
      push_cast
      have : a * (((p.1 : α) - q.1) * (r.2 - q.2) - (p.2 - q.2) * (r.1 - q.1)) = 0 := by
        linear_combination ((r.2 : α) - q.2) * (h1 - h2) - ((p.2 : α) - q.2) * (h3 - h2)
      exact (mul_eq_zero.1 this).resolve_left ha
    exact_mod_cast this
  · intro pre a mid b post hx ham hmid hbm hbe p q hp hq
    obtain ⟨pre', y, rfl, rfl, hy⟩ := List.map_eq_append_iff.1 hx
    obtain ⟨a', y', rfl, rfl, hy'⟩ := List.map_eq_cons_iff.1 hy
    obtain ⟨mid', y'', rfl, rfl, hy''⟩ := List.map_eq_append_iff.1 hy'
    obtain ⟨b', post', rfl, rfl, rfl⟩ := List.map_eq_cons_iff.1 hy''
    obtain ⟨p', hp', rfl⟩ := cast_place hp
    obtain ⟨q', hq', rfl⟩ := cast_place hq
    have hbe' : b'.e ≠ none := by
      intro h0; apply hbe; simp [castLine, h0]
    rcases (apartOk_sound _ none hap).2 pre' a' mid' b' post' rfl ((cast_inMoves a').1 ham) (fun c hc => hmid _ (List.mem_map_of_mem hc)) ((cast_inMoves b').1 hbm) hbe'
      p' q' hp' hq' with h1 | h1
    · exact Or.inl (by rw [h1])
    · right
      rw [distSq_cast]
      have : (((31 / 1000) ^ 2 : ℚ) : α) < ((distSq p' q' : ℚ) : α) := Rat.cast_lt.2 h1
      push_cast at this ⊢
      exact this

theorem feedNonneg_cast {raw : Str} (h : FeedNonneg ℚ raw) : FeedNonneg α raw := by
  have hv : ∀ (ws : List (Char × Str)) k, value (1 : α) ws k = (value (1 : ℚ) ws k).map (↑) := by
    intro ws k
    induction ws with
    | nil => rfl
    | cons w ws ih =>
      obtain ⟨c, v⟩ := w
      simp only [value, ih]
      cases value (1 : ℚ) ws k with
      | some a => rfl
      | none =>
        simp only [Option.map_none, Option.none_or]
        split_ifs
        · rw [parseFloat_cast]
          cases (parseFloat v : Option ℚ) <;> simp
        · rfl
  intro v hval
  rw [hv, Option.map_eq_some_iff] at hval
  obtain ⟨a, ha, rfl⟩ := hval
  exact_mod_cast h a ha

theorem dwellNonneg_cast {raw : Str} (h : DwellNonneg ℚ raw) : DwellNonneg α raw := by
  intro v ws hv a ha
  rw [parseFloat_cast, Option.map_eq_some_iff] at ha
  obtain ⟨b, hb, rfl⟩ := ha
  exact_mod_cast h v ws hv b hb

/-- Loading with real numbers. -/
theorem load_real {data : List Str} (hd : ∀ t ∈ data, (FeedNonneg ℚ (strip t) ∧ DwellNonneg ℚ (strip t)) ∧ WellFormed (strip t)) (mode : RoundMode) :
    ∃ g : GCode ℝ, GCode.load ⟨fun a b => Real.sqrt (a ^ 2 + b ^ 2), mode⟩ data = .ok g := by
  cases hl : GCode.load (⟨fun a b => Real.sqrt (a ^ 2 + b ^ 2), mode⟩ : Env ℝ) data with
  | ok g => exact ⟨g, rfl⟩
  | error e =>
    exfalso
    rcases C26_errors hl with rfl | rfl
    · obtain ⟨t, ht, hn⟩ := C26_value_error hl
      exact hn (hd t ht).2
    · exact (C25_duration_nonneg (env := ⟨fun a b => Real.sqrt (a ^ 2 + b ^ 2), mode⟩) (fun a b => Real.sqrt_nonneg _) false Home.init
        (fun t ht => ⟨feedNonneg_cast (hd t ht).1.1, dwellNonneg_cast (hd t ht).1.2⟩)).1 hl

/-- The conditions are met, with real numbers, by a program with an arc of nine segments, … -/
example (mode : RoundMode) : ∃ g : GCode ℝ, GCode.load ⟨fun a b => Real.sqrt (a ^ 2 + b ^ 2), mode⟩ arcCcwMore = .ok g ∧ SafeRuns (program g) := by
  obtain ⟨g, hg⟩ := load_real (data := arcCcwMore) (by decide +kernel) mode
  refine ⟨g, hg, ?_⟩
  have h0 : (castHome Home.init : Home ℝ) = Home.init := by simp [castHome, Home.init]
  rw [load_cast (envQ := qEnv) (data := arcCcwMore) (gq := loadQ arcCcwMore) (home := Home.init) (by decide +kernel) (by rw [h0]; exact hg)]
  exact safe_of_ok (by decide +kernel)

/-- … and by one with relative extrusion and comments. -/
example (mode : RoundMode) : ∃ g : GCode ℝ, GCode.load ⟨fun a b => Real.sqrt (a ^ 2 + b ^ 2), mode⟩ (c!"M83" :: c!"G1 X70 Y50 F900" :: c!"; arc" :: arcCcw) = .ok g ∧
    SafeRuns (program g) := by
  obtain ⟨g, hg⟩ := load_real (data := c!"M83" :: c!"G1 X70 Y50 F900" :: c!"; arc" :: arcCcw) (by decide +kernel) mode
  refine ⟨g, hg, ?_⟩
  have h0 : (castHome Home.init : Home ℝ) = Home.init := by simp [castHome, Home.init]
  rw [load_cast (envQ := qEnv) (data := (c!"M83" :: c!"G1 X70 Y50 F900" :: c!"; arc" :: arcCcw)) (gq := loadQ (c!"M83" :: c!"G1 X70 Y50 F900" :: c!"; arc" :: arcCcw)) (home := Home.init) (by decide +kernel) (by rw [h0]; exact hg)]
  exact safe_of_ok (by decide +kernel)

end GCodeUtils
