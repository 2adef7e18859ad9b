import Verif.Props.ArcGeometry
import Verif.Lemmas.ArcPath

/-
  C95, C96: the path of the generated arcs beside the path of the moves they replace.
-/

set_option linter.unusedSectionVars false

namespace GCodeUtils

open Spec

/-- A regular octagon around (50, 50), corners at 20 mm. -/
def octagon : List Str :=
  [c!"G1 X70.000 Y50.000 E1.0000 F1800", c!"G1 X64.142 Y64.142 E2.5307", c!"G1 X50.000 Y70.000 E4.0615", c!"G1 X35.858 Y64.142 E5.5922",
   c!"G1 X30.000 Y50.000 E7.1229", c!"G1 X35.858 Y35.858 E8.6536", c!"G1 X50.000 Y30.000 E10.1844", c!"G1 X64.142 Y35.858 E11.7151",
   c!"G1 X70.000 Y50.000 E13.2458", c!"M107"]

/-- Two steps of two degrees counter-clockwise, then seven back. -/
def backForth : List Str :=
  [c!"G1 X70.000 Y50.000 E1.0000 F1800", c!"G1 X69.988 Y50.698 E1.0698", c!"G1 X69.951 Y51.395 E1.1396", c!"G1 X69.988 Y50.698 E1.2094",
   c!"G1 X70.000 Y50.000 E1.2792", c!"G1 X69.988 Y49.302 E1.3490", c!"G1 X69.951 Y48.605 E1.4188", c!"G1 X69.890 Y47.909 E1.4887",
   c!"G1 X69.805 Y47.217 E1.5584", c!"G1 X69.696 Y46.527 E1.6283", c!"M107"]

/-- Clockwise: seven steps of 15 degrees and one of 40. -/
def unevenCw : List Str :=
  [c!"G1 X70.000 Y50.000 E1.0000 F1800", c!"G1 X69.319 Y44.824 E1.5221", c!"G1 X67.321 Y40.000 E2.0442", c!"G1 X64.142 Y35.858 E2.5663",
   c!"G1 X60.000 Y32.679 E3.0885", c!"G1 X55.176 Y30.681 E3.6106", c!"G1 X50.000 Y30.000 E4.1327", c!"G1 X44.824 Y30.681 E4.6547",
   c!"G1 X33.617 Y38.528 E6.0228", c!"M107"]

/-- The same counter-clockwise. -/
def unevenCcw : List Str :=
  [c!"G1 X70.000 Y50.000 E1.0000 F1800", c!"G1 X69.319 Y55.176 E1.5221", c!"G1 X67.321 Y60.000 E2.0442", c!"G1 X64.142 Y64.142 E2.5663",
   c!"G1 X60.000 Y67.321 E3.0885", c!"G1 X55.176 Y69.319 E3.6106", c!"G1 X50.000 Y70.000 E4.1327", c!"G1 X44.824 Y69.319 E4.6547",
   c!"G1 X33.617 Y61.472 E6.0228", c!"M107"]

/-! ### C95 -/

/-- C95 is false: nine moves that end ten degrees clockwise of their start (all within 4 mm of it) become a counter-clockwise arc, which
goes almost all the way round the centre, 20 mm away. -/
theorem C95_refuted : ∃ g g' : GCode ℚ, GCode.load qEnv backForth = .ok g ∧ g.optimizeArcs qTrig = .ok g' ∧
    (program g').map (·.raw) = [c!"G1 X70.000 Y50.000 E1.0000 F1800",
      c!"G3 X69.696 Y46.527 E0.65091 F1800.000 I-19.985 J0.001; generated from 9 segments", c!"M107"] ∧
    (∀ l ∈ program g, IsMove l → ∃ x y, l.x = some x ∧ l.y = some y ∧ distSq (x, y) ((70, 50) : ℚ × ℚ) ≤ 4 ^ 2) ∧
    cross ((50015 / 1000, 50001 / 1000) : ℚ × ℚ) (70, 50) (69696 / 1000, 46527 / 1000) < 0 := by
  refine ⟨loadQ backForth, arcsQ backForth, by decide +kernel, by decide +kernel, by decide +kernel, ?_, by decide +kernel⟩
  have : ∀ l ∈ program (loadQ backForth), IsMove l → l.x ≠ none ∧ l.y ≠ none ∧ distSq (l.x.getD 0, l.y.getD 0) ((70, 50) : ℚ × ℚ) ≤ 4 ^ 2 := by decide +kernel
  intro l hl hm
  obtain ⟨h1, h2, h3⟩ := this l hl hm
  cases hx : l.x with
  | none => exact absurd hx h1
  | some x =>
    cases hy : l.y with
    | none => exact absurd hy h2
    | some y =>
      rw [hx, hy] at h3
      exact ⟨x, y, rfl, rfl, h3⟩

/-- The angles of a window that turns counter-clockwise, once at most, are at most 50 degrees. -/
theorem even_bound {mode : RoundMode} {start : PyLine ℝ} {w : List (PyLine ℝ)} {pts : List (ℝ × ℝ)} {c : ℝ × ℝ} {r : ℝ} {paths fils : List ℝ}
    (h : OnArc (realTrig mode) start w pts c r paths fils) (hw : 8 ≤ w.length) (hsum : (angles (realTrig mode) c pts).sum ≤ 2 * Real.pi) :
    ∀ a ∈ angles (realTrig mode) c pts, a ≤ 5 * Real.pi / 18 := by
  intro a ha
  have h1 := h.even a ha
  have hl : (angles (realTrig mode) c pts).length = w.length := by
    unfold angles steps
    rw [List.length_map, List.length_zip, List.length_tail, ← h.at_points.length_eq]
    simp
  have h2 : mean (angles (realTrig mode) c pts) ≤ 2 * Real.pi / 8 := by
    unfold mean
    rw [hl]
    have h8 : (8 : ℝ) ≤ (w.length : ℝ) := by exact_mod_cast hw
    rw [div_le_div_iff₀ (by linarith) (by norm_num)]
    have := Real.pi_pos
    nlinarith
  have h3 : a - mean (angles (realTrig mode) c pts) ≤ 5 * Real.pi / 180 := h1
  linarith

/-- The points of a window that turns one way are not the centre. -/
theorem turning_ne {c : ℝ × ℝ} {s : ℝ} (pts : List (ℝ × ℝ)) (hl : 2 ≤ pts.length) (h : ∀ st ∈ steps pts, 0 < s * cross c st.1 st.2) : ∀ p ∈ pts, p ≠ c := by
  have h1 : ∀ p q : ℝ × ℝ, 0 < s * cross c p q → p ≠ c ∧ q ≠ c := by
    intro p q hpq
    constructor
    · rintro rfl; simp [cross] at hpq
    · rintro rfl; simp [cross] at hpq
  induction pts with
  | nil => simp
  | cons p pts ih =>
    cases pts with
    | nil => simp at hl
    | cons q rest =>
      have h0 := h1 p q (h (p, q) (by rw [steps_cons]; simp))
      intro x hx
      rcases List.mem_cons.1 hx with rfl | hx
      · exact h0.1
      · cases rest with
        | nil =>
          rcases List.mem_cons.1 hx with rfl | hx
          · exact h0.2
          · simp at hx
        | cons q' rest => exact ih (by simp) (fun st hst => h st (by rw [steps_cons]; exact List.mem_cons_of_mem _ hst)) x hx

/-- A replaced window, all of whose moves go the same way round. -/
theorem window_turn {mode : RoundMode} {start : PyLine ℝ} {w : List (PyLine ℝ)} {pts : List (ℝ × ℝ)} {c : ℝ × ℝ} {r : ℝ} {paths fils : List ℝ} {arc : PyLine ℝ}
    (h : OnArc (realTrig mode) start w pts c r paths fils) (hw : 8 ≤ w.length) (ha : ArcLine (realTrig mode) start w pts c r paths fils arc)
    {s A : ℝ} (hs : s = 1 ∨ s = -1) (hst : ∀ st ∈ steps pts, 0 < s * cross c st.1 st.2) (hA : ∀ a ∈ angles (realTrig mode) c pts, s * a ≤ A)
    (hpi : A < Real.pi / 2) (hsum : s * (angles (realTrig mode) c pts).sum ≤ 2 * Real.pi) :
    HasCmd arc (if s = 1 then c!"G3" else c!"G2") ∧ ∃ p q, pts.head? = some p ∧ pts.getLast? = some q ∧
      Alongside (15 / 1000 + r * (1 - Real.cos (A / 2))) (OnPath pts) (OnTurn s c r p q) := by
  have hlen := h.at_points.length_eq
  rw [List.length_cons] at hlen
  obtain ⟨v, hv, hrad⟩ := h.root
  have hr0 : 0 ≤ r := by rw [hrad]; exact Real.sqrt_nonneg _
  have hne := turning_ne (s := s) pts (by omega) hst
  have hpos : ∀ st ∈ steps pts, 0 < s * turn (realTrig mode) c st.1 st.2 := by
    intro st hin
    have := hst st hin
    unfold cross at this
    obtain ⟨t1, t2⟩ := turn_cross (mode := mode) c st.1 st.2
    rcases hs with rfl | rfl
    · rw [one_mul] at this ⊢; exact t1 this
    · have := t2 (by linarith); linarith
  match pts, h, ha, hst, hA, hsum, hlen, hne, hpos with
  | [], _, _, _, _, _, hlen, _, _ => simp at hlen
  | [_], _, _, _, _, _, hlen, _, _ => simp only [List.length_cons, List.length_nil] at hlen; omega
  | [_, _], _, _, _, _, _, hlen, _, _ => simp only [List.length_cons, List.length_nil] at hlen; omega
  | p0 :: p1 :: p2 :: rest, h, ha, hst, hA, hsum, hlen, hne, hpos =>
    have hm : ∀ st ∈ steps (p0 :: p1 :: p2 :: rest), s * turn (realTrig mode) c st.1 st.2 ≤ A := fun st hin => hA _ (List.mem_map.2 ⟨st, hin, rfl⟩)
    have i1 : (p0, p1) ∈ steps (p0 :: p1 :: p2 :: rest) := by rw [steps_cons]; simp
    have i2 : (p1, p2) ∈ steps (p0 :: p1 :: p2 :: rest) := by rw [steps_cons, steps_cons]; simp
    have hdir := two_steps (mode := mode) hs (hne p0 (by simp)) (hne p1 (by simp)) (hne p2 (by simp)) (hpos _ i1) (hpos _ i2)
      (lt_of_le_of_lt (hm _ i1) hpi) (lt_of_le_of_lt (hm _ i2) hpi)
    constructor
    · obtain ⟨q0, q2, h0, h2, hcmd⟩ := ha.command
      simp only [List.getElem?_cons_zero, List.getElem?_cons_succ, Option.some.injEq] at h0 h2
      subst h0 h2
      unfold HasCmd
      rw [hcmd]
      rcases hs with rfl | rfl
      · rw [one_mul] at hdir
        rw [if_pos hdir, if_pos rfl]
      · rw [if_neg (by linarith), if_neg (by norm_num)]
    · obtain ⟨q, hq⟩ : ∃ q, (p0 :: p1 :: p2 :: rest).getLast? = some q := by
        cases hl : (p0 :: p1 :: p2 :: rest).getLast? with
        | none => rw [List.getLast?_eq_none_iff] at hl; simp at hl
        | some q => exact ⟨q, rfl⟩
      refine ⟨p0, q, rfl, hq, ?_⟩
      refine path_within (mode := mode) hr0 (by linarith [Real.pi_pos]) hs (by simp) ?_ ?_ hsum hq
      · intro x hx
        exact ⟨hne x hx, h.near x hx⟩
      · intro a hin
        obtain ⟨st, k1, rfl⟩ := List.mem_map.1 hin
        exact ⟨hpos st k1, hA _ hin⟩

/-- C95 for windows that go one way round and not more than one turn: if every move turns counter-clockwise around the centre the arc
is `G3`; if every move turns clockwise, by less than a quarter turn, it is `G2`.  Missing: windows that go back and forth
(`C95_refuted`) or round more than once, and clockwise moves of a quarter turn or more. -/
theorem C95_way_partial (env : Env ℝ) (data : List Str) (home : Home ℝ) (g g' : GCode ℝ) (h : GCode.load env data false home = .ok g)
    (mode : RoundMode) (hr : g.optimizeArcs (realTrig mode) = .ok g') :
    Rewrites (fun start w gen => ∃ pts c arc rest p0, List.Forall₂ At (start :: w) pts ∧ gen = arc :: rest ∧ pts.head? = some p0 ∧
      arc.i = some (pyRound mode 3 (c.1 - p0.1)) ∧ arc.j = some (pyRound mode 3 (c.2 - p0.2)) ∧
      ((∀ s ∈ steps pts, 0 < cross c s.1 s.2) → (angles (realTrig mode) c pts).sum ≤ 2 * Real.pi → HasCmd arc c!"G3") ∧
      ((∀ s ∈ steps pts, cross c s.1 s.2 < 0) → (∀ a ∈ angles (realTrig mode) c pts, -(Real.pi / 2) < a) → -(2 * Real.pi) ≤ (angles (realTrig mode) c pts).sum → HasCmd arc c!"G2"))
      (program g) (program g') := by
  refine rewrites_mono ?_ (C49_C51_C52_replacement env data home g g' h (realTrig mode) hr)
  rintro start w gen ⟨hw, pts, c, r, paths, fils, arc, rest, ho, ha, _, rfl⟩
  obtain ⟨p, hp, hi, hj⟩ := ha.centre
  refine ⟨pts, c, arc, rest, p, ho.at_points, rfl, hp, hi, hj, ?_, ?_⟩
  · intro hst hsum
    have := (window_turn ho hw.1 ha (s := 1) (A := 5 * Real.pi / 18) (Or.inl rfl) (by simpa using hst) (by simpa using even_bound ho hw.1 hsum)
      (by linarith [Real.pi_pos]) (by rw [one_mul]; exact hsum)).1
    rwa [if_pos rfl] at this
  · intro hst hq hsum
    -- the largest of the angles
    have hmax : ∀ l : List ℝ, (∀ a ∈ l, -(Real.pi / 2) < a) → ∃ A, A < Real.pi / 2 ∧ ∀ a ∈ l, (-1) * a ≤ A := by
      intro l
      induction l with
      | nil => intro _; exact ⟨0, by linarith [Real.pi_pos], by simp⟩
      | cons a l ih =>
        intro hl
        obtain ⟨A, a1, a2⟩ := ih (fun x hx => hl x (List.mem_cons_of_mem _ hx))
        refine ⟨max A (-a), max_lt a1 (by linarith [hl a (by simp)]), ?_⟩
        intro x hx
        rcases List.mem_cons.1 hx with rfl | hx
        · rw [neg_one_mul]; exact le_max_right _ _
        · exact le_trans (a2 x hx) (le_max_left _ _)
    obtain ⟨A, a1, a2⟩ := hmax _ hq
    have := (window_turn ho hw.1 ha (s := -1) (A := A) (Or.inr rfl) (by simpa using hst) a2 a1 (by rw [neg_one_mul]; linarith)).1
    rwa [if_neg (by norm_num)] at this

/-! ### C96 -/

/-- C96 is false: an octagon with corners at 20 mm becomes a full circle of radius 20 mm; the middle of its first side is more than
1.5 mm from every point of that circle. -/
theorem C96_refuted : ∃ g g' : GCode ℚ, GCode.load qEnv octagon = .ok g ∧ g.optimizeArcs qTrig = .ok g' ∧
    (program g').map (·.raw) = [c!"G1 X70.000 Y50.000 E1.0000 F1800",
      c!"G3 X70.000 Y50.000 E13.56630 F1800.000 I-20.000 J0.000; generated from 8 segments", c!"G92 E13.24580; generated as arc to path relation is 1.026173", c!"M107"] ∧
    (program g)[0]?.map (fun l => (l.x, l.y)) = some (some 70, some 50) ∧ (program g)[1]?.map (fun l => (l.x, l.y)) = some (some (64142 / 1000), some (64142 / 1000)) ∧
    ∀ x : ℚ × ℚ, distSq x (50, 50) = 20 ^ 2 → (15 / 10) ^ 2 < distSq x ((70 + 64142 / 1000) / 2, (50 + 64142 / 1000) / 2) := by
  refine ⟨loadQ octagon, arcsQ octagon, by decide +kernel, by decide +kernel, by decide +kernel, by decide +kernel, by decide +kernel, ?_⟩
  rintro ⟨x, y⟩ hx
  unfold distSq at hx ⊢
  simp only at hx ⊢
  nlinarith [sq_nonneg ((x - 50) * 7071 - (y - 50) * 17071), sq_nonneg ((x - 50) - (20 : ℚ) * (17071 / 18478)), sq_nonneg ((y - 50) - (20 : ℚ) * (7071 / 18478))]

/-- The evenness of the steps is only checked one way: clockwise moves of 15 degrees with one of 40 degrees become an arc, the
same moves counter-clockwise do not. -/
theorem C96_uneven_refuted : (program (arcsQ unevenCw)).map (·.raw) = [c!"G1 X70.000 Y50.000 E1.0000 F1800",
      c!"G2 X33.617 Y38.528 E-4.06144 F1800.000 I-20.000 J0.000; generated from 8 segments", c!"M107"] ∧
    program (arcsQ unevenCcw) = program (loadQ unevenCcw) := by decide +kernel

/-- The moves of `arcCcw` all turn counter-clockwise around (50, 50), by 15 degrees each; those of `arcCw` clockwise. -/
example : (∀ s ∈ steps ((program (loadQ arcCcw)).filterMap (fun l => if l.inMoves then l.x.bind (fun x => l.y.map (fun y => (x, y))) else none)), 0 < cross ((50, 50) : ℚ × ℚ) s.1 s.2) ∧
    (∀ s ∈ steps ((program (loadQ arcCw)).filterMap (fun l => if l.inMoves then l.x.bind (fun x => l.y.map (fun y => (x, y))) else none)), cross ((50, 50) : ℚ × ℚ) s.1 s.2 < 0) ∧
    (program (loadQ arcCcw)).length = 11 := by decide +kernel

theorem sagitta_bound : 1 - Real.cos (5 * Real.pi / 18 / 2) ≤ 1 / 10 := by
  have h := Real.one_sub_sq_div_two_le_cos (x := 5 * Real.pi / 18 / 2)
  have h2 := Real.pi_lt_d2
  have h3 := Real.pi_pos
  nlinarith

/-- C96 for windows that go one way round and not more than one turn.  Counter-clockwise: every point of the moves is within
0.015 mm + r·(1 - cos 25°), hence within 0.015 mm + r/10, of a point of the arc around `c` with radius `r` from the direction of the
first to that of the last point, and the other way round.  Clockwise: the same with r·(1 - cos (A/2)) if no move turns by more than
`A`, less than a quarter turn.  `c` is the centre written on the arc before rounding, and `r` is within 0.015 mm of the distances of
all points from it.  Missing: windows that go back and forth, and the rounding of the written numbers. -/
theorem C96_path_partial (env : Env ℝ) (data : List Str) (home : Home ℝ) (g g' : GCode ℝ) (h : GCode.load env data false home = .ok g)
    (mode : RoundMode) (hr : g.optimizeArcs (realTrig mode) = .ok g') :
    Rewrites (fun start w gen => ∃ pts c r arc rest p q, List.Forall₂ At (start :: w) pts ∧ gen = arc :: rest ∧ pts.head? = some p ∧ pts.getLast? = some q ∧
      arc.x = some (pyRound mode 3 q.1) ∧ arc.y = some (pyRound mode 3 q.2) ∧ arc.i = some (pyRound mode 3 (c.1 - p.1)) ∧ arc.j = some (pyRound mode 3 (c.2 - p.2)) ∧
      0 < r ∧ (∀ x ∈ pts, |distance (realTrig mode) c x - r| ≤ 15 / 1000) ∧
      ((∀ s ∈ steps pts, 0 < cross c s.1 s.2) → (angles (realTrig mode) c pts).sum ≤ 2 * Real.pi →
        HasCmd arc c!"G3" ∧ Alongside (15 / 1000 + r * (1 - Real.cos (5 * Real.pi / 36))) (OnPath pts) (OnTurn 1 c r p q) ∧
        Alongside (15 / 1000 + r / 10) (OnPath pts) (OnTurn 1 c r p q)) ∧
      (∀ A, A < Real.pi / 2 → (∀ s ∈ steps pts, cross c s.1 s.2 < 0) → (∀ a ∈ angles (realTrig mode) c pts, -A ≤ a) → -(2 * Real.pi) ≤ (angles (realTrig mode) c pts).sum →
        HasCmd arc c!"G2" ∧ Alongside (15 / 1000 + r * (1 - Real.cos (A / 2))) (OnPath pts) (OnTurn (-1) c r p q)))
      (program g) (program g') := by
  refine rewrites_mono ?_ (C49_C51_C52_replacement env data home g g' h (realTrig mode) hr)
  rintro start w gen ⟨hw, pts, c, r, paths, fils, arc, rest, ho, ha, _, rfl⟩
  obtain ⟨p, hp, hi, hj⟩ := ha.centre
  obtain ⟨q, hq, hx, hy⟩ := ha.finish
  obtain ⟨v, hv, hrad⟩ := ho.root
  have hr0 : 0 < r := by rw [hrad]; exact Real.sqrt_pos.2 hv
  refine ⟨pts, c, r, arc, rest, p, q, ho.at_points, rfl, hp, hq, hx, hy, hi, hj, hr0, ho.near, ?_, ?_⟩
  · intro hst hsum
    obtain ⟨k1, p', q', k2, k3, k4⟩ := window_turn ho hw.1 ha (s := 1) (A := 5 * Real.pi / 18) (Or.inl rfl) (by simpa using hst) (by simpa using even_bound ho hw.1 hsum)
      (by linarith [Real.pi_pos]) (by rw [one_mul]; exact hsum)
    rw [if_pos rfl] at k1
    rw [hp] at k2
    rw [hq] at k3
    obtain rfl := Option.some.inj k2
    obtain rfl := Option.some.inj k3
    refine ⟨k1, by rwa [show 5 * Real.pi / 36 = 5 * Real.pi / 18 / 2 by ring], ?_⟩
    have hb := mul_le_mul_of_nonneg_left sagitta_bound hr0.le
    have h0 : 0 ≤ 15 / 1000 + r * (1 - Real.cos (5 * Real.pi / 18 / 2)) := by
      have := mul_nonneg hr0.le (show 0 ≤ 1 - Real.cos (5 * Real.pi / 18 / 2) by linarith [Real.cos_le_one (5 * Real.pi / 18 / 2)])
      linarith
    have hsq : (15 / 1000 + r * (1 - Real.cos (5 * Real.pi / 18 / 2))) ^ 2 ≤ (15 / 1000 + r / 10) ^ 2 := by
      apply pow_le_pow_left₀ h0
      linarith
    constructor
    · intro x hx
      obtain ⟨y, y1, y2⟩ := k4.1 x hx
      exact ⟨y, y1, le_trans y2 hsq⟩
    · intro x hx
      obtain ⟨y, y1, y2⟩ := k4.2 x hx
      exact ⟨y, y1, le_trans y2 hsq⟩
  · intro A hA hst hang hsum
    obtain ⟨k1, p', q', k2, k3, k4⟩ := window_turn ho hw.1 ha (s := -1) (A := A) (Or.inr rfl) (by simpa using hst) (by intro a hin; linarith [hang a hin]) hA
      (by rw [neg_one_mul]; linarith)
    rw [if_neg (by norm_num)] at k1
    rw [hp] at k2
    rw [hq] at k3
    obtain rfl := Option.some.inj k2
    obtain rfl := Option.some.inj k3
    exact ⟨k1, k4⟩

end GCodeUtils
