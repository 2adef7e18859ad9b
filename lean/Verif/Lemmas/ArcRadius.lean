import Verif.Spec.ArcRadius
import Verif.Lemmas.ArcPath
import Verif.Lemmas.ArcTrack
import Verif.Lemmas.ArcCount
import Verif.Lemmas.ReadsBack

/-
  The two radii of a generated arc.
-/

set_option linter.unusedSectionVars false

namespace GCodeUtils

open Spec

variable {α : Type} [Field α] [LinearOrder α] [IsStrictOrderedRing α] [FloorRing α]

/-- Moves record the place of the head. -/
def StampedMoves (home : Pos3 α) (p0 : Printer α) (x0 : List (PyLine α)) : Prop :=
  ∀ pre l post, x0 = pre ++ l :: post → IsMove l →
    l.currentX = some (p0.run home (pre ++ [l])).pos.x ∧ l.currentY = some (p0.run home (pre ++ [l])).pos.y

theorem load_stampedMoves {env : Env α} {data : List Str} {home : Home α} {g : GCode α} (h : GCode.load env data false home = .ok g)
    (hc : ∀ l ∈ g.lines, CommandFirst l.raw ∧ HomingClear (α := α) l.raw) : StampedMoves ⟨home.x, home.y, home.z⟩ Printer.start (program g) := by
  obtain ⟨out, hr, hl⟩ := load_run' h
  have hc' : ∀ r ∈ g.lines.map (·.raw), CommandFirst r ∧ HomingClear (α := α) r := by
    intro r hr
    obtain ⟨l, hl, rfl⟩ := List.mem_map.1 hr
    exact hc l hl
  obtain ⟨_, g2⟩ := run_sim _ hr init_geo hc'
  have hout := hl rfl
  rw [← hout] at g2
  intro pre l post he hm
  have hfl : g.lines = pre ++ l :: post := by rw [(load_indexed h).flat]; exact he
  have hls := g2 pre l post hfl
  have hex := load_exec h hc (pre.length + 1)
  have htake : g.lines.take (pre.length + 1) = pre ++ [l] := by
    rw [hfl, show pre ++ l :: post = (pre ++ [l]) ++ post by simp, List.take_left' (by simp)]
  rw [htake] at hex
  rw [hex]
  cases hin : instr l.raw with
  | none =>
    exfalso
    have h1 := (hls.noInstr hin).2.1
    obtain ⟨l0, m, m', _, hp⟩ := run_mem hr (by rw [← hout, hfl]; simp : l ∈ out)
    obtain ⟨_, hcmd, him⟩ := processLine_keeps hp
    rw [split_isMove] at him
    have himv : l.isMove = true ↔ IsMove l := by rw [him, inMoves_iff, isMove_congr hcmd]
    rw [himv.2 hm] at h1
    cases h1
  | some pr =>
    obtain ⟨cmd, ws⟩ := pr
    obtain ⟨hx, hy, _, _⟩ := hls.pos cmd ws hin
    refine ⟨?_, ?_⟩
    · rw [hx]; simp [Printer.final, Home.pos]
    · rw [hy]; simp [Printer.final, Home.pos]

/-- What holds of the printers at every start of a window can be read off from following them. -/
theorem tracks_follows {home : Pos3 α} {R : PyLine α → List (PyLine α) → List (PyLine α) → Prop} {Q : Printer α → Printer α → Prop}
    {W : Printer α → Printer α → PyLine α → List (PyLine α) → List (PyLine α) → Prop} {x0 : List (PyLine α)} {p0 : Printer α}
    (ha : ∀ pre l l' w' gen post q, x0 = pre ++ l :: post → Kept l l' → R l' w' gen → Q (p0.run home (pre ++ [l])) q →
      W (p0.run home (pre ++ [l])) q l' w' gen)
    {p q : Printer α} {x y : List (PyLine α)} (h : Tracks home R Q p q x y) : ∀ pre, x0 = pre ++ x → p = p0.run home pre →
    Follows home R (fun _ _ _ => True) W p q x y := by
  induction h with
  | done => intro pre _ _; exact .done
  | keep hk h1 _ ih =>
    rename_i p q l l' a b _
    intro pre he hp
    refine .keep hk trivial (ih (pre ++ [l]) (by rw [he]; simp) ?_)
    rw [run_append', hp]; rfl
  | arc hk hw hR h1 h2 _ ih =>
    rename_i p q l l' w w' gen a b _
    intro pre he hp
    have e1 : p.exec home l = p0.run home (pre ++ [l]) := by rw [run_append', hp]; rfl
    refine .arc hk hw hR trivial ?_ (ih (pre ++ l :: w) (by rw [he]; simp) (by rw [run_append', hp]))
    rw [e1] at h1 ⊢
    exact ha pre l l' w' gen (w ++ a) _ he hk hR h1

theorem sqrt_near (a b c d : ℝ) : |Real.sqrt (a ^ 2 + b ^ 2) - Real.sqrt (c ^ 2 + d ^ 2)| ≤ |a - c| + |b - d| := by
  have key : ∀ u v : ℝ, Real.sqrt (u ^ 2 + v ^ 2) = ‖(⟨u, v⟩ : ℂ)‖ := by
    intro u v
    rw [Complex.norm_def, Complex.normSq_mk, pow_two, pow_two]
  rw [key, key]
  refine (abs_norm_sub_norm_le _ _).trans ?_
  have := Complex.norm_le_abs_re_add_abs_im ((⟨a, b⟩ : ℂ) - ⟨c, d⟩)
  simpa using this

/-- The radii of the arc for a window, for a machine that stands close to its start. -/
theorem fair_window {mode : RoundMode} (home : Pos3 ℝ) {start : PyLine ℝ} {w gen : List (PyLine ℝ)}
    (h : ArcReplacement (realTrig mode) start w gen) {p q : Printer ℝ} (hn : NearXY p q) (hx : start.currentX = some p.pos.x)
    (hy : start.currentY = some p.pos.y) : FairArc home (34 / 1000) (200 + 16 / 1000) q gen := by
  obtain ⟨hfw, pts, c, r, paths, fils, arc, rest, ho, ha, _, rfl⟩ := h
  obtain ⟨_, _, arc', hcmd, _, hg⟩ := hfw
  have harc : arc' = arc := by
    rcases hg with hg | ⟨g, _, hg⟩ <;> simp only [List.cons.injEq] at hg <;> exact hg.1.symm
  subst harc
  have hm : IsMove arc' := by
    rcases hcmd with h | h
    · exact ⟨c!"G2", by decide, h⟩
    · exact ⟨c!"G3", by decide, h⟩
  obtain ⟨p0, hp0, hi, hj⟩ := ha.centre
  obtain ⟨pl, hpl, hex, hey⟩ := ha.finish
  have hp0m : p0 ∈ pts := List.mem_of_mem_head? hp0
  have hplm : pl ∈ pts := List.mem_of_getLast? hpl
  have hat : At start p0 := by
    have := ho.at_points
    cases pts with
    | nil => simp at hp0
    | cons a b =>
      simp only [List.head?_cons, Option.some.injEq] at hp0
      subst hp0
      cases this with
      | cons h _ => exact h
  obtain ⟨ax, ay⟩ := hat
  rw [hx] at ax
  rw [hy] at ay
  have ex := Option.some.inj ax
  have ey := Option.some.inj ay
  have n0 := ho.near p0 hp0m
  have n1 := ho.near pl hplm
  have hd : ∀ s : ℝ × ℝ, distance (realTrig mode) c s = Real.sqrt ((c.1 - s.1) ^ 2 + (c.2 - s.2) ^ 2) := by
    intro s
    show Real.sqrt _ = _
    rw [pow_two, pow_two]
  rw [hd] at n0 n1
  have bi := pyRound_bound mode 3 (c.1 - p0.1)
  have bj := pyRound_bound mode 3 (c.2 - p0.2)
  have bx := pyRound_bound mode 3 pl.1
  have by' := pyRound_bound mode 3 pl.2
  have hnx := hn.x
  have hny := hn.y
  rw [ex] at hnx
  rw [ey] at hny
  have hmode : (realTrig mode).mode = mode := rfl
  rw [hmode] at hi hj hex hey
  have hpos : (q.exec home arc').pos.x = pyRound mode 3 pl.1 ∧ (q.exec home arc').pos.y = pyRound mode 3 pl.2 := by
    rw [exec_move home q hm]
    constructor
    · simp only [Printer.moveTo, hex, hn.orgq.1, hn.orgq.2.2, axis, Bool.false_eq_true, if_false, zero_add]
    · simp only [Printer.moveTo, hey, hn.orgq.2.1, hn.orgq.2.2, axis, Bool.false_eq_true, if_false, zero_add]
  set i := pyRound mode 3 (c.1 - p0.1) with hidef
  set j := pyRound mode 3 (c.2 - p0.2) with hjdef
  set x1 := pyRound mode 3 pl.1 with hxdef
  set y1 := pyRound mode 3 pl.2 with hydef
  refine ⟨arc', rest, _, _, rfl, ⟨i, j, hi, hj, rfl, rfl⟩, ?_, ?_⟩
  · rw [hpos.1, hpos.2]
    have s1 := sqrt_near i j (c.1 - p0.1) (c.2 - p0.2)
    have s2 := sqrt_near (x1 - (q.pos.x + i)) (y1 - (q.pos.y + j)) (-(c.1 - pl.1)) (-(c.2 - pl.2))
    rw [neg_sq, neg_sq] at s2
    have t1 : |x1 - (q.pos.x + i) - -(c.1 - pl.1)| ≤ 15 / 10000 := by
      have : x1 - (q.pos.x + i) - -(c.1 - pl.1) = (x1 - pl.1) - (q.pos.x - p0.1) - (i - (c.1 - p0.1)) := by ring
      rw [this, abs_le]
      rw [abs_le] at bx bi hnx
      constructor <;> linarith [bx.1, bx.2, bi.1, bi.2, hnx.1, hnx.2]
    have t2 : |y1 - (q.pos.y + j) - -(c.2 - pl.2)| ≤ 15 / 10000 := by
      have : y1 - (q.pos.y + j) - -(c.2 - pl.2) = (y1 - pl.2) - (q.pos.y - p0.2) - (j - (c.2 - p0.2)) := by ring
      rw [this, abs_le]
      rw [abs_le] at by' bj hny
      constructor <;> linarith [by'.1, by'.2, bj.1, bj.2, hny.1, hny.2]
    have s2' := s2.trans (add_le_add t1 t2)
    have s1' := s1.trans (add_le_add bi bj)
    rw [abs_le] at s1' s2' n0 n1 ⊢
    constructor <;> linarith [s1'.1, s1'.2, s2'.1, s2'.2, n0.1, n0.2, n1.1, n1.2]
  · have s1 := (sqrt_near i j (c.1 - p0.1) (c.2 - p0.2)).trans (add_le_add bi bj)
    rw [abs_le] at s1 n0
    linarith [s1.1, s1.2, n0.1, n0.2, ho.radius]

end GCodeUtils
