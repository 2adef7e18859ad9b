import Verif.Lemmas.Shown
import Verif.Lemmas.ArcRadius
import Verif.Props.Analysis
import Verif.Props.Saved

/-
  C112: whoever reads a translated program again sees it at its new place.
-/

set_option linter.unusedSectionVars false

namespace GCodeUtils

open Spec

variable {α : Type} [Field α] [LinearOrder α] [IsStrictOrderedRing α] [FloorRing α]

theorem forall2_split {β γ : Type} {R : β → γ → Prop} {pre post : List β} {l : β} : ∀ {ys : List γ}, List.Forall₂ R (pre ++ l :: post) ys →
    ∃ pre' l' post', ys = pre' ++ l' :: post' ∧ pre'.length = pre.length ∧ R l l' := by
  induction pre with
  | nil => intro ys h; cases h with | cons a b => exact ⟨[], _, _, rfl, rfl, a⟩
  | cons p pre ih =>
    intro ys h
    cases h with
    | cons a b =>
      obtain ⟨pre', l', post', rfl, e, r⟩ := ih b
      exact ⟨_ :: pre', l', post', rfl, by simp [e], r⟩

theorem scan_of_mem {σ : Type} {f : σ → PyLine α → σ × PyLine α} (ls : List (PyLine α)) : ∀ s, ∀ {k}, k ∈ (scan f s ls).2 → ∃ s' l, l ∈ ls ∧ k = (f s' l).2 := by
  induction ls with
  | nil => intro s k hk; cases hk
  | cons a ls ih =>
    intro s k hk
    simp only [scan, List.mem_cons] at hk
    rcases hk with rfl | hk
    · exact ⟨s, a, by simp, rfl⟩
    · obtain ⟨s', l, hl, e⟩ := ih _ hk
      exact ⟨s', l, by simp [hl], e⟩

theorem raws_same {P : PyLine α → PyLine α → Prop} {a b : List (PyLine α)} (h : List.Forall₂ (fun l l' => l'.raw = l.raw ∧ P l l') a b) :
    b.map (·.raw) = a.map (·.raw) := by
  induction h with
  | nil => rfl
  | cons a b ih => simp [a.1, ih]

/-- Two sets of numbers, each within `tol` of the other one displaced by `d`: so are their bounds. -/
theorem bounds_near {S T : Set α} {a b a' b' d tol : α} (hS : Bounds S a b) (hT : Bounds T a' b') (hne : S.Nonempty)
    (h1 : ∀ x ∈ S, ∃ y ∈ T, |y - (x + d)| ≤ tol) (h2 : ∀ y ∈ T, ∃ x ∈ S, |y - (x + d)| ≤ tol) :
    |a' - (a + d)| ≤ tol ∧ |b' - (b + d)| ≤ tol := by
  obtain ⟨s, hs⟩ := hne
  obtain ⟨t, ht, _⟩ := h1 s hs
  rcases hS with ⟨e, _⟩ | ⟨la, gb⟩
  · rw [e] at hs; exact absurd hs (by simp)
  rcases hT with ⟨e, _⟩ | ⟨la', gb'⟩
  · rw [e] at ht; exact absurd ht (by simp)
  obtain ⟨p, hp, p1⟩ := h1 a la.1
  obtain ⟨q, hq, q1⟩ := h2 a' la'.1
  obtain ⟨u, hu, u1⟩ := h1 b gb.1
  obtain ⟨v, hv, v1⟩ := h2 b' gb'.1
  have := la.2 hq
  have := la'.2 hp
  have := gb.2 hv
  have := gb'.2 hu
  rw [abs_le] at p1 q1 u1 v1
  rw [abs_le, abs_le]
  refine ⟨⟨?_, ?_⟩, ?_, ?_⟩ <;> linarith [p1.1, p1.2, q1.1, q1.2, u1.1, u1.2, v1.1, v1.2]

theorem load_filament {env : Env α} {data : List Str} {home : Home α} {g : GCode α} (h : GCode.load env data false home = .ok g)
    (hd : data ≠ []) : g.filamentLength = some g.m.maxE := by
  rcases load_ok h with ⟨rfl, _⟩ | ⟨_, s, hs, rfl⟩
  · exact absurd rfl hd
  · rfl

/-- **C112 (partial).**  Load a program, translate it, write it and load what was written: the analysis of the second program shows
the filament of the first, and the bounding box of the first displaced by the requested amounts, within half a thousandth of a
millimetre on each side; width and depth are the same within a thousandth.  The program is in millimetres, states its distance
mode, has no `G92`, uses filament, and only after both axes have been named by absolute moves; its E words have at most five
decimals, and the written text can be read (C110: the only error is a feed rate that is rounded to 0). -/
theorem C112_box_partial {env : Env α} {data : List Str} {home : Home α} {g : GCode α} (h : GCode.load env data false home = .ok g)
    (hc : ∀ l ∈ g.lines, CommandFirst l.raw ∧ HomingClear (α := α) l.raw) (hn : ∀ s ∈ data, '\n' ∉ strip s)
    (h20 : ∀ l ∈ g.lines, ¬ HasCmd l c!"G20") (h92 : ∀ l ∈ g.lines, ¬ HasCmd l c!"G92") (hm : ModeStated g.lines)
    (h5 : FiveDecimals g.lines) (hp : PlacedFirst g.lines) {fl : α} (hfl : g.filamentLength = some fl) (hpos : 0 < fl)
    (x y : Option α) (env' : Env α) :
    ∃ g', g.translate x y = .ok g' ∧ ∀ g2, GCode.load env' (readlines g'.write) false home = .ok g2 →
      g2.filamentLength = some fl ∧
      ∃ x0 x1 y0 y1 x0' x1' y0' y1', g.xmin = some x0 ∧ g.xmax = some x1 ∧ g.ymin = some y0 ∧ g.ymax = some y1 ∧
        g2.xmin = some x0' ∧ g2.xmax = some x1' ∧ g2.ymin = some y0' ∧ g2.ymax = some y1' ∧
        |x0' - (x0 + x.getD 0)| ≤ 5 / 10 ^ 4 ∧ |x1' - (x1 + x.getD 0)| ≤ 5 / 10 ^ 4 ∧
        |y0' - (y0 + y.getD 0)| ≤ 5 / 10 ^ 4 ∧ |y1' - (y1 + y.getD 0)| ≤ 5 / 10 ^ 4 ∧
        g2.width = some (x1' - x0') ∧ g2.depth = some (y1' - y0') ∧ |(x1' - x0') - (x1 - x0)| ≤ 1 / 1000 ∧ |(y1' - y0') - (y1 - y0)| ≤ 1 / 1000 := by
  obtain ⟨g', ht, hw⟩ := C27_written_partial h hc h20 h92 hm x y
  refine ⟨g', ht, ?_⟩
  intro g2 hg2
  have hfl1 : g.lines = program g := (load_indexed h).flat
  have hfl2 : g2.lines = program g2 := (load_indexed hg2).flat
  obtain ⟨g'', ht', _, hprog⟩ := translate_program g x y
  rw [ht] at ht'
  obtain rfl : g' = g'' := Except.ok.inj ht'
  rw [← hfl1] at hprog
  have hd : data ≠ [] := by
    rintro rfl
    rcases load_ok h with ⟨_, rfl⟩ | ⟨k, _⟩
    · simp [GCode.blank] at hfl
    · exact absurd rfl k
  -- the lines of the second program
  have hn' : ∀ l ∈ g.lines, '\n' ∉ l.raw := by
    have hraw := load_raws h
    intro l hl
    have : l.raw ∈ (data.map strip).filter (fun s => !s.isEmpty) := by rw [← hraw]; exact List.mem_map_of_mem hl
    rw [List.mem_filter, List.mem_map] at this
    obtain ⟨⟨s, hs, he⟩, _⟩ := this
    rw [← he]; exact hn s hs
  have hsv : ∀ l ∈ program g', Saves l := by
    rw [hprog]
    exact scan_inv (transLine_inv saves_stable) g.lines _ (saves_loaded h h20 hn')
  have hwr : g'.write = (program g').flatMap (fun l => l.raw ++ ['\n']) := by unfold GCode.write GCode.allLines; rw [program_def]
  have hraws : g2.lines.map (·.raw) = (program g').map (·.raw) := by
    have hg3 := hg2
    rw [hwr] at hg3
    rcases load_saves env' home (program g') hsv with he | ⟨g3, h1, h2⟩
    · rw [hg3] at he; cases he
    · rw [hg3] at h1
      obtain rfl := Except.ok.inj h1
      exact raws_same h2
  have hc2 : ∀ l ∈ g2.lines, CommandFirst l.raw ∧ HomingClear (α := α) l.raw := by
    intro l hl
    have : l.raw ∈ (program g').map (·.raw) := by rw [← hraws]; exact List.mem_map_of_mem hl
    obtain ⟨k, hk, e⟩ := List.mem_map.1 this
    rw [← e]
    rw [hprog] at hk
    obtain ⟨s, l0, hl0, rfl⟩ := scan_of_mem g.lines _ hk
    rcases transLine_cases s l0 with q | ⟨k, q, _, _, q3⟩
    · rw [q]; exact hc l0 hl0
    · rw [q]; exact rebuilt_first q3
  -- the same lines extrude
  obtain ⟨out, hr, ho⟩ := load_run' h
  rw [← ho rfl] at hr
  obtain ⟨out2, hr2, ho2⟩ := load_run' hg2
  rw [← ho2 rfl, hraws, hprog] at hr2
  obtain ⟨sf, flags⟩ := run_shown g.lines hr hr2 ⟨rfl, rfl, rfl, rfl, rfl⟩ rfl rfl h20 h5
  have hmax : g.m.maxE = fl := by
    have := load_filament h hd
    rw [hfl] at this
    exact (Option.some.inj this).symm
  obtain ⟨lx, hlx, hlx1, hlx2⟩ : ∃ l ∈ g.lines, l.isMove = true ∧ l.extruding = some true := by
    rcases run_extrudes hr (le_refl _) with q | q
    · rw [hmax] at q
      rw [q] at hpos
      exact absurd hpos (lt_irrefl _)
    · exact q
  have hd2 : readlines g'.write ≠ [] := by
    intro e
    rcases load_ok hg2 with ⟨_, rfl⟩ | ⟨k, _⟩
    · have : g.lines = [] := by
        have := flags.length_eq
        simp only [GCode.blank, List.length_nil, List.length_eq_zero_iff] at this
        exact this
      rw [this] at hlx; cases hlx
    · exact k e
  have hfl' := load_filament hg2 hd2
  rw [sf.mx, hmax] at hfl'
  refine ⟨hfl', ?_⟩
  -- where they end
  have place : ∀ pre l post pre' l' post', g.lines = pre ++ l :: post → g2.lines = pre' ++ l' :: post' → pre'.length = pre.length →
      l.isMove = true → l.extruding = some true → SameFlags l l' → ∃ a b a' b', l.currentX = some a ∧ l.currentY = some b ∧
      l'.currentX = some a' ∧ l'.currentY = some b' ∧ |a' - (a + x.getD 0)| ≤ 5 / 10 ^ 4 ∧ |b' - (b + y.getD 0)| ≤ 5 / 10 ^ 4 := by
    intro pre l post pre' l' post' e1 e2 elen k1 k2 k3
    have isM : ∀ {g : GCode α} {data : List Str} {env : Env α}, GCode.load env data false home = .ok g → ∀ l ∈ g.lines, l.isMove = true → IsMove l := by
      intro g data env hg l hl k
      obtain ⟨out, hr, ho⟩ := load_run' hg
      rw [ho rfl] at hl
      obtain ⟨l0, m, m', _, hpl⟩ := run_mem hr hl
      obtain ⟨_, hcmd, him⟩ := processLine_keeps hpl
      rw [split_isMove] at him
      have himv : l.isMove = true ↔ IsMove l := by rw [him, inMoves_iff, isMove_congr hcmd]
      exact himv.1 k
    obtain ⟨a1, a2⟩ := load_stampedMoves h hc pre l post (by rw [← hfl1]; exact e1) (isM h l (by rw [e1]; simp) k1)
    obtain ⟨b1, b2⟩ := load_stampedMoves hg2 hc2 pre' l' post' (by rw [← hfl2]; exact e2) (isM hg2 l' (by rw [e2]; simp) (k3.1.trans k1))
    have t1 : g.lines.take (pre.length + 1) = pre ++ [l] := by
      rw [e1, show pre ++ l :: post = (pre ++ [l]) ++ post by simp, List.take_left' (by simp)]
    have t2 : g2.lines.take (pre.length + 1) = pre' ++ [l'] := by
      rw [e2, show pre' ++ l' :: post' = (pre' ++ [l']) ++ post' by simp, List.take_left' (by simp [elen])]
    obtain ⟨t, q1, q2⟩ := hw (pre.length + 1)
    obtain ⟨t', p1, p2, p3⟩ := hp pre l post e1 k1 k2
    rw [t1, p1] at q1
    obtain rfl := Option.some.inj q1
    rw [p2, p3] at q2
    simp only [if_true] at q2
    have x1 := load_exec h hc (pre.length + 1)
    have x2 := load_exec hg2 hc2 (pre.length + 1)
    rw [t1] at x1
    rw [t2] at x2
    have r2 : (pre' ++ [l']).map (·.raw) = ((program g').take (pre.length + 1)).map (·.raw) := by
      rw [← t2, List.map_take, List.map_take, hraws]
    rw [r2] at x2
    rw [t1, ← x1, ← x2] at q2
    exact ⟨_, _, _, _, a1, a2, b1, b2, q2.1, q2.2.1⟩
  obtain ⟨_, fl1, x0, x1, y0, y1, c1, c2, c3, c4, c5, _, _, c8, _⟩ := C23_bounding_box h hd
  obtain ⟨_, fl2, x0', x1', y0', y1', d1, d2, d3, d4, d5, d6, d7, d8, _⟩ := C23_bounding_box hg2 hd2
  rw [hfl] at c1
  rw [hfl'] at d1
  obtain rfl := Option.some.inj c1
  obtain rfl := Option.some.inj d1
  obtain ⟨bx, bY⟩ := c8 hpos
  obtain ⟨bx', bY'⟩ := d8 hpos
  have there : ∀ l ∈ g.lines, l.isMove = true → l.extruding = some true → ∃ l' ∈ g2.lines, (l'.isMove = true ∧ l'.extruding = some true) ∧ ∃ a b a' b',
      l.currentX = some a ∧ l.currentY = some b ∧
      l'.currentX = some a' ∧ l'.currentY = some b' ∧ |a' - (a + x.getD 0)| ≤ 5 / 10 ^ 4 ∧ |b' - (b + y.getD 0)| ≤ 5 / 10 ^ 4 := by
    intro l hl k1 k2
    obtain ⟨pre, post, e1⟩ := List.append_of_mem hl
    have fl' := flags
    rw [e1] at fl'
    obtain ⟨pre', l', post', e2, elen, r⟩ := forall2_split fl'
    exact ⟨l', by rw [e2]; simp, ⟨r.1.trans k1, r.2.trans k2⟩, place pre l post pre' l' post' e1 e2 elen k1 k2 r⟩
  have back : ∀ l' ∈ g2.lines, l'.isMove = true → l'.extruding = some true → ∃ l ∈ g.lines, (l.isMove = true ∧ l.extruding = some true) ∧ ∃ a b a' b',
      l.currentX = some a ∧ l.currentY = some b ∧
      l'.currentX = some a' ∧ l'.currentY = some b' ∧ |a' - (a + x.getD 0)| ≤ 5 / 10 ^ 4 ∧ |b' - (b + y.getD 0)| ≤ 5 / 10 ^ 4 := by
    intro l' hl k1 k2
    obtain ⟨pre', post', e2⟩ := List.append_of_mem hl
    have fl' := flags.flip
    rw [e2] at fl'
    obtain ⟨pre, l, post, e1, elen, r⟩ := forall2_split fl'
    exact ⟨l, by rw [e1]; simp, ⟨r.1.symm.trans k1, r.2.symm.trans k2⟩,
      place pre l post pre' l' post' e1 e2 elen.symm (r.1.symm.trans k1) (r.2.symm.trans k2) r⟩
  obtain ⟨_, _, _, ax, bY0, _, _, ax1, by1, _⟩ := there lx hlx hlx1 hlx2
  have nx := bounds_near (d := x.getD 0) (tol := 5 / 10 ^ 4) bx bx' ⟨ax, lx, hlx, ⟨hlx1, hlx2⟩, ax1⟩
    (by
      rintro v ⟨l, hl, ⟨k1, k2⟩, hv⟩
      obtain ⟨l', hl', k', a, b, a', b', u1, u2, u3, u4, u5, u6⟩ := there l hl k1 k2
      rw [hv] at u1
      obtain rfl := Option.some.inj u1
      exact ⟨a', ⟨l', hl', k', u3⟩, u5⟩)
    (by
      rintro v ⟨l, hl, ⟨k1, k2⟩, hv⟩
      obtain ⟨l', hl', k', a, b, a', b', u1, u2, u3, u4, u5, u6⟩ := back l hl k1 k2
      rw [hv] at u3
      obtain rfl := Option.some.inj u3
      exact ⟨a, ⟨l', hl', k', u1⟩, u5⟩)
  have ny := bounds_near (d := y.getD 0) (tol := 5 / 10 ^ 4) bY bY' ⟨bY0, lx, hlx, ⟨hlx1, hlx2⟩, by1⟩
    (by
      rintro v ⟨l, hl, ⟨k1, k2⟩, hv⟩
      obtain ⟨l', hl', k', a, b, a', b', u1, u2, u3, u4, u5, u6⟩ := there l hl k1 k2
      rw [hv] at u2
      obtain rfl := Option.some.inj u2
      exact ⟨b', ⟨l', hl', k', u4⟩, u6⟩)
    (by
      rintro v ⟨l, hl, ⟨k1, k2⟩, hv⟩
      obtain ⟨l', hl', k', a, b, a', b', u1, u2, u3, u4, u5, u6⟩ := back l hl k1 k2
      rw [hv] at u4
      obtain rfl := Option.some.inj u4
      exact ⟨b, ⟨l', hl', k', u2⟩, u6⟩)
  refine ⟨x0, x1, y0, y1, x0', x1', y0', y1', c2, c3, c4, c5, d2, d3, d4, d5, nx.1, nx.2, ny.1, ny.2, d6, d7, ?_, ?_⟩
  · have a := abs_le.1 nx.1
    have b := abs_le.1 nx.2
    rw [abs_le]
    constructor <;> linarith [a.1, a.2, b.1, b.2]
  · have a := abs_le.1 ny.1
    have b := abs_le.1 ny.2
    rw [abs_le]
    constructor <;> linarith [a.1, a.2, b.1, b.2]

/-- The box as a user sees it. -/
def boxOf (g : GCode ℚ) : List (Option ℚ) := [g.filamentLength, g.xmin, g.xmax, g.ymin, g.ymax, g.width, g.depth]

/-- A program meeting the conditions: the box moves by (5, -2), and one side is rounded by 0.0004. -/
example : boxOf (loadQ plainSample) = [some 3, some 10, some 11, some (10004 / 10000), some 10, some 1, some (89996 / 10000)] ∧
    boxOf (againQ (transQ (loadQ plainSample) 5 (-2))) = [some 3, some 15, some 16, some (-1), some 8, some 1, some 9] ∧
    GCode.load qEnv (readlines (transQ (loadQ plainSample) 5 (-2)).write) = .ok (againQ (transQ (loadQ plainSample) 5 (-2))) := by decide +kernel

example : FiveDecimals (loadQ plainSample).lines := by
  have h : ∀ l ∈ (loadQ plainSample).lines, l.e = none ∨ l.e = some 1 ∨ l.e = some 3 := by decide +kernel
  intro l hl e he
  rcases h l hl with k | k | k
  · rw [k] at he; cases he
  · rw [k] at he; cases he; exact ⟨100000, by norm_num⟩
  · rw [k] at he; cases he; exact ⟨300000, by norm_num⟩

/-- Whether the axes are placed whenever a move pushes filament, decided line by line. -/
theorem placedFirst_of {ls : List (PyLine ℚ)} (h : ∀ i : Fin ls.length, ls[i].isMove = true → ls[i].extruding = some true →
    (({} : TrackSt).run (ls.take (i + 1))).any (fun t => t.x.isPlaced && t.y.isPlaced) = true) : PlacedFirst ls := by
  intro pre l post he h1 h2
  have hi : pre.length < ls.length := by rw [he]; simp
  have hl : ls[pre.length] = l := by simp [he]
  have := h ⟨pre.length, hi⟩ (by simpa [hl] using h1) (by simpa [hl] using h2)
  have ht : ls.take (pre.length + 1) = pre ++ [l] := by
    rw [he, show pre ++ l :: post = (pre ++ [l]) ++ post by simp, List.take_left' (by simp)]
  simp only [ht] at this
  cases hr : ({} : TrackSt).run (pre ++ [l]) with
  | none => rw [hr] at this; simp at this
  | some t => rw [hr] at this; exact ⟨t, rfl, by simpa using this⟩

example : PlacedFirst (loadQ plainSample).lines := placedFirst_of (by decide +kernel)

/-- Primed before the first X/Y move; a trace of filament; the extruder re-labelled; no distance mode. -/
def boxPrimed : List Str := [c!"G90", c!"G1 E1", c!"G1 X10 Y10", c!"G1 X20 Y10 E2"]
def boxTrace : List Str := [c!"G90", c!"G1 X10 Y10", c!"G1 X10 Y20 E0.000004", c!"G1 X30 Y10"]
def boxReset : List Str := [c!"G90", c!"G1 X10 Y10", c!"G92 E0", c!"G1 X20 Y20 E1"]
def boxUnstated : List Str := [c!"G1 X10 Y10", c!"G1 X20 Y20 E1"]

/-- **C112, refuted** in general: filament pushed before the first X/Y move stays at the origin, so that the box grows instead of
moving; filament below 0.000005 disappears in the written text, and the box with it; after a `G92 E0` that follows an absolute move
the object is at another place altogether (20 away instead of 5); a program that does not state its distance mode is not moved. -/
theorem C112_refuted :
    (boxOf (loadQ boxPrimed) = [some 2, some 0, some 20, some 0, some 10, some 20, some 10] ∧
      boxOf (againQ (transQ (loadQ boxPrimed) 5 5)) = [some 2, some 0, some 25, some 0, some 15, some 25, some 15]) ∧
    ((loadQ boxTrace).width = some 0 ∧ (againQ (transQ (loadQ boxTrace) 5 5)).width = some 20) ∧
    ((loadQ boxReset).xmin = some 20 ∧ (againQ (transQ (loadQ boxReset) 5 5)).xmin = some 40) ∧
    ((loadQ boxUnstated).xmin = some 20 ∧ (againQ (transQ (loadQ boxUnstated) 5 5)).xmin = some 20) := by
  decide +kernel

/-- C112: the analysis of the program in memory is not touched by the translation: it describes the untranslated program until the
program is written and read again. -/
theorem C112_stale (g : GCode α) (x y : Option α) : ∃ g', g.translate x y = .ok g' ∧
    (g'.xmin, g'.xmax, g'.ymin, g'.ymax, g'.width, g'.depth) = (g.xmin, g.xmax, g.ymin, g.ymax, g.width, g.depth) := by
  obtain ⟨g', h1, h2, _⟩ := translate_program g x y
  refine ⟨g', h1, ?_⟩
  rw [h2]

example : boxOf (transQ (loadQ plainSample) 5 (-2)) = boxOf (loadQ plainSample) ∧
    boxOf (againQ (transQ (loadQ plainSample) 5 (-2))) ≠ boxOf (loadQ plainSample) := by decide +kernel

end GCodeUtils
