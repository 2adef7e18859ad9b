import Verif.Props.CuraEnds
import Verif.Props.Neighbour

/-
  C64: the Slic3r filter ends on programs whose loops begin and end with X/Y moves.
-/

set_option linter.unusedSectionVars false

namespace GCodeUtils

open Spec

variable {α : Type} [Field α] [LinearOrder α] [IsStrictOrderedRing α] [FloorRing α]

/-- A layer on which the walks from X/Y moves in loops end, whichever lines have been read again. -/
structure EndingLayer (sqrt : α → α) (fuel : ℕ) (kf kb : ItKind) (ls : List (PyLine α)) : Prop where
  closed : loopAt ls = none
  ends : ∀ cur, ReadAgain ls cur → ∀ n l, ls[n]? = some l → XYMove l → loopAt (ls.take (n + 1)) ≠ none →
    ∀ (d : StretchDist α) (old : Option (Vec3 α)) (tmax : α) (loc : Cx α), displacement sqrt fuel d old kf kb cur n tmax loc ≠ .error .outOfFuel
  again : ∀ l ∈ ls, XYMove l → ∀ l', reparse l = .ok l' → XYMove l'

theorem parseLine_ends {sqrt : α → α} {fuel : ℕ} {kf kb : ItKind} {ls : List (PyLine α)} {n : ℕ} {l : PyLine α} {st : StretchSt α} {k : Option LoopKind} (hk : st.isLoop = k.isSome)
    (hw : XYMove l → loopStep k l ≠ none → ∀ (d : StretchDist α) (old : Option (Vec3 α)) (tmax : α) (loc : Cx α),
      displacement sqrt fuel d old kf kb ls n tmax loc ≠ .error .outOfFuel) :
    stretchParseLine sqrt fuel kf kb ls n st l ≠ .error .outOfFuel ∧
    ∀ st' r same, stretchParseLine sqrt fuel kf kb ls n st l = .ok (st', r, same) → st'.isLoop = (loopStep k l).isSome ∧ (same = true → r = l) := by
  unfold stretchParseLine
  obtain ⟨h1, h1'⟩ := loopSwitch_whole st l hk
  cases e1 : loopSwitch st l with
  | error er => rw [e1] at h1; exact ⟨by simpa using h1, fun _ _ _ h => by cases h⟩
  | ok st1 =>
    have hs := h1' st1 e1
    simp only
    by_cases hx : (isXYMove l && st1.isLoop) = true
    · rw [if_pos hx]
      obtain ⟨hx1, hx2⟩ := Bool.and_eq_true_iff.1 hx
      have w := hw ((isXYMove_iff l).1 hx1) (by rw [hs] at hx2; intro hc; rw [hc] at hx2; cases hx2)
      unfold stretchLine
      simp only
      split_ifs
      all_goals first
        | exact ⟨by simp, fun _ _ _ h => by cases h; exact ⟨hs, fun _ => rfl⟩⟩
        | skip
      all_goals
        cases hd : st1.dist with
        | none => exact ⟨by simp, fun _ _ _ h => by cases h⟩
        | some d =>
          simp only
          unfold stretchedLine
          simp only [bind, Except.bind]
          have h2 := w d (some (locationFromLine st1.old l)) st1.tmax
            ⟨(locationFromLine st1.old l).x, (locationFromLine st1.old l).y⟩
          cases e2 : displacement sqrt fuel d (some (locationFromLine st1.old l)) kf kb ls n st1.tmax
            ⟨(locationFromLine st1.old l).x, (locationFromLine st1.old l).y⟩ with
          | error er => rw [e2] at h2; exact ⟨by simpa using h2, fun _ _ _ h => by cases h⟩
          | ok a => exact ⟨by simp, fun _ _ _ h => by cases h; exact ⟨hs, fun h => by cases h⟩⟩
    · rw [if_neg hx]
      exact ⟨by simp, fun _ _ _ h => by cases h; exact ⟨hs, fun _ => rfl⟩⟩

theorem layer_ends {sqrt : α → α} {fuel : ℕ} {kf kb : ItKind} {ls : List (PyLine α)} (hl : EndingLayer sqrt fuel kf kb ls) :
    ∀ (todo : List (PyLine α)) (st : StretchSt α) (cur : List (PyLine α)) (n : ℕ), ls.drop n = todo → ReadAgain ls cur →
    st.isLoop = (loopAt (ls.take n)).isSome →
    stretchLayer sqrt fuel kf kb st cur n todo ≠ .error .outOfFuel ∧
    ∀ st' out, stretchLayer sqrt fuel kf kb st cur n todo = .ok (st', out) → st'.isLoop = false := by
  intro todo
  induction todo with
  | nil =>
    intro st cur n hd hr hk
    refine ⟨by simp [stretchLayer], fun st' out h => ?_⟩
    rw [stretchLayer] at h
    cases h
    rw [hk, List.take_of_length_le (List.drop_eq_nil_iff.1 hd), hl.closed]
    rfl
  | cons l rest ih =>
    intro st cur n hd hr hk
    have hn : ls[n]? = some l := by
      have : (ls.drop n)[0]? = some l := by rw [hd]; rfl
      rwa [List.getElem?_drop, Nat.add_zero] at this
    have hlt : n < ls.length := (List.getElem?_eq_some_iff.1 hn).1
    have hlen := List.Forall₂.length_eq hr
    have hstep : loopAt (ls.take (n + 1)) = loopStep (loopAt (ls.take n)) l := by
      rw [List.take_add_one, hn]
      exact loopAt_snoc _ _
    obtain ⟨h1, h1'⟩ := parseLine_ends (sqrt := sqrt) (fuel := fuel) (ls := cur) (n := n) (l := l) hk (fun hx ho => hl.ends cur hr n l hn hx (by rw [hstep]; exact ho))
    rw [stretchLayer]
    cases e1 : stretchParseLine sqrt fuel kf kb cur n st l with
    | error er => rw [e1] at h1; exact ⟨by simpa using h1, fun _ _ h => by cases h⟩
    | ok p =>
      obtain ⟨st1, r, same⟩ := p
      obtain ⟨hs, hsame⟩ := h1' st1 r same e1
      simp only
      have h2 := reparse_fuel r
      cases e2 : reparse r with
      | error er => rw [e2] at h2; exact ⟨by simpa using h2, fun _ _ h => by cases h⟩
      | ok r' =>
        simp only
        have hr' : ReadAgain ls (if same = true then cur.set n r' else cur) := by
          split_ifs with hsm
          · have he := hsame hsm
            subst he
            refine List.forall₂_iff_get.2 ⟨by simpa using hlen, fun i hi hi' => ?_⟩
            simp only [List.get_eq_getElem, List.getElem_set]
            split_ifs with hin
            · subst hin
              have e : ls[n] = r := (List.getElem?_eq_some_iff.1 hn).2
              rw [e]
              exact ⟨reparse_raw e2, fun hx => hl.again r (List.mem_of_getElem? hn) hx r' e2⟩
            · exact (List.forall₂_iff_get.1 hr).2 i hi (by omega)
          · exact hr
        obtain ⟨h3, h3'⟩ := ih st1 (if same = true then cur.set n r' else cur) (n + 1) (by rw [← List.drop_drop, hd]; rfl) hr' (by rw [hs, hstep])
        cases e3 : stretchLayer sqrt fuel kf kb st1 (if same = true then cur.set n r' else cur) (n + 1) rest with
        | error er => rw [e3] at h3; exact ⟨by simpa using h3, fun _ _ h => by cases h⟩
        | ok q =>
          obtain ⟨st2, out⟩ := q
          exact ⟨by simp, fun _ _ h => by cases h; exact h3' _ _ e3⟩

theorem layers_ends {sqrt : α → α} {fuel : ℕ} {kf kb : ItKind} : ∀ (Ls : List (Layer α)) (st : StretchSt α), st.isLoop = false →
    (∀ L ∈ Ls, EndingLayer sqrt fuel kf kb L.lines) → stretchLayers sqrt fuel kf kb st Ls ≠ .error .outOfFuel := by
  intro Ls
  induction Ls with
  | nil => intro st _ _; simp [stretchLayers]
  | cons L rest ih =>
    intro st hst h
    rw [stretchLayers]
    obtain ⟨h1, h1'⟩ := layer_ends (sqrt := sqrt) (h L (by simp)) L.lines st L.lines 0 rfl
      (List.forall₂_same.2 (fun _ _ => ⟨rfl, id⟩)) (by rw [hst]; rfl)
    cases e1 : stretchLayer sqrt fuel kf kb st L.lines 0 L.lines with
    | error er => rw [e1] at h1; simpa using h1
    | ok p =>
      obtain ⟨st', ls⟩ := p
      simp only
      have h2 := ih st' (h1' _ _ e1) (fun L' hL' => h L' (List.mem_cons_of_mem _ hL'))
      cases e2 : stretchLayers sqrt fuel kf kb st' rest with
      | error er => rw [e2] at h2; simpa using h2
      | ok q => simp

/-! ### Slic3r -/

/-- A walk along finitely many lines ends. -/
theorem relLoop_yields {sqrt : α → α} {fuel : ℕ} {d : StretchDist α} {old : Option (Vec3 α)} {kind : ItKind} {ls : List (PyLine α)} {loc : Cx α}
    (hf : ∀ st, getNext fuel kind ls st ≠ .error .outOfFuel) {st : ItSt} {out : List (PyLine α)} (hy : Yields kind ls st out) :
    ∀ (n : ℕ) (last point : Cx α) (ot total : α), out.length < n → relStretchLoop sqrt fuel d old kind ls loc n st last ot point total ≠ .error .outOfFuel := by
  induction hy with
  | @stop st hg =>
    intro n last point ot total hn
    cases n with
    | zero => simp at hn
    | succ n =>
      rw [relStretchLoop, gets_at hg (hf st)]
      simp only
      split_ifs
      · exact div_fuel _ _
      · simp
  | @more st l st' out hg _ ih =>
    intro n last point ot total hn
    cases n with
    | zero => simp at hn
    | succ n =>
      rw [relStretchLoop, gets_at hg (hf st)]
      simp only
      split_ifs
      · simp
      · exact div_fuel _ _
      · exact ih n _ _ _ _ (by simp only [List.length_cons] at hn; omega)

theorem cross_fuel_of {sqrt : α → α} {fuel : ℕ} {d : StretchDist α} {old : Option (Vec3 α)} {kind : ItKind} {ls : List (PyLine α)}
    (hf : ∀ st, getNext fuel kind ls st ≠ .error .outOfFuel) (start : ℤ) (loc s : Cx α) :
    crossLimited sqrt fuel d old kind ls start loc s ≠ .error .outOfFuel := by
  have h1 := hf { idx := start }
  unfold crossLimited
  cases hg : getNext fuel kind ls { idx := start } with
  | error er =>
    rw [hg] at h1
    cases er <;> simp only
    case stopIteration => simp
    all_goals first | exact absurd rfl h1 | simp
  | ok p =>
    obtain ⟨l, st'⟩ := p
    simp only
    split_ifs
    · simp
    all_goals
      have hd := div_fuel (loc.sub (pointOf old l)) ((loc.sub (pointOf old l)).abs sqrt)
      cases hdv : (loc.sub (pointOf old l)).div ((loc.sub (pointOf old l)).abs sqrt) with
      | error er => rw [hdv] at hd; simpa using hd
      | ok v => simp

theorem displacement_yields {sqrt : α → α} {fuel : ℕ} {d : StretchDist α} {old : Option (Vec3 α)} {kf kb : ItKind} {ls : List (PyLine α)} {n : ℕ}
    (hf : ∀ st, getNext fuel kf ls st ≠ .error .outOfFuel) (hb : ∀ st, getNext fuel kb ls st ≠ .error .outOfFuel) {A B : List (PyLine α)}
    (hA : Yields kf ls { idx := (n : ℤ) + 1 } A) (hB : Yields kb ls { idx := (n : ℤ) - 1 } B) (lA : A.length < fuel) (lB : B.length < fuel) (tmax : α) (loc : Cx α) :
    displacement sqrt fuel d old kf kb ls n tmax loc ≠ .error .outOfFuel := by
  unfold displacement
  have h1 : relStretch sqrt fuel d old kf ls ((n : ℤ) + 1) loc ≠ .error .outOfFuel := relLoop_yields hf hA _ _ _ _ _ lA
  have h2 : relStretch sqrt fuel d old kb ls ((n : ℤ) - 1) loc ≠ .error .outOfFuel := relLoop_yields hb hB _ _ _ _ _ lB
  cases e1 : relStretch sqrt fuel d old kf ls ((n : ℤ) + 1) loc with
  | error er => rw [e1] at h1; simpa [bind, Except.bind] using h1
  | ok a =>
    cases e2 : relStretch sqrt fuel d old kb ls ((n : ℤ) - 1) loc with
    | error er => rw [e2] at h2; simpa [bind, Except.bind] using h2
    | ok b =>
      simp only [bind, Except.bind]
      have h3 := cross_fuel_of (sqrt := sqrt) (d := d) (old := old) hf ((n : ℤ) + 1) loc (Cx.smul (8 / 10) (a.add b))
      cases e3 : crossLimited sqrt fuel d old kf ls ((n : ℤ) + 1) loc (Cx.smul (8 / 10) (a.add b)) with
      | error er => rw [e3] at h3; simpa using h3
      | ok s =>
        simp only
        have h4 := cross_fuel_of (sqrt := sqrt) (d := d) (old := old) hb ((n : ℤ) - 1) loc s
        cases e4 : crossLimited sqrt fuel d old kb ls ((n : ℤ) - 1) loc s with
        | error er => rw [e4] at h4; simpa using h4
        | ok s =>
          simp only
          split_ifs
          · have := div_fuel s (s.abs sqrt)
            cases e5 : s.div (s.abs sqrt) with
            | error er => rw [e5] at this; simpa using this
            | ok v => simp
          · simp

theorem movesIn_length (ls : List (PyLine α)) (i j : ℕ) : (movesIn ls i j).length ≤ ls.length := by
  unfold movesIn
  refine (List.length_filter_le _ _).trans ?_
  simp only [List.length_drop, List.length_take]
  omega

theorem readAgain_point {ls cur : List (PyLine α)} (h : ReadAgain ls cur) {i : ℕ} (hp : IsPoint ls i) : IsPoint cur i := by
  obtain ⟨l, hl, hx, ho⟩ := hp
  obtain ⟨l', h1, h2, h3⟩ := readAgain_at h hl
  exact ⟨l', h1, h3 hx, by rw [h2]; exact ho⟩

theorem readAgain_slic3r {ls cur : List (PyLine α)} (h : ReadAgain ls cur) {s o : ℕ} (hw : Slic3rLoop ls s o) : Slic3rLoop cur s o where
  lt := hw.lt
  first := by
    obtain ⟨l, hl, hx, hm⟩ := hw.first
    obtain ⟨l', h1, h2, h3⟩ := readAgain_at h hl
    exact ⟨l', h1, h3 hx, by rw [h2]; exact hm⟩
  last := by
    obtain ⟨l, hl, hx⟩ := hw.last
    obtain ⟨l', h1, _, h3⟩ := readAgain_at h hl
    exact ⟨l', h1, h3 hx⟩
  off := (readAgain_mark h _ _).2 hw.off
  noStart i l h1 h2 hl hm := by
    obtain ⟨l0, hl0, hm0⟩ := (readAgain_mark h _ i).1 ⟨l, hl, hm⟩
    exact hw.noStart i l0 h1 h2 hl0 hm0
  noOff i l h1 h2 hl hm := by
    obtain ⟨l0, hl0, hm0⟩ := (readAgain_mark h _ i).1 ⟨l, hl, hm⟩
    exact hw.noOff i l0 h1 h2 hl0 hm0

theorem slic3r_ending {sqrt : α → α} {fuel : ℕ} {ls : List (PyLine α)} (hc : loopAt ls = none) (hA : PointsAfter c!"stretch-loop-start" ls) (hB : PointsBetween ls)
    (hw : ∀ n l, ls[n]? = some l → XYMove l → loopAt (ls.take (n + 1)) ≠ none → ∃ s o, Slic3rLoop ls s o ∧ s ≤ n ∧ n < o)
    (ha : ∀ l ∈ ls, XYMove l → ∀ l', reparse l = .ok l' → XYMove l') (hf : 2 * ls.length + 3 ≤ fuel) : EndingLayer sqrt fuel .fwd .bwd ls where
  closed := hc
  again := ha
  ends cur hr n l hn hx ho d old tmax loc := by
    obtain ⟨s, o, w, q1, q2⟩ := hw n l hn hx ho
    obtain ⟨l', h1, _, h3⟩ := readAgain_at hr hn
    have hlen := List.Forall₂.length_eq hr
    have w' := readAgain_slic3r hr w
    have hA' : PointsAfter c!"stretch-loop-start" cur := by
      intro p q hpq hp hq hno
      obtain ⟨m, m1, m2, m3⟩ := hA p q hpq ((readAgain_mark hr _ _).1 hp) ((readAgain_mark hr _ _).1 hq) (fun r r1 r2 k => hno r r1 r2 ((readAgain_mark hr _ _).2 k))
      exact ⟨m, m1, m2, readAgain_point hr m3⟩
    have hB' : PointsBetween cur := by
      intro p q hpq hp hq hno
      obtain ⟨m, m1, m2, m3⟩ := hB p q hpq ((readAgain_mark hr _ _).1 hp) ((readAgain_mark hr _ _).1 hq) (fun r r1 r2 k => hno r r1 r2 ((readAgain_mark hr _ _).2 k))
      exact ⟨m, m1, m2, readAgain_point hr m3⟩
    have f1 : ∀ st, getNext fuel .fwd cur st ≠ .error .outOfFuel := fun st => by
      obtain ⟨r, k1, k2⟩ := C64_slic3r_forward_partial cur hA' st
      rw [k2 fuel (by omega)]; exact k1
    have f2 : ∀ st, getNext fuel .bwd cur st ≠ .error .outOfFuel := fun st => by
      obtain ⟨r, k1, k2⟩ := C64_backward_partial .bwd (.inl rfl) cur hB' st
      rw [k2 fuel (by omega)]; exact k1
    refine displacement_yields f1 f2 (slic3r_ahead w' q1 q2 h1 (h3 hx)) (slic3r_behind w' q1 q2 h1 (h3 hx)) ?_ ?_ tmax loc
    · have e1 := movesIn_length cur (n + 1) o
      have e2 := movesIn_length cur (s + 1) (n + 1)
      unfold slic3rAhead
      rw [List.length_append]
      omega
    · have e1 := movesIn_length cur s n
      have e2 := movesIn_length cur n (o - 1)
      unfold slic3rBehind
      rw [List.length_append, List.length_reverse, List.length_reverse]
      omega

/-- C64, the Slic3r filter on loaded programs in millimetres without nested comments: it ends if, with the marks, no loop is open at the end of a layer, the loops that
X/Y moves belong to begin and end with X/Y moves and are followed by a line that switches extrusion off, and points lie between the marks. Missing: other
programs, for which it is false (`C64_refuted`). -/
theorem C64_slic3r_loaded_partial {env : Env α} {data : List Str} {home : Home α} {g : GCode α} (h : GCode.load env data false home = .ok g)
    (h20 : ∀ l ∈ g.lines, ¬ HasCmd l c!"G20") (hn : ∀ l ∈ g.lines, '\n' ∉ l.raw) (hN : ∀ l ∈ g.lines, ¬ Nested l.raw)
    {sqrt : α → α} {repo : StretchRepo α} {profile : ProfileOracle α} {d : Option (StretchDist α)} {Ls : List (Layer α)}
    (hs : setupFilter .slic3r repo profile g.allLayers = .ok (d, Ls)) (hc : ∀ L ∈ Ls, loopAt L.lines = none)
    (hp : ∀ L ∈ Ls, PointsAfter c!"stretch-loop-start" L.lines ∧ PointsBetween L.lines)
    (hw : ∀ L ∈ Ls, ∀ n l, L.lines[n]? = some l → XYMove l → loopAt (L.lines.take (n + 1)) ≠ none → ∃ s o, Slic3rLoop L.lines s o ∧ s ≤ n ∧ n < o)
    {fuel : ℕ} (hf : ∀ L ∈ Ls, 2 * L.lines.length + 3 ≤ fuel) : g.stretch sqrt fuel .slic3r repo profile ≠ .error .outOfFuel := by
  unfold GCode.stretch
  rw [hs]
  simp only [Slicer.forward, Slicer.backward]
  have h3 := layers_ends (sqrt := sqrt) (fuel := fuel) (kf := .fwd) (kb := .bwd) Ls { StretchSt.init with dist := d } rfl (fun L hL =>
    slic3r_ending (hc L hL) (hp L hL).1 (hp L hL).2 (hw L hL) (fun l1 hl1 hx l' hr => by
      obtain ⟨L0, hL0, hsame⟩ := forall₂_source (setupFilter_marked hs) L hL
      obtain ⟨l, hl, hm⟩ := forall₂_source hsame.2 l1 hl1
      have hmem : l ∈ g.lines := by
        rw [show g.lines = program g from (load_indexed h).flat, program_def]
        exact List.mem_flatMap.2 ⟨L0, hL0, hl⟩
      exact marked_again (saves_loaded h h20 hn l hmem) (hN l hmem) hm ((xy_marked hm).1 hx) hr) (hf L hL))
  cases e3 : stretchLayers sqrt fuel .fwd .bwd { StretchSt.init with dist := d } Ls with
  | error er => rw [e3] at h3; simpa using h3
  | ok q => simp

/-! ### the hypotheses are met -/

example : GCode.load qEnv squareS = .ok (loadQ squareS) ∧ (∀ l ∈ (loadQ squareS).lines, ¬ HasCmd l c!"G20") ∧ (∀ l ∈ (loadQ squareS).lines, '\n' ∉ l.raw) ∧
    (setupFilter .slic3r (StretchRepo.default 1) noProfile (loadQ squareS).allLayers).map (·.2) = .ok (marksQ .slic3r 1 squareS) ∧
    (∀ L ∈ marksQ .slic3r 1 squareS, loopAt L.lines = none) ∧ ∀ L ∈ marksQ .slic3r 1 squareS, 2 * L.lines.length + 3 ≤ 19 := by unfold HasCmd; decide +kernel

example : ∀ l ∈ (loadQ squareS).lines, ¬ Nested l.raw := by
  have h : ∀ l ∈ (loadQ squareS).lines, l.raw.head? ≠ some '(' := by decide +kernel
  intro l hl hN
  exact h l hl hN.1

example : ∀ L ∈ marksQ .slic3r 1 squareS, PointsAfter c!"stretch-loop-start" L.lines ∧ PointsBetween L.lines := by
  have h1 : ∀ L ∈ marksQ .slic3r 1 squareS, (∀ p ∈ marksAt c!"stretch-loop-start" L.lines, p = 1) ∧ (∀ q ∈ marksAt c!"stretch-extrusion-off" L.lines, q = 6) ∧
      ((marksAt c!"stretch-loop-start" L.lines) ≠ [] → IsPoint L.lines 2) := by decide +kernel
  intro L hL
  obtain ⟨a, b, c⟩ := h1 L hL
  constructor
  · intro p q hpq hp hq _
    have hp' := (mem_marksAt _ _ _).2 hp
    have e1 := a p hp'
    have e2 := b q ((mem_marksAt _ _ _).2 hq)
    exact ⟨2, by omega, by omega, c (List.ne_nil_of_mem hp')⟩
  · intro p q hpq hp hq _
    have e1 := b p ((mem_marksAt _ _ _).2 hp)
    have e2 := b q ((mem_marksAt _ _ _).2 hq)
    omega

example : ∀ L ∈ marksQ .slic3r 1 squareS, ∀ n l, L.lines[n]? = some l → XYMove l → loopAt (L.lines.take (n + 1)) ≠ none →
    ∃ s o, Slic3rLoop L.lines s o ∧ s ≤ n ∧ n < o := by
  have h2 : ∀ L ∈ marksQ .slic3r 1 squareS, ∀ n ∈ List.range L.lines.length, ∀ l ∈ L.lines[n]?, XYMove l → loopAt (L.lines.take (n + 1)) ≠ none →
      loopCheck c!"stretch-extrusion-off" L.lines 1 6 5 = true ∧ 1 ≤ n ∧ n < 6 := by decide +kernel
  intro L hL n l hn hx ho
  obtain ⟨a, b⟩ := h2 L hL n (List.mem_range.2 (List.getElem?_eq_some_iff.1 hn).1) l hn hx ho
  exact ⟨1, 6, slic3rLoop_of (by decide) a, b⟩

end GCodeUtils
