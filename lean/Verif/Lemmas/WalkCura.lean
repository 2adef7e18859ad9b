import Verif.Lemmas.Walk
import Verif.Lemmas.Stretch

/-
  The Cura iterators stay inside a layer that does not end with a move.
-/

set_option linter.unusedSectionVars false

namespace GCodeUtils

open Spec

variable {α : Type} [Field α] [LinearOrder α] [IsStrictOrderedRing α] [FloorRing α]

/-- Indices from which the Cura iterators can go on. -/
def Inside (kind : ItKind) (lines : List (PyLine α)) (st : ItSt) : Prop :=
  match kind with
  | .curaFwd => 0 ≤ st.idx ∧ st.idx < lines.length
  | .curaBwd => st.idx + 1 < lines.length
  | _ => False

theorem quiet_at {lines : List (PyLine α)} (hq : QuietEnd lines) {i : ℤ} {l : PyLine α} (h : lineAt lines i = some l) (hx : isXYMove l = true) :
    i + 1 < lines.length := by
  obtain ⟨h0, h1, h2⟩ := lineAt_some h
  by_contra hc
  refine hq l ?_ ((isXYMove_iff l).1 hx)
  rw [List.getLast?_eq_getElem?, ← h2]
  congr 1
  omega

theorem resetIndex_kind (kind : ItKind) (lines : List (PyLine α)) (i : ℤ) :
    resetIndex kind lines i = .error .stopIteration ∨ ∃ k, resetIndex kind lines i = .ok k := by
  unfold resetIndex
  simp only
  split
  · exact .inr ⟨_, rfl⟩
  · exact .inl rfl

theorem setup_inside {kind : ItKind} {lines : List (PyLine α)} {st : ItSt} (h : Inside kind lines st) :
    indexSetup kind lines st = .error .stopIteration ∨ ∃ st', indexSetup kind lines st = .ok st' ∧ Inside kind lines st' := by
  cases kind <;> simp only [Inside] at h
  · -- forward
    unfold indexSetup
    simp only
    cases hl : lineAt lines st.idx with
    | none =>
      unfold lineAt at hl
      rw [if_pos h.1] at hl
      have := List.getElem?_eq_none_iff.1 hl
      omega
    | some l =>
      simp only
      by_cases hm : marked loopStopMarker l = true
      · rw [if_pos hm]
        unfold resetIndex
        simp only
        cases hr : searchDown (marked loopStartMarker) lines 0 st.idx.toNat with
        | none => left; rfl
        | some k =>
          obtain ⟨_, _, ⟨l', hl', _⟩, _⟩ := searchDown_spec hr
          right
          refine ⟨⟨(k : ℤ), st.first⟩, rfl, by simp, ?_⟩
          have := (List.getElem?_eq_some_iff.1 hl').1
          simpa using this
      · rw [if_neg hm]
        exact .inr ⟨st, rfl, h⟩
  · -- backward
    have hreset : (resetIndex .curaBwd lines st.idx).map (fun k => ({ st with idx := k } : ItSt)) = .error .stopIteration ∨
        ∃ st', (resetIndex .curaBwd lines st.idx).map (fun k => ({ st with idx := k } : ItSt)) = .ok st' ∧ Inside .curaBwd lines st' := by
      unfold resetIndex
      simp only
      cases hr : searchUp (marked loopStopMarker) lines (st.idx + 1).toNat with
      | none => left; rfl
      | some k =>
        obtain ⟨_, ⟨l', hl', _⟩, _⟩ := searchUp_spec hr
        right
        refine ⟨⟨(k : ℤ) - 1, st.first⟩, rfl, ?_⟩
        have := (List.getElem?_eq_some_iff.1 hl').1
        simp only [Inside]
        omega
    unfold indexSetup
    simp only
    by_cases h0 : st.idx < 0
    · rw [if_pos h0]; exact hreset
    · rw [if_neg h0]
      cases hl : lineAt lines (st.idx + 1) with
      | none =>
        unfold lineAt at hl
        rw [if_pos (by omega)] at hl
        have := List.getElem?_eq_none_iff.1 hl
        omega
      | some l =>
        simp only
        by_cases hm : marked loopStartMarker l = true
        · rw [if_pos hm]; exact hreset
        · rw [if_neg hm]; exact .inr ⟨st, rfl, h⟩

theorem loop_inside {kind : ItKind} {lines : List (PyLine α)} (hq : QuietEnd lines) : ∀ (n : ℕ) {st : ItSt}, kind.stopOnOff = false →
    (kind = .curaBwd → st.idx + 1 < lines.length) →
    getNextLoop kind lines n st ≠ .error .indexError ∧
    ∀ l st', getNextLoop kind lines n st = .ok (l, st') → Inside kind lines st' := by
  intro n
  induction n with
  | zero => intro st _ _; exact ⟨by simp [getNextLoop], fun l st' h => by simp [getNextLoop] at h⟩
  | succ n ih =>
    intro st hk h
    rw [getNextLoop_succ]
    cases hl : lineAt lines st.idx with
    | none => exact ⟨by simp, fun l st' h => by cases h⟩
    | some line =>
      simp only [hk, Bool.and_false, Bool.false_eq_true, if_false]
      obtain ⟨h0, h1, h2⟩ := lineAt_some hl
      by_cases h3 : st.first = some st.idx
      · rw [if_pos h3]
        exact ⟨by simp, fun l st' h => by cases h⟩
      · rw [if_neg h3]
        have hin : kind = .curaBwd → (st.idx + kind.increment) + 1 < lines.length := by
          rintro rfl
          have := h rfl
          simp only [ItKind.increment]
          omega
        by_cases h4 : isXYMove line = true
        · rw [if_pos h4]
          refine ⟨by simp, fun l st' h => ?_⟩
          simp only [Except.ok.injEq, Prod.mk.injEq] at h
          rw [← h.2]
          cases kind <;> simp only [ItKind.stopOnOff, Bool.true_eq_false] at hk
          · have := quiet_at hq hl h4
            simp only [Inside, ItKind.increment]
            omega
          · exact hin rfl
        · rw [if_neg h4]
          exact ih hk hin

theorem next_inside {kind : ItKind} {lines : List (PyLine α)} (hq : QuietEnd lines) {st : ItSt} (h : Inside kind lines st) (fuel : ℕ) :
    getNext fuel kind lines st ≠ .error .indexError ∧
    ∀ l st', getNext fuel kind lines st = .ok (l, st') → Inside kind lines st' := by
  have hk : kind.stopOnOff = false := by cases kind <;> first | rfl | exact absurd h (by simp [Inside])
  unfold getNext
  rcases setup_inside h with he | ⟨st', he, hin⟩
  · rw [he]
    exact ⟨by simp, fun l st' h => by cases h⟩
  · rw [he]
    refine loop_inside hq fuel hk ?_
    rintro rfl
    exact hin

theorem div_index (a : Cx α) (k : α) : a.div k ≠ .error .indexError := by
  unfold Cx.div
  split_ifs <;> simp

theorem rel_inside {sqrt : α → α} {fuel : ℕ} {d : StretchDist α} {old : Option (Vec3 α)} {kind : ItKind} {lines : List (PyLine α)}
    (hq : QuietEnd lines) (loc : Cx α) : ∀ (n : ℕ) {st : ItSt} (last : Cx α) (ot : α) (point : Cx α) (total : α), Inside kind lines st →
    relStretchLoop sqrt fuel d old kind lines loc n st last ot point total ≠ .error .indexError := by
  intro n
  induction n with
  | zero => intro st _ _ _ _ _; simp [relStretchLoop]
  | succ n ih =>
    intro st last ot point total h
    obtain ⟨h1, h2⟩ := next_inside hq h fuel
    rw [relStretchLoop]
    cases hg : getNext fuel kind lines st with
    | error er =>
      rw [hg] at h1
      cases er <;> simp only
      case stopIteration =>
        split_ifs
        · exact div_index _ _
        · simp
      all_goals first | exact absurd rfl h1 | simp
    | ok p =>
      obtain ⟨l, st'⟩ := p
      simp only
      split_ifs
      · simp
      · exact div_index _ _
      · exact ih _ _ _ _ (h2 l st' hg)

theorem cross_inside {sqrt : α → α} {fuel : ℕ} {d : StretchDist α} {old : Option (Vec3 α)} {kind : ItKind} {lines : List (PyLine α)}
    (hq : QuietEnd lines) {start : ℤ} (loc s : Cx α) (h : Inside kind lines { idx := start }) :
    crossLimited sqrt fuel d old kind lines start loc s ≠ .error .indexError := by
  obtain ⟨h1, _⟩ := next_inside hq h fuel
  unfold crossLimited
  cases hg : getNext fuel kind lines { idx := start } with
  | error er =>
    rw [hg] at h1
    cases er <;> simp only
    case stopIteration => simp
    all_goals first | exact absurd rfl h1 | simp
  | ok p =>
    obtain ⟨l, st'⟩ := p
    simp only
    split_ifs
    · simp
    all_goals
      have hd := div_index (loc.sub (pointOf old l)) ((loc.sub (pointOf old l)).abs sqrt)
      cases hdv : (loc.sub (pointOf old l)).div ((loc.sub (pointOf old l)).abs sqrt) with
      | error er => rw [hdv] at hd; simpa using hd
      | ok v => simp

theorem displacement_inside {sqrt : α → α} {fuel : ℕ} {d : StretchDist α} {old : Option (Vec3 α)} {lines : List (PyLine α)}
    (hq : QuietEnd lines) {n : ℕ} (hn : n + 1 < lines.length) (tmax : α) (loc : Cx α) :
    displacement sqrt fuel d old .curaFwd .curaBwd lines n tmax loc ≠ .error .indexError := by
  have hf : Inside .curaFwd lines { idx := (n : ℤ) + 1 } := by simp only [Inside]; omega
  have hb : Inside .curaBwd lines { idx := (n : ℤ) - 1 } := by simp only [Inside]; omega
  unfold displacement
  have h1 : relStretch sqrt fuel d old .curaFwd lines ((n : ℤ) + 1) loc ≠ .error .indexError := rel_inside hq loc fuel _ _ _ _ hf
  have h2 : relStretch sqrt fuel d old .curaBwd lines ((n : ℤ) - 1) loc ≠ .error .indexError := rel_inside hq loc fuel _ _ _ _ hb
  cases e1 : relStretch sqrt fuel d old .curaFwd lines ((n : ℤ) + 1) loc with
  | error er => rw [e1] at h1; simpa [bind, Except.bind] using h1
  | ok a =>
    cases e2 : relStretch sqrt fuel d old .curaBwd lines ((n : ℤ) - 1) loc with
    | error er => rw [e2] at h2; simpa [bind, Except.bind] using h2
    | ok b =>
      simp only [bind, Except.bind]
      have h3 := cross_inside (sqrt := sqrt) (fuel := fuel) (d := d) (old := old) hq loc (Cx.smul (8 / 10) (a.add b)) hf
      cases e3 : crossLimited sqrt fuel d old .curaFwd lines ((n : ℤ) + 1) loc (Cx.smul (8 / 10) (a.add b)) with
      | error er => rw [e3] at h3; simpa using h3
      | ok s =>
        simp only
        have h4 := cross_inside (sqrt := sqrt) (fuel := fuel) (d := d) (old := old) hq loc s hb
        cases e4 : crossLimited sqrt fuel d old .curaBwd lines ((n : ℤ) - 1) loc s with
        | error er => rw [e4] at h4; simpa using h4
        | ok s =>
          simp only
          split_ifs
          · have := div_index s (s.abs sqrt)
            cases e5 : s.div (s.abs sqrt) with
            | error er => rw [e5] at this; simpa using this
            | ok v => simp
          · simp

theorem parseTok_index (u : α) (l : PyLine α) (t : Tok) : parseTok u l t ≠ .error .indexError := by
  unfold parseTok
  cases t with
  | none => simp
  | some p =>
    obtain ⟨c, v⟩ := p
    simp only
    split_ifs
    · split <;> simp
    · simp

theorem parseToks_index (u : α) : ∀ (toks : List Tok) (l : PyLine α), toks.foldlM (parseTok u) l ≠ .error .indexError := by
  intro toks
  induction toks with
  | nil => intro l; simp [List.foldlM, pure, Except.pure]
  | cons t ts ih =>
    intro l
    rw [List.foldlM_cons]
    have := parseTok_index u l t
    cases e : parseTok u l t with
    | error er => rw [e] at this; simpa [bind, Except.bind] using this
    | ok l' => exact ih l'

theorem reparse_index (l : PyLine α) : reparse l ≠ .error .indexError := by
  unfold reparse
  generalize split l = p
  obtain ⟨l, toks⟩ := p
  simp only
  unfold parseCoordinates
  cases l.command with
  | none => simp
  | some c =>
    simp only
    by_cases hc : c.head? ≠ some 'G'
    · rw [if_pos hc]; simp
    · rw [if_neg hc]; exact parseToks_index _ toks l

theorem loopSwitch_index (st : StretchSt α) (l : PyLine α) : loopSwitch st l ≠ .error .indexError := by
  unfold loopSwitch
  simp only
  split_ifs
  all_goals first
    | (cases st.dist <;> simp)

theorem parseLine_inside {sqrt : α → α} {fuel : ℕ} {lines : List (PyLine α)} (hq : QuietEnd lines) {n : ℕ} {l : PyLine α} (hl : lines[n]? = some l)
    (st : StretchSt α) : stretchParseLine sqrt fuel .curaFwd .curaBwd lines n st l ≠ .error .indexError := by
  unfold stretchParseLine
  have h1 := loopSwitch_index st l
  cases e1 : loopSwitch st l with
  | error er => rw [e1] at h1; simpa using h1
  | ok st' =>
    simp only
    by_cases hx : (isXYMove l && st'.isLoop) = true
    · rw [if_pos hx]
      have hn : n + 1 < lines.length := by
        have := quiet_at (i := (n : ℤ)) hq (by unfold lineAt; rw [if_pos (by omega)]; simpa using hl) (Bool.and_eq_true_iff.1 hx).1
        omega
      unfold stretchLine
      simp only
      split_ifs
      · cases hd : st'.dist with
        | none => simp
        | some d =>
          simp only
          unfold stretchedLine
          simp only [bind, Except.bind]
          have h2 := displacement_inside (sqrt := sqrt) (fuel := fuel) (d := d) (old := some (locationFromLine st'.old l)) hq hn st'.tmax
            ⟨(locationFromLine st'.old l).x, (locationFromLine st'.old l).y⟩
          cases e2 : displacement sqrt fuel d (some (locationFromLine st'.old l)) .curaFwd .curaBwd lines n st'.tmax
            ⟨(locationFromLine st'.old l).x, (locationFromLine st'.old l).y⟩ with
          | error er => rw [e2] at h2; simpa using h2
          | ok a => simp
      · simp
    · rw [if_neg hx]; simp

theorem layer_inside {sqrt : α → α} {fuel : ℕ} : ∀ (todo : List (PyLine α)) (st : StretchSt α) (cur : List (PyLine α)) (n : ℕ),
    cur.drop n = todo → QuietEnd todo → stretchLayer sqrt fuel .curaFwd .curaBwd st cur n todo ≠ .error .indexError := by
  intro todo
  induction todo with
  | nil => intro st cur n _ _; simp [stretchLayer]
  | cons l rest ih =>
    intro st cur n hd hq
    have hn : cur[n]? = some l := by
      have : (cur.drop n)[0]? = some l := by rw [hd]; rfl
      rwa [List.getElem?_drop, Nat.add_zero] at this
    have hlt : n < cur.length := (List.getElem?_eq_some_iff.1 hn).1
    have hqc : QuietEnd cur := by
      intro x hx
      refine hq x ?_
      rw [← hd, List.getLast?_drop, if_neg (by omega)]
      exact hx
    rw [stretchLayer]
    have h1 := parseLine_inside (sqrt := sqrt) (fuel := fuel) hqc hn st
    cases e1 : stretchParseLine sqrt fuel .curaFwd .curaBwd cur n st l with
    | error er => rw [e1] at h1; simpa using h1
    | ok p =>
      obtain ⟨st', r, same⟩ := p
      simp only
      have h2 := reparse_index r
      cases e2 : reparse r with
      | error er => rw [e2] at h2; simpa using h2
      | ok r' =>
        simp only
        have hdr : (if same = true then cur.set n r' else cur).drop (n + 1) = rest := by
          have : cur.drop (n + 1) = rest := by
            rw [← List.drop_drop, hd]; rfl
          split_ifs
          · rw [List.drop_set_of_lt (by omega), this]
          · exact this
        have h3 := ih st' (if same = true then cur.set n r' else cur) (n + 1) hdr (by
          intro x hx
          refine hq x ?_
          cases rest with
          | nil => simp at hx
          | cons a as => rw [List.getLast?_cons_cons]; exact hx)
        cases e3 : stretchLayer sqrt fuel .curaFwd .curaBwd st' (if same = true then cur.set n r' else cur) (n + 1) rest with
        | error er => rw [e3] at h3; simpa using h3
        | ok q => simp

theorem layers_inside {sqrt : α → α} {fuel : ℕ} : ∀ (Ls : List (Layer α)) (st : StretchSt α), (∀ L ∈ Ls, QuietEnd L.lines) →
    stretchLayers sqrt fuel .curaFwd .curaBwd st Ls ≠ .error .indexError := by
  intro Ls
  induction Ls with
  | nil => intro st _; simp [stretchLayers]
  | cons L rest ih =>
    intro st h
    rw [stretchLayers]
    have h1 := layer_inside (sqrt := sqrt) (fuel := fuel) L.lines st L.lines 0 rfl (h L (by simp))
    cases e1 : stretchLayer sqrt fuel .curaFwd .curaBwd st L.lines 0 L.lines with
    | error er => rw [e1] at h1; simpa using h1
    | ok p =>
      obtain ⟨st', ls⟩ := p
      simp only
      have h2 := ih st' (fun L' hL' => h L' (List.mem_cons_of_mem _ hL'))
      cases e2 : stretchLayers sqrt fuel .curaFwd .curaBwd st' rest with
      | error er => rw [e2] at h2; simpa using h2
      | ok q => simp

/-! ### the annotation pass -/

theorem curaLines_index {repo : StretchRepo α} {profile : ProfileOracle α} (hp : ∀ t, profile t ≠ .error .indexError) :
    ∀ (ls : List (PyLine α)) (s : AnnSt α), curaLines repo profile s ls ≠ .error .indexError := by
  intro ls
  induction ls with
  | nil => intro s; simp [curaLines]
  | cons l rest ih =>
    intro s
    rw [curaLines]
    have h1 : curaLine repo profile s l rest.isEmpty ≠ .error .indexError := by
      rw [curaLine_eq]
      split
      · rename_i t _
        have := hp t
        split
        · rename_i er he
          rw [he] at this
          simpa using this
        · simp
        · simp
      · simp
    cases e1 : curaLine repo profile s l rest.isEmpty with
    | error er => rw [e1] at h1; simpa using h1
    | ok p =>
      obtain ⟨s', l'⟩ := p
      simp only
      have h2 := ih s'
      cases e2 : curaLines repo profile s' rest with
      | error er => rw [e2] at h2; simpa using h2
      | ok q => simp

theorem annotate_index {repo : StretchRepo α} {profile : ProfileOracle α} (hp : ∀ t, profile t ≠ .error .indexError) :
    ∀ (Ls : List (Layer α)) (s : AnnSt α), annotateLayers .cura repo profile s Ls ≠ .error .indexError := by
  intro Ls
  induction Ls with
  | nil => intro s; simp [annotateLayers]
  | cons L rest ih =>
    intro s
    rw [annotateLayers]
    have h1 := curaLines_index (repo := repo) hp L.lines { s with type := .unknown, next := none }
    unfold annotateLayer
    simp only
    cases e1 : curaLines repo profile { s with type := .unknown, next := none } L.lines with
    | error er => rw [e1] at h1; simpa using h1
    | ok p =>
      obtain ⟨s', l'⟩ := p
      simp only
      have h2 := ih s'
      cases e2 : annotateLayers .cura repo profile s' rest with
      | error er => rw [e2] at h2; simpa using h2
      | ok q => simp

theorem quiet_marked {A B : List (Layer α)} (hm : List.Forall₂ (SameLayer MarkedUp) A B) (hq : ∀ L ∈ A, QuietEnd L.lines) :
    ∀ L ∈ B, QuietEnd L.lines := by
  induction hm with
  | nil => simp
  | @cons L L' A B hL _ ih =>
    intro M hM
    rcases List.mem_cons.1 hM with rfl | hM
    · intro l' hl' hx
      have hlast : ∃ l, L.lines.getLast? = some l ∧ MarkedUp l l' := by
        have h2 := hL.2
        clear * - h2 hl'
        generalize L.lines = a at h2
        generalize M.lines = b at h2 hl'
        induction h2 with
        | nil => simp at hl'
        | @cons a b as bs hab hbs ih =>
          cases hbs with
          | nil => simp only [List.getLast?_singleton, Option.some.injEq] at hl' ⊢; subst hl'; exact ⟨a, rfl, hab⟩
          | cons h h' => rw [List.getLast?_cons_cons] at hl' ⊢; exact ih hl'
      obtain ⟨l, h1, s, _, rfl⟩ := hlast
      exact hq L (by simp) l h1 hx
    · exact ih (fun L hL => hq L (List.mem_cons_of_mem _ hL)) M hM

theorem stretch_index {sqrt : α → α} {fuel : ℕ} {repo : StretchRepo α} {profile : ProfileOracle α} (hp : ∀ t, profile t ≠ .error .indexError)
    {g : GCode α} (hq : ∀ L ∈ g.allLayers, QuietEnd L.lines) : g.stretch sqrt fuel .cura repo profile ≠ .error .indexError := by
  unfold GCode.stretch
  cases e1 : setupFilter .cura repo profile g.allLayers with
  | error er =>
    unfold setupFilter at e1
    have h1 := annotate_index (repo := repo) hp g.allLayers {}
    cases e2 : annotateLayers .cura repo profile {} g.allLayers with
    | error er' =>
      rw [e2] at e1 h1
      cases e1
      simpa using h1
    | ok p => rw [e2] at e1; cases e1
  | ok p =>
    obtain ⟨d, Ls⟩ := p
    simp only
    have hm := setupFilter_marked e1
    have hq' := quiet_marked hm hq
    have h3 := layers_inside (sqrt := sqrt) (fuel := fuel) Ls { StretchSt.init with dist := d } hq'
    simp only [Slicer.forward, Slicer.backward]
    cases e3 : stretchLayers sqrt fuel .curaFwd .curaBwd { StretchSt.init with dist := d } Ls with
    | error er => rw [e3] at h3; simpa using h3
    | ok q => simp

end GCodeUtils
