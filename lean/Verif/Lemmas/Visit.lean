import Verif.Spec.Visit
import Verif.Lemmas.Build
import Verif.Lemmas.Edit
import Verif.Props.Format
import Verif.Props.Edit
import Mathlib.Data.List.Sort

/-
  Lemmas about the iterator.
-/

set_option linter.unusedSectionVars false

namespace GCodeUtils

open Spec

variable {α : Type} [Field α] [LinearOrder α] [IsStrictOrderedRing α] [FloorRing α]

theorem linesEq_iff (as bs : List (PyLine α)) : linesEq as bs = true ↔ LookAlike as bs := by
  unfold LookAlike
  induction as generalizing bs with
  | nil => cases bs <;> simp [linesEq]
  | cons a as ih =>
    cases bs with
    | nil => simp [linesEq]
    | cons b bs => simp only [linesEq, Bool.and_eq_true, ih, List.forall₂_cons, C13_eq_iff]

theorem lookAlike_refl (as : List (PyLine α)) : LookAlike as as := by
  rw [← linesEq_iff]
  induction as with
  | nil => rfl
  | cons a as ih => simp [linesEq, ih, C13_refl]

theorem sameLayer_self (light : Bool) (i : ℕ) (a : List (PyLine α)) : sameLayer light i i a a = true := by
  unfold sameLayer
  split
  · simp
  · exact (linesEq_iff _ _).2 (lookAlike_refl a)

theorem sameLayer_iff (light : Bool) (j i : ℕ) (a b : List (PyLine α)) : sameLayer light j i a b = true ↔
    (light = false ∧ LookAlike a b) ∨ (light = true ∧ (j = i ∨ (a = [] ∧ b = []))) := by
  unfold sameLayer
  cases light with
  | false => simp [linesEq_iff]
  | true => simp [List.isEmpty_iff]

theorem layerIndex_spec {g : GCode α} {i : ℕ} {L : Layer α} (h : g.allLayers[i]? = some L) :
    layerIndex g i L ≤ i ∧
    (∃ M, g.allLayers[layerIndex g i L]? = some M ∧ sameLayer g.light (layerIndex g i L) i M.lines L.lines = true) ∧
    (∀ j M, g.allLayers[j]? = some M → j < layerIndex g i L → sameLayer g.light j i M.lines L.lines = false) := by
  have hi : i < g.allLayers.length := by
    by_contra hn
    rw [List.getElem?_eq_none (by omega)] at h; simp at h
  have hz : ∀ j (hj : j < g.allLayers.zipIdx.length), g.allLayers.zipIdx[j] = (g.allLayers[j]'(by simpa using hj), j) := by
    intro j hj; simp
  have hL : g.allLayers[i] = L := by
    rw [List.getElem?_eq_getElem hi] at h; exact Option.some.inj h
  have hle : layerIndex g i L ≤ i := by
    unfold layerIndex
    by_contra hn
    have := List.not_of_lt_findIdx (p := fun q : Layer α × ℕ => sameLayer g.light q.2 i q.1.lines L.lines) (xs := g.allLayers.zipIdx) (i := i) (by omega)
    rw [hz, hL] at this
    simp only [sameLayer_self] at this
    simp at this
  have hlt : layerIndex g i L < g.allLayers.length := by omega
  refine ⟨hle, ⟨g.allLayers[layerIndex g i L], List.getElem?_eq_getElem hlt, ?_⟩, ?_⟩
  · have hlt' : layerIndex g i L < g.allLayers.zipIdx.length := by simpa using hlt
    have := List.findIdx_getElem (p := fun q : Layer α × ℕ => sameLayer g.light q.2 i q.1.lines L.lines) (xs := g.allLayers.zipIdx) (w := hlt')
    have h2 := hz _ hlt'
    unfold layerIndex at h2 ⊢
    rw [h2] at this
    exact this
  · intro j M hM hj
    have := List.not_of_lt_findIdx (p := fun q : Layer α × ℕ => sameLayer g.light q.2 i q.1.lines L.lines) (xs := g.allLayers.zipIdx) (i := j) hj
    have hj' : j < g.allLayers.length := by omega
    rw [hz] at this
    rw [List.getElem?_eq_getElem hj'] at hM
    rw [← Option.some.inj hM]
    simpa using this

theorem layerIndex_first {g : GCode α} {i : ℕ} {L : Layer α} (h : g.allLayers[i]? = some L) (num : ℕ) (pr : Bool) :
    FirstAlike g i ⟨num, layerIndex g i L, pr⟩ := by
  obtain ⟨h1, ⟨M, h2, h3⟩, h4⟩ := layerIndex_spec h
  refine ⟨⟨L, M, h, h2, h1, (sameLayer_iff _ _ _ _ _).1 h3⟩, ?_⟩
  intro j L' M' hL' hM' hj
  obtain rfl : L = L' := by rw [h] at hL'; exact Option.some.inj hL'
  have := h4 j M' hM' hj
  have hn : ¬ sameLayer g.light j i M'.lines L.lines = true := by rw [this]; simp
  rw [sameLayer_iff] at hn
  push Not at hn
  exact ⟨hn.1, fun hl hh => (hn.2 hl).2 hh.1 hh.2⟩

/-! ### heights -/

theorem roundZs_ok {mode : RoundMode} {digits : ℕ} (zs : List (Option α)) :
    (none ∈ zs → roundZs mode digits zs = .error .typeError) ∧
    (none ∉ zs → roundZs mode digits zs = .ok ((zs.filterMap id).map (pyRound mode digits))) := by
  induction zs with
  | nil => exact ⟨fun h => by simp at h, fun _ => rfl⟩
  | cons z zs ih =>
    cases z with
    | none => exact ⟨fun _ => rfl, fun h => absurd (by simp) h⟩
    | some z =>
      refine ⟨fun h => ?_, fun h => ?_⟩
      · have h' : none ∈ zs := by simpa using h
        simp [roundZs, ih.1 h']
      · have h' : none ∉ zs := by simpa using h
        simp [roundZs, ih.2 h']

theorem iteratorZs_ok {mode : RoundMode} {digits : ℕ} (g : GCode α) :
    (none ∈ g.allZs → iteratorZs mode digits g = .error .typeError) ∧
    (none ∉ g.allZs → iteratorZs mode digits g = .ok ((heights mode digits g).insertionSort (· ≤ ·))) := by
  unfold iteratorZs heights
  obtain ⟨h1, h2⟩ := roundZs_ok (mode := mode) (digits := digits) g.allZs
  exact ⟨fun h => by rw [h1 h], fun h => by rw [h2 h]⟩

theorem idxOf_sorted (zs : List α) (hs : zs.Pairwise (· ≤ ·)) (r : α) (hr : r ∈ zs) :
    zs.idxOf r = (zs.filter (fun k => k < r)).length := by
  induction zs with
  | nil => simp at hr
  | cons z zs ih =>
    rw [List.pairwise_cons] at hs
    by_cases h : z = r
    · subst h
      have : ∀ k ∈ z :: zs, ¬ k < z := by
        intro k hk
        rcases List.mem_cons.1 hk with rfl | hk
        · exact lt_irrefl _
        · exact not_lt.2 (hs.1 k hk)
      rw [List.filter_eq_nil_iff.2 (by simpa using this)]
      simp
    · have hr' : r ∈ zs := by
        rcases List.mem_cons.1 hr with h' | h'
        · exact absurd h'.symm h
        · exact h'
      have hlt : z < r := lt_of_le_of_ne (hs.1 r hr') h
      rw [List.idxOf_cons_ne _ h, List.filter_cons_of_pos (by simpa using hlt), List.length_cons, ih hs.2 hr']

theorem layerNumber_spec (mode : RoundMode) (digits : ℕ) (g : GCode α) (i idx : ℕ) (z : Option α) :
    Numbered mode digits g i z
      ⟨(layerNumber mode digits ((heights mode digits g).insertionSort (· ≤ ·)) z i).1, idx,
       (layerNumber mode digits ((heights mode digits g).insertionSort (· ≤ ·)) z i).2⟩ := by
  unfold layerNumber
  cases z with
  | none => exact ⟨by simp, fun h hz => by simp at hz, fun _ => rfl⟩
  | some h =>
    simp only
    by_cases hm : pyRound mode digits h ∈ (heights mode digits g).insertionSort (· ≤ ·)
    · rw [if_pos hm]
      have hm' : pyRound mode digits h ∈ heights mode digits g := by
        simpa using hm
      refine ⟨⟨fun _ => ⟨h, rfl, hm'⟩, fun _ => rfl⟩, ?_, fun h' => by simp at h'⟩
      intro h' hz _
      obtain rfl := Option.some.inj hz
      simp only
      rw [idxOf_sorted _ (List.pairwise_insertionSort _ _) _ hm]
      exact ((List.perm_insertionSort _ _).filter _).length_eq
    · rw [if_neg hm]
      have hm' : pyRound mode digits h ∉ heights mode digits g := by
        simpa using hm
      refine ⟨⟨fun h' => by simp at h', ?_⟩, fun _ _ h' => by simp at h', fun _ => rfl⟩
      rintro ⟨h', hz, hin⟩
      obtain rfl := Option.some.inj hz
      exact absurd hin hm'

/-! ### the walk of a visitor that does not change the program -/

theorem visitLines_eq {ν : Type} (v : Visitor ν α) (g : GCode α) (num idx : ℕ) (pr : Bool) (ls : List (PyLine α)) :
    ∀ (s : ν) (n : ℕ), (ls.mapIdx (fun j l => Event.line l ⟨num, idx, (n + j : ℕ), pr⟩)).foldlM (Event.call v g) s =
        .ok (visitLines v num idx pr s n ls).1 ∧ (visitLines v num idx pr s n ls).2 = n + ls.length := by
  induction ls with
  | nil => intro s n; exact ⟨rfl, rfl⟩
  | cons l ls ih =>
    intro s n
    obtain ⟨h1, h2⟩ := ih (v.visitLine s l ⟨num, idx, n, pr⟩) (n + 1)
    constructor
    · rw [List.mapIdx_cons, List.foldlM_cons]
      simp only [Event.call, visitLines, Nat.add_zero, bind, Except.bind]
      rw [← h1]
      congr 1
      apply List.mapIdx_eq_mapIdx_iff.2
      intro j hj
      rw [show n + (j + 1) = n + 1 + j by omega]
    · simp only [visitLines, h2, List.length_cons]; omega

/-- What the code reports for layer `i`. -/
def codeInfo (mode : RoundMode) (digits : ℕ) (zs : List α) (g : GCode α) (i : ℕ) : LayerInfo :=
  match g.allLayers[i]? with
  | some L => ⟨(layerNumber mode digits zs L.z i).1, layerIndex g i L, (layerNumber mode digits zs L.z i).2⟩
  | none => ⟨0, 0, false⟩

theorem acceptFrom_readOnly {ν : Type} {mode : RoundMode} {digits : ℕ} {zs : List α} {v : Visitor ν α} (hv : ReadOnly v) (g : GCode α) :
    ∀ (fuel i : ℕ) (s : ν) (n : ℕ), fuel + i = g.allLayers.length →
      acceptFrom mode digits zs v fuel i s n g =
        ((walk (codeInfo mode digits zs g) i n ((layerLines g).drop i)).foldlM (Event.call v g) s).map (fun s => (s, g)) := by
  intro fuel
  induction fuel with
  | zero =>
    intro i s n h
    have : (layerLines g).drop i = [] := by
      apply List.drop_eq_nil_of_le; simp [layerLines]; omega
    rw [this]; rfl
  | succ fuel ih =>
    intro i s n h
    have hi : i < g.allLayers.length := by omega
    have hg : g.allLayers[i]? = some g.allLayers[i] := List.getElem?_eq_getElem hi
    have hdrop : (layerLines g).drop i = g.allLayers[i].lines :: (layerLines g).drop (i + 1) := by
      rw [List.drop_eq_getElem_cons (by simpa [layerLines] using hi)]
      simp [layerLines]
    generalize hL : g.allLayers[i] = L at hg hdrop
    have hinfo : codeInfo mode digits zs g i = ⟨(layerNumber mode digits zs L.z i).1, layerIndex g i L, (layerNumber mode digits zs L.z i).2⟩ := by
      unfold codeInfo; rw [hg]
    rw [hdrop]
    unfold acceptFrom
    rw [hg]
    simp only [walk, hinfo, List.foldlM_cons, Event.call]
    obtain ⟨h1, h2⟩ := visitLines_eq v g (layerNumber mode digits zs L.z i).1 (layerIndex g i L) (layerNumber mode digits zs L.z i).2 L.lines
      (v.willVisit s L.lines ⟨(layerNumber mode digits zs L.z i).1, layerIndex g i L, n, (layerNumber mode digits zs L.z i).2⟩) n
    simp only [bind, Except.bind]
    rw [List.foldlM_append, h1]
    simp only [bind, Except.bind]
    rw [List.foldlM_cons]
    simp only [Event.call, bind, Except.bind]
    generalize hvl : visitLines v (layerNumber mode digits zs L.z i).1 (layerIndex g i L) (layerNumber mode digits zs L.z i).2
      (v.willVisit s L.lines ⟨(layerNumber mode digits zs L.z i).1, layerIndex g i L, n, (layerNumber mode digits zs L.z i).2⟩) n L.lines = r at h1 h2
    obtain ⟨s1, n1⟩ := r
    simp only at h1 h2
    subst h2
    simp only
    cases hd : v.didVisit s1 g L.lines ⟨(layerNumber mode digits zs L.z i).1, layerIndex g i L, ((n + L.lines.length : ℕ) : ℤ) - 1, (layerNumber mode digits zs L.z i).2⟩ with
    | error e => simp [Except.map]
    | ok q =>
      obtain ⟨s2, g2⟩ := q
      obtain rfl := hv _ _ _ _ _ _ hd
      simp only [Except.map]
      exact ih (i + 1) s2 _ (by omega)

theorem walk_record (g : GCode α) (es : List (Event α)) : ∀ acc, es.foldlM (Event.call recorder g) acc = .ok (acc ++ es) := by
  induction es with
  | nil => intro acc; simp [pure, Except.pure]
  | cons e es ih =>
    intro acc
    rw [List.foldlM_cons]
    have : Event.call recorder g acc e = .ok (acc ++ [e]) := by cases e <;> rfl
    rw [this]
    simp only [bind, Except.bind]
    rw [ih]
    simp

/-! ### pauses -/

/-- What the code decides from the height of a layer. -/
def codePause (mode : RoundMode) (digits : ℕ) (zs : List α) (pauses : List ℤ) (z : Option α) : Bool :=
  (layerNumber mode digits zs z 0).2 && pauses.contains ((layerNumber mode digits zs z 0).1 : ℤ)

theorem layerNumber_parsed (mode : RoundMode) (digits : ℕ) (zs : List α) (z : Option α) (i : ℕ) (pauses : List ℤ) :
    ((layerNumber mode digits zs z i).2 && pauses.contains ((layerNumber mode digits zs z i).1 : ℤ)) =
      codePause mode digits zs pauses z := by
  unfold codePause layerNumber
  cases z with
  | none => rfl
  | some z => simp only; split_ifs <;> rfl

theorem codePause_iff (mode : RoundMode) (digits : ℕ) (g : GCode α) (pauses : List ℤ) (z : Option α) :
    codePause mode digits ((heights mode digits g).insertionSort (· ≤ ·)) pauses z = true ↔ ShouldPause mode digits g pauses z := by
  have hs := layerNumber_spec mode digits g 0 0 z
  unfold codePause
  rw [Bool.and_eq_true, hs.printed]
  constructor
  · rintro ⟨⟨h, hz, hm⟩, hp⟩
    refine ⟨h, hz, hm, ?_⟩
    rw [← hs.number h hz (hs.printed.2 ⟨h, hz, hm⟩)]
    simpa using hp
  · rintro ⟨h, hz, hm, hp⟩
    refine ⟨⟨h, hz, hm⟩, ?_⟩
    rw [← hs.number h hz (hs.printed.2 ⟨h, hz, hm⟩)] at hp
    simpa using hp

theorem prepend_pause (g : GCode α) (hi : Indexed g) (k : ℕ) (L : Layer α) (hL : g.allLayers[k]? = some L) (hne : L.lines ≠ []) :
    ∃ g' r, g.prependToLayer [pauseCommand] k = .ok (g', r) ∧
      g'.allLayers = g.allLayers.set k { L with lines := pauseLine :: L.lines } ∧ Indexed g' ∧
      g' = { g with allLayers := g'.allLayers, lines := g'.lines, layerIdxs := g'.layerIdxs, lineIdxs := g'.lineIdxs } := by
  obtain ⟨g', texts, new, h1, h2, h3, _, h5, h6, h7⟩ := C07_prepend g hi k L hL hne [pauseCommand]
  refine ⟨g', texts, h1, ?_, h6, h7⟩
  have h8 : texts = [pauseCommand] := by
    have : g.prependToLayer [pauseCommand] k = .ok (g', texts) := h1
    unfold GCode.prependToLayer at this
    simp only [hL] at this
    split_ifs at this with hm
    · revert this
      cases g.lineIdxs[endIndex g.layerIdxs (g.layerIdxs.idxOf k) k - 1]? with
      | none => intro this; simp at this
      | some e =>
        intro this
        simp only [Except.ok.injEq, Prod.mk.injEq] at this
        rw [← this.2]; decide
  rw [h5, h3, h8]
  rfl

/-- One more pause in layer `n`. -/
def bump (k : ℕ → ℕ) (n : ℕ) : ℕ → ℕ := fun j => if j = n then k j + 1 else k j

theorem withPauses_get (k : ℕ → ℕ) (layers : List (Layer α)) (i : ℕ) :
    (withPauses k layers)[i]? = (layers[i]?).map (fun L => { L with lines := List.replicate (k i) pauseLine ++ L.lines }) := by
  simp [withPauses]

theorem withPauses_zero (layers : List (Layer α)) : withPauses (fun _ => 0) layers = layers := by
  apply List.ext_getElem?
  intro i
  rw [withPauses_get]
  cases layers[i]? <;> rfl

theorem withPauses_bump (k : ℕ → ℕ) (layers : List (Layer α)) (n : ℕ) (L : Layer α) (hL : layers[n]? = some L) :
    (withPauses k layers).set n { L with lines := pauseLine :: (List.replicate (k n) pauseLine ++ L.lines) } =
      withPauses (bump k n) layers := by
  apply List.ext_getElem?
  intro i
  rw [List.getElem?_set, withPauses_get, withPauses_get]
  have hn : n < layers.length := by
    by_contra hn
    rw [List.getElem?_eq_none (by omega)] at hL; simp at hL
  by_cases h : n = i
  · subst h
    rw [if_pos rfl, if_pos (by simpa [withPauses] using hn), hL]
    simp [bump, List.replicate_succ]
  · rw [if_neg h]
    simp [bump, Ne.symm h]

theorem sum_bump (k : ℕ → ℕ) (n m : ℕ) (h : n < m) :
    ((List.range m).map (bump k n)).sum = ((List.range m).map k).sum + 1 := by
  induction m with
  | zero => omega
  | succ m ih =>
    rw [List.range_succ, List.map_append, List.map_append, List.sum_append, List.sum_append]
    by_cases hm : n = m
    · subst hm
      have : (List.range n).map (bump k n) = (List.range n).map k := by
        apply List.map_congr_left
        intro j hj
        have := List.mem_range.1 hj
        simp [bump]; omega
      rw [this]; simp [bump]; omega
    · rw [ih (by omega)]
      simp [bump, Ne.symm hm]; omega

theorem lookAlike_length {as bs : List (PyLine α)} (h : LookAlike as bs) : as.length = bs.length := h.length_eq

/-- The loop of the pause visitor on any indexed program. -/
theorem pause_loop {mode : RoundMode} {digits : ℕ} {zs : List α} {pauses : List ℤ} (g0 : GCode α)
    (hz : ∀ z, codePause mode digits zs pauses z = true → z ≠ none) (hf : EmptyFlat g0) :
    ∀ (fuel i : ℕ) (k : ℕ → ℕ) (n : ℕ) (g : GCode α), fuel + i = g0.allLayers.length →
      g.allLayers = withPauses k g0.allLayers → Indexed g → g.light = g0.light →
      (∀ j L, g0.allLayers[j]? = some L → L.lines = [] → k j = 0) →
      ∃ g' k', acceptFrom mode digits zs (pauseVisitor pauses) fuel i () n g = .ok ((), g') ∧
        g'.allLayers = withPauses k' g0.allLayers ∧ Indexed g' ∧
        g' = { g with allLayers := g'.allLayers, lines := g'.lines, layerIdxs := g'.layerIdxs, lineIdxs := g'.lineIdxs } ∧
        (∀ j L, g0.allLayers[j]? = some L → L.lines = [] → k' j = 0) ∧
        ((List.range g0.allLayers.length).map k').sum = ((List.range g0.allLayers.length).map k).sum +
          ((g0.allLayers.drop i).filter (fun L => codePause mode digits zs pauses L.z)).length ∧
        ((g0.light = true ∨ Distinct g0) → (∀ j, k j ≤ 1) → (∀ j, i ≤ j → k j = 0) →
          (∀ j, j < i → k' j = k j) ∧
          ∀ j L, i ≤ j → g0.allLayers[j]? = some L → k' j = if codePause mode digits zs pauses L.z then 1 else 0) := by
  intro fuel
  induction fuel with
  | zero =>
    intro i k n g hlen hg hi hl hk
    refine ⟨g, k, rfl, hg, hi, rfl, hk, ?_, fun _ _ _ => ⟨fun _ _ => rfl, ?_⟩⟩
    · rw [List.drop_eq_nil_of_le (by omega)]; simp
    · intro j L hj hL
      rw [List.getElem?_eq_none (by omega)] at hL; simp at hL
  | succ fuel ih =>
    intro i k n g hlen hg hi hl hk
    have hi0 : i < g0.allLayers.length := by omega
    have hL0 : g0.allLayers[i]? = some g0.allLayers[i] := List.getElem?_eq_getElem hi0
    have hdrop : g0.allLayers.drop i = g0.allLayers[i] :: g0.allLayers.drop (i + 1) := List.drop_eq_getElem_cons hi0
    generalize g0.allLayers[i] = L0 at hL0 hdrop
    have hL : g.allLayers[i]? = some { L0 with lines := List.replicate (k i) pauseLine ++ L0.lines } := by
      rw [hg, withPauses_get, hL0]; rfl
    generalize hLd : ({ L0 with lines := List.replicate (k i) pauseLine ++ L0.lines } : Layer α) = L at hL
    have hLz : L.z = L0.z := by rw [← hLd]
    have hLl : L.lines = List.replicate (k i) pauseLine ++ L0.lines := by rw [← hLd]
    unfold acceptFrom
    rw [hL]
    simp only
    generalize (visitLines (pauseVisitor pauses) (layerNumber mode digits zs L.z i).1 (layerIndex g i L) (layerNumber mode digits zs L.z i).2
      ((pauseVisitor (α := α) pauses).willVisit () L.lines ⟨(layerNumber mode digits zs L.z i).1, layerIndex g i L, n, (layerNumber mode digits zs L.z i).2⟩) n L.lines).2 = n'
    have hcp := layerNumber_parsed mode digits zs L.z i pauses
    rw [hLz] at hcp
    simp only [pauseVisitor, hLz]
    rw [hcp]
    by_cases hc : codePause mode digits zs pauses L0.z = true
    · rw [if_pos hc]
      have hne0 : L0.lines ≠ [] := fun h => hz _ hc (hf L0 (List.mem_of_getElem? hL0) h)
      have hne : L.lines ≠ [] := by rw [hLl]; simp [hne0]
      obtain ⟨hle, ⟨M, hM, hsame⟩, hfirst⟩ := layerIndex_spec hL
      have hMne : M.lines ≠ [] := by
        rcases (sameLayer_iff _ _ _ _ _).1 hsame with ⟨_, h⟩ | ⟨_, h | h⟩
        · intro hm
          have := lookAlike_length h
          rw [hm] at this
          exact hne (List.length_eq_zero_iff.1 this.symm)
        · rw [h, hL] at hM
          rw [← Option.some.inj hM]; exact hne
        · exact absurd h.2 hne
      obtain ⟨g1, r, hp, hg1, hi1, hrest⟩ := prepend_pause g hi _ M hM hMne
      rw [hp]
      simp only
      generalize hidx : layerIndex g i L = idx at *
      have hidxlt : idx < g0.allLayers.length := by omega
      have hM0 : g0.allLayers[idx]? = some g0.allLayers[idx] := List.getElem?_eq_getElem hidxlt
      generalize g0.allLayers[idx] = M0 at hM0
      have hMd : M = { M0 with lines := List.replicate (k idx) pauseLine ++ M0.lines } := by
        rw [hg, withPauses_get, hM0] at hM
        exact (Option.some.inj hM).symm
      have hM0ne : M0.lines ≠ [] := by
        intro h0
        apply hMne
        rw [hMd]
        simp [h0, hk idx M0 hM0 h0]
      have hg1' : g1.allLayers = withPauses (bump k idx) g0.allLayers := by
        rw [hg1, hg, ← withPauses_bump k _ idx M0 hM0, hMd]
      have hk' : ∀ j L, g0.allLayers[j]? = some L → L.lines = [] → bump k idx j = 0 := by
        intro j L' hL' hl'
        unfold bump
        by_cases hj : j = idx
        · subst hj
          rw [hM0] at hL'
          exact absurd (Option.some.inj hL' ▸ hl') hM0ne
        · rw [if_neg hj]; exact hk j L' hL' hl'
      obtain ⟨g', k', h1, h2, h3, h4, h5, h6, h7⟩ := ih (i + 1) (bump k idx) n' g1 (by omega) hg1' hi1 (by rw [hrest]; exact hl) hk'
      refine ⟨g', k', h1, h2, h3, ?_, h5, ?_, ?_⟩
      · rw [h4, hrest]
      · rw [h6, sum_bump k idx _ hidxlt, hdrop, List.filter_cons_of_pos (by simpa using hc), List.length_cons]; omega
      · intro hd hk1 hk0
        have hidxi : idx = i := by
          rcases Nat.lt_or_ge idx i with hlt | hge
          · exfalso
            rcases (sameLayer_iff _ _ _ _ _).1 hsame with ⟨hl0, h⟩ | ⟨_, h | h⟩
            · rcases hd with hd | hd
              · rw [hl, hd] at hl0; simp at hl0
              · have hdd := hd idx i M0 L0 hM0 hL0 (by omega) hM0ne
                rw [hLl, hk0 i (le_refl i), hMd] at h
                simp only [List.replicate_zero, List.nil_append] at h
                have := hk1 idx
                rcases (show k idx = 0 ∨ k idx = 1 by omega) with hkk | hkk
                · rw [hkk] at h; exact hdd.1 h
                · rw [hkk] at h; exact hdd.2 h
            · omega
            · exact hne h.2
          · omega
        subst hidxi
        obtain ⟨a, b⟩ := h7 hd (by
            intro j
            unfold bump
            by_cases hj : j = idx
            · rw [if_pos hj, hk0 j (by omega)]
            · rw [if_neg hj]; exact hk1 j) (by
            intro j hj
            unfold bump
            rw [if_neg (by omega)]; exact hk0 j (by omega))
        refine ⟨?_, ?_⟩
        · intro j hj
          rw [a j (by omega)]
          unfold bump; rw [if_neg (by omega)]
        · intro j L' hj hL'
          by_cases hji : j = idx
          · subst hji
            rw [a j (by omega)]
            rw [hL0] at hL'
            rw [← Option.some.inj hL', if_pos hc]
            unfold bump; rw [if_pos rfl, hk0 j (le_refl _)]
          · exact b j L' (by omega) hL'
    · rw [if_neg hc]
      obtain ⟨g', k', h1, h2, h3, h4, h5, h6, h7⟩ := ih (i + 1) k n' g (by omega) hg hi hl hk
      refine ⟨g', k', h1, h2, h3, h4, h5, ?_, ?_⟩
      · rw [h6, hdrop, List.filter_cons_of_neg (by simpa using hc)]
      · intro hd hk1 hk0
        obtain ⟨a, b⟩ := h7 hd hk1 (fun j hj => hk0 j (by omega))
        refine ⟨fun j hj => a j (by omega), ?_⟩
        intro j L' hj hL'
        by_cases hji : j = i
        · subst hji
          rw [a j (by omega), hk0 j (le_refl _)]
          rw [hL0] at hL'
          rw [← Option.some.inj hL', if_neg hc]
        · exact b j L' (by omega) hL'

/-! ### heights of loaded programs -/

/-- Loop invariant: empty layers have no height. -/
def FlatInv (s : LayerSt α) : Prop :=
  (∀ L ∈ s.allLayers, L.lines = [] → L.z = none) ∧ (s.curLines = [] → s.prevZ = none)

theorem recordLine_flat {s : LayerSt α} (h : FlatInv s) (l : PyLine α) : FlatInv (recordLine s l) :=
  ⟨h.1, fun hc => by simp [recordLine] at hc⟩

theorem stepLayer_flat {mode : RoundMode} {s : LayerSt α} (h : FlatInv s) (l : PyLine α) (total lb : α) :
    ∀ L ∈ (stepLayer mode s l total lb).1.allLayers, L.lines = [] → L.z = none := by
  rcases stepLayer_cases mode s l total lb with ⟨p, est, e⟩ | ⟨bz, est, hb, e⟩
  · rw [e]; exact h.1
  · rw [e]
    intro L hL hl
    simp only [List.mem_append, List.mem_singleton] at hL
    rcases hL with hL | rfl
    · exact h.1 L hL hl
    · simp only at hl ⊢
      have := h.2 hl
      rw [hb]
      unfold baseZ
      rw [show ({ s with curZ := nextCurZ s.curZ l } : LayerSt α).prevZ = none from this]

theorem buildStep_flat {env : Env α} {light : Bool} {home : Home α} {s s' : BuildSt α} {l0 : PyLine α}
    (hi : FlatInv s.ls) (h : buildStep env light home s l0 = .ok s') : FlatInv s'.ls := by
  obtain ⟨m, l, hp, h | ⟨cmd, ds, _, _, _, h⟩⟩ := buildStep_ok h
  · rw [h.2]; exact recordLine_flat hi _
  · rw [h]
    exact ⟨stepLayer_flat (s := { s.ls with hasExtrusion := s.ls.hasExtrusion || l.extruding.getD false }) hi l _ _, fun hc => by simp [recordLine] at hc⟩

theorem load_emptyFlat {env : Env α} {data : List Str} {light : Bool} {home : Home α} {g : GCode α}
    (h : GCode.load env data light home = .ok g) : EmptyFlat g := by
  rcases load_ok h with ⟨_, rfl⟩ | ⟨_, s, hs, rfl⟩
  · intro L hL _
    simp only [List.mem_singleton] at hL
    rw [hL]
  · have hi : FlatInv s.ls := foldlM_inv (buildStep env light home) (fun _ s => FlatInv s.ls)
      (fun _ _ _ _ hp hs => buildStep_flat hp hs) _ [] _ s ⟨by simp [BuildSt.start], fun _ => rfl⟩ hs
    intro L hL hl
    have : (finalize (GCode.blank light home) s).allLayers = (closeLast s.ls s.ds.total s.ds.layerBegin).allLayers ++ [{ lines := [], z := none, duration := some 0 }] := rfl
    rw [this, List.mem_append] at hL
    rcases hL with hL | hL
    · unfold closeLast at hL
      split_ifs at hL with hc
      · exact hi.1 L hL hl
      · rw [List.mem_append] at hL
        rcases hL with hL | hL
        · exact hi.1 L hL hl
        · simp only [List.mem_singleton] at hL
          rw [hL] at hl
          have hl' : s.ls.curLines = [] := hl
          rw [hl'] at hc
          exact absurd rfl hc
    · simp only [List.mem_singleton] at hL
      rw [hL]

theorem nextCurZ_keeps (c : Option α) (l : PyLine α) (h : c ≠ none) : nextCurZ c l ≠ none := by
  unfold nextCurZ
  cases l.z with
  | none => exact h
  | some z =>
    simp only
    split_ifs
    · simp
    · cases l.relative.getD false <;> cases c <;> simp
    · exact h

theorem nextCurZ_sets (c : Option α) (l : PyLine α) (h : SetsZ l) : nextCurZ c l ≠ none := by
  unfold nextCurZ
  cases hz : l.z with
  | none => exact absurd hz h.1
  | some z =>
    simp only
    by_cases hg : l.isCmd c!"G92" = true
    · rw [if_pos hg]; simp
    · rw [if_neg hg]
      rcases h.2 with hm | hm
      · rw [if_pos hm]
        cases l.relative.getD false <;> cases c <;> simp
      · exact absurd (by simp [PyLine.isCmd, hm]) hg

/-- Loop invariant: no unknown height is recorded, as long as extrusion starts after the height is known. -/
def ZInv (s : BuildSt α) : Prop :=
  none ∉ s.ls.allZs ∧ (s.ls.hasExtrusion = true → s.ls.prevZ ≠ none) ∧ s.ls.prevZ = s.ls.curZ ∧
    ((∃ m ∈ s.done, SetsZ m) → s.ls.curZ ≠ none)

theorem addZ_none {flag : Bool} {zs : List (Option α)} {z : Option α} (h : none ∉ zs) (hz : flag = true → z ≠ none) :
    none ∉ addZ flag zs z := by
  unfold addZ
  split_ifs with hc
  · simp only [Bool.and_eq_true] at hc
    simp only [List.mem_append, List.mem_singleton, not_or]
    exact ⟨h, fun he => hz hc.1 he.symm⟩
  · exact h

theorem setsZ_command {l : PyLine α} {home : Home α} {m m' : Machine α} {l0 : PyLine α} (hp : processLine home m l0 = .ok (m', l))
    (hc : l.command = none ∨ l.command = some []) (hl : SetsZ l) : False := by
  obtain ⟨_, h1, h2⟩ := processLine_keeps hp
  rcases hl.2 with hm | hm
  · rw [h2, split_isMove] at hm
    unfold PyLine.inMoves at hm
    rw [← h1] at hm
    rcases hc with hc | hc <;> rw [hc] at hm <;> exact absurd hm (by decide)
  · rcases hc with hc | hc <;> rw [hc] at hm <;> exact absurd hm (by decide)

theorem buildStep_z {env : Env α} {home : Home α} {s s' : BuildSt α} {l0 : PyLine α}
    (hi : ZInv s) (h : buildStep env false home s l0 = .ok s')
    (hx : ∀ l, s'.done = s.done ++ [l] → l.extruding = some true → ∃ m ∈ s.done, SetsZ m) : ZInv s' := by
  obtain ⟨m, l, hp, h | ⟨cmd, ds, _, _, _, h⟩⟩ := buildStep_ok h
  · rw [h.2]
    refine ⟨hi.1, ?_, rfl, ?_⟩
    · intro he
      have := hi.2.1 he
      simp only [recordLine]
      rw [← hi.2.2.1]; exact this
    · rintro ⟨x, hx, hs⟩
      rcases List.mem_append.1 hx with hx | hx
      · exact hi.2.2.2 ⟨x, hx, hs⟩
      · simp only [storedLine, List.mem_singleton, Bool.false_eq_true, if_false] at hx
        subst hx
        exact (setsZ_command hp h.1 hs).elim
  · rw [h] at hx ⊢
    have hx' : l.extruding = some true → s.ls.curZ ≠ none := fun he => hi.2.2.2 (hx l rfl he)
    have hflag : (s.ls.hasExtrusion || l.extruding.getD false) = true → s.ls.prevZ ≠ none := by
      intro hb
      rw [Bool.or_eq_true] at hb
      rcases hb with hb | hb
      · exact hi.2.1 hb
      · rw [hi.2.2.1]
        apply hx'
        cases he : l.extruding with
        | none => rw [he] at hb; simp at hb
        | some b => rw [he] at hb; simp at hb; rw [hb]
    have hcur : (∃ m ∈ s.done ++ [l], SetsZ m) → nextCurZ s.ls.curZ l ≠ none := by
      rintro ⟨x, hx, hs⟩
      rcases List.mem_append.1 hx with hx | hx
      · exact nextCurZ_keeps _ _ (hi.2.2.2 ⟨x, hx, hs⟩)
      · simp only [List.mem_singleton] at hx
        subst hx
        exact nextCurZ_sets _ _ hs
    generalize hs1 : ({ s.ls with hasExtrusion := s.ls.hasExtrusion || l.extruding.getD false } : LayerSt α) = s1
    have e1 : s1.curZ = s.ls.curZ := by rw [← hs1]
    have e2 : s1.prevZ = s.ls.prevZ := by rw [← hs1]
    have e3 : s1.hasExtrusion = (s.ls.hasExtrusion || l.extruding.getD false) := by rw [← hs1]
    have e4 : s1.allZs = s.ls.allZs := by rw [← hs1]
    rcases stepLayer_cases env.mode s1 l ds.total ds.layerBegin with ⟨p, est, e⟩ | ⟨bz, est, hb, e⟩
    · rw [e]
      refine ⟨by simp only [recordLine, e4]; exact hi.1, ?_, rfl, ?_⟩
      · intro he
        simp only [recordLine, e1] at he ⊢
        apply nextCurZ_keeps
        rw [← hi.2.2.1]
        exact hflag (by rw [← e3]; exact he)
      · simp only [recordLine, e1]; exact hcur
    · rw [e]
      refine ⟨?_, fun he => by simp [recordLine] at he, rfl, ?_⟩
      · simp only [recordLine]
        apply addZ_none
        · rw [e4]; exact hi.1
        · rw [e2, e3]; exact hflag
      · simp only [recordLine, e1]; exact hcur

theorem load_heights {env : Env α} {data : List Str} {home : Home α} {g : GCode α}
    (h : GCode.load env data false home = .ok g) (hh : HeightFirst g.lines) : none ∉ g.allZs := by
  rcases load_ok h with ⟨_, rfl⟩ | ⟨_, s, hs, rfl⟩
  · simp [GCode.blank]
  · have hi : HeightFirst s.done → ZInv s := foldlM_inv (buildStep env false home) (fun _ s => HeightFirst s.done → ZInv s)
      (fun _ b s s' hp hs hh => by
        obtain ⟨l, _, hd⟩ := buildStep_m hs
        refine buildStep_z (hp ?_) hs ?_
        · intro pre l' post he
          exact hh pre l' (post ++ [storedLine false b l]) (by rw [hd, he]; simp)
        · intro l' hl' hex
          exact hh s.done l' [] hl' hex) _ [] _ s (fun _ => ⟨by simp [BuildSt.start], by simp [BuildSt.start], rfl, by simp [BuildSt.start]⟩) hs
    have hz := hi hh
    show none ∉ (closeLast s.ls s.ds.total s.ds.layerBegin).allZs
    unfold closeLast
    split_ifs
    · exact hz.1
    · exact addZ_none hz.1 hz.2.1

/-! ### visitors that change visited layers -/

theorem walk_congr {f f' : ℕ → LayerInfo} (Ls : List (List (PyLine α))) :
    ∀ i n, (∀ j, i ≤ j → f j = f' j) → walk f i n Ls = walk f' i n Ls := by
  induction Ls with
  | nil => intro i n h; rfl
  | cons L Ls ih =>
    intro i n h
    simp only [walk, h i (le_refl i), ih (i + 1) _ (fun j hj => h j (by omega))]

theorem visitLines_traced {ν : Type} (v : Visitor ν α) (num idx : ℕ) (pr : Bool) (ls : List (PyLine α)) :
    ∀ (s : ν) (es : List (Event α)) (n : ℕ), visitLines (traced v) num idx pr (s, es) n ls =
      (((visitLines v num idx pr s n ls).1, es ++ ls.mapIdx (fun j l => Event.line l ⟨num, idx, (n + j : ℕ), pr⟩)), n + ls.length) := by
  induction ls with
  | nil => intro s es n; simp [visitLines]
  | cons l ls ih =>
    intro s es n
    simp only [visitLines, traced] at ih ⊢
    rw [ih]
    congr 1
    · congr 1
      rw [List.mapIdx_cons, List.append_assoc]
      congr 1
      simp only [Nat.add_zero, List.singleton_append, List.cons.injEq, true_and]
      apply List.mapIdx_eq_mapIdx_iff.2
      intro j hj
      rw [show n + (j + 1) = n + 1 + j by omega]
    · simp only [List.length_cons]; omega

theorem acceptFrom_traced {ν : Type} {mode : RoundMode} {digits : ℕ} {v : Visitor ν α} (hv : Tame v) (g0 : GCode α) :
    ∀ (fuel i : ℕ) (s : ν) (es : List (Event α)) (n : ℕ) (g : GCode α) (r : (ν × List (Event α)) × GCode α), fuel + i = g0.allLayers.length →
      g.allLayers.drop i = g0.allLayers.drop i → g.allLayers.length = g0.allLayers.length →
      acceptFrom mode digits ((heights mode digits g0).insertionSort (· ≤ ·)) (traced v) fuel i (s, es) n g = .ok r →
      ∃ info, (∀ j L, i ≤ j → g0.allLayers[j]? = some L → Numbered mode digits g0 j L.z (info j) ∧ (info j).index ≤ j) ∧
        r.1.2 = es ++ walk info i n ((layerLines g0).drop i) := by
  intro fuel
  induction fuel with
  | zero =>
    intro i s es n g r h hd hl hr
    have : (layerLines g0).drop i = [] := by
      apply List.drop_eq_nil_of_le; simp [layerLines]; omega
    rw [this]
    simp only [acceptFrom, Except.ok.injEq] at hr
    refine ⟨fun _ => ⟨0, 0, false⟩, ?_, by rw [← hr]; simp [walk]⟩
    intro j L hj hL
    rw [List.getElem?_eq_none (by omega)] at hL; simp at hL
  | succ fuel ih =>
    intro i s es n g r h hd hl hr
    have hi : i < g0.allLayers.length := by omega
    have hg0 : g0.allLayers[i]? = some g0.allLayers[i] := List.getElem?_eq_getElem hi
    have hdrop : (layerLines g0).drop i = g0.allLayers[i].lines :: (layerLines g0).drop (i + 1) := by
      rw [List.drop_eq_getElem_cons (by simpa [layerLines] using hi)]
      simp [layerLines]
    generalize g0.allLayers[i] = L at hg0 hdrop
    have hg : g.allLayers[i]? = some L := by
      have := congrArg (fun l => l[0]?) hd
      simpa [hg0] using this
    unfold acceptFrom at hr
    rw [hg] at hr
    simp only at hr
    rw [show (traced v).willVisit (s, es) L.lines ⟨(layerNumber mode digits ((heights mode digits g0).insertionSort (· ≤ ·)) L.z i).1, layerIndex g i L, n, (layerNumber mode digits ((heights mode digits g0).insertionSort (· ≤ ·)) L.z i).2⟩ =
      (v.willVisit s L.lines ⟨(layerNumber mode digits ((heights mode digits g0).insertionSort (· ≤ ·)) L.z i).1, layerIndex g i L, n, (layerNumber mode digits ((heights mode digits g0).insertionSort (· ≤ ·)) L.z i).2⟩,
       es ++ [.will L.lines ⟨(layerNumber mode digits ((heights mode digits g0).insertionSort (· ≤ ·)) L.z i).1, layerIndex g i L, n, (layerNumber mode digits ((heights mode digits g0).insertionSort (· ≤ ·)) L.z i).2⟩]) from rfl] at hr
    rw [visitLines_traced] at hr
    have hnum := layerNumber_spec mode digits g0 i (layerIndex g i L) L.z
    generalize layerNumber mode digits ((heights mode digits g0).insertionSort (· ≤ ·)) L.z i = np at hr hnum
    obtain ⟨num, pr⟩ := np
    have hidx := (layerIndex_spec hg).1
    generalize layerIndex g i L = idx at hr hnum hidx
    simp only at hr hnum
    generalize (visitLines v num idx pr (v.willVisit s L.lines ⟨num, idx, n, pr⟩) n L.lines).1 = s1 at hr
    have htr : ∀ es', (traced v).didVisit (s1, es') g L.lines ⟨num, idx, ((n + L.lines.length : ℕ) : ℤ) - 1, pr⟩ =
        match v.didVisit s1 g L.lines ⟨num, idx, ((n + L.lines.length : ℕ) : ℤ) - 1, pr⟩ with
        | .error er => .error er
        | .ok (s', g') => .ok ((s', es' ++ [.did L.lines ⟨num, idx, ((n + L.lines.length : ℕ) : ℤ) - 1, pr⟩]), g') := fun _ => rfl
    rw [htr] at hr
    cases hdv : v.didVisit s1 g L.lines ⟨num, idx, ((n + L.lines.length : ℕ) : ℤ) - 1, pr⟩ with
    | error e => rw [hdv] at hr; simp at hr
    | ok q =>
      obtain ⟨s2, g2⟩ := q
      rw [hdv] at hr
      simp only at hr
      obtain ⟨t1, t2⟩ := hv _ _ _ _ _ _ hdv
      have hd2 : g2.allLayers.drop (i + 1) = g0.allLayers.drop (i + 1) := by
        have e1 : g2.allLayers.drop (i + 1) = (g2.allLayers.drop (idx + 1)).drop (i - idx) := by
          rw [List.drop_drop]; congr 1; omega
        have e2 : g.allLayers.drop (i + 1) = (g.allLayers.drop (idx + 1)).drop (i - idx) := by
          rw [List.drop_drop]; congr 1; omega
        rw [e1, t2, ← e2]
        have := congrArg (List.drop 1) hd
        simpa [List.drop_drop] using this
      obtain ⟨info, h1, h2⟩ := ih (i + 1) s2 _ _ g2 r (by omega) hd2 (by rw [t1, hl]) hr
      refine ⟨fun j => if j = i then ⟨num, idx, pr⟩ else info j, ?_, ?_⟩
      · intro j L' hj hL'
        by_cases hji : j = i
        · subst hji
          rw [hg0] at hL'
          obtain rfl := Option.some.inj hL'
          simp only [if_true]
          exact ⟨hnum, hidx⟩
        · simp only [if_neg hji]
          exact h1 j L' (by omega) hL'
      · rw [h2, hdrop]
        simp only [walk, if_true]
        rw [walk_congr (f := info) (f' := fun j => if j = i then ⟨num, idx, pr⟩ else info j) _ (i + 1) _ (fun j hj => by rw [if_neg (by omega)])]
        simp

end GCodeUtils
