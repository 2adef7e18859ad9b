import Verif.Lemmas.Visit
import Verif.Props.Common

/-
  C36-C40: walking a program, layer numbers, pauses.
-/

set_option linter.unusedSectionVars false

namespace GCodeUtils

open Spec

variable {α : Type} [Field α] [LinearOrder α] [IsStrictOrderedRing α] [FloorRing α]

/-- Walking a program as the command line tool does: construct the iterator, then accept the visitor. -/
def walkWith {ν : Type} (mode : RoundMode) (digits : ℕ) (v : Visitor ν α) (s : ν) (g : GCode α) : Except Err (ν × GCode α) :=
  match iteratorZs mode digits g with
  | .error er => .error er
  | .ok zs => accept mode digits zs v s g

theorem walkWith_ok {ν : Type} {mode : RoundMode} {digits : ℕ} {v : Visitor ν α} {s : ν} {g : GCode α} (h : none ∉ g.allZs) :
    walkWith mode digits v s g = accept mode digits ((heights mode digits g).insertionSort (· ≤ ·)) v s g := by
  unfold walkWith
  rw [(iteratorZs_ok g).2 h]

/-- C36. Whatever the visitor, as long as it does not change the program: the walk makes exactly the calls of
`walk`, that is, for each layer in order one announcement, one call per line in order, one closing call, lines
numbered 0, 1, 2, … through the whole program; and the program comes out unchanged. The layer information passed is
that of `Numbered` and `FirstAlike`. -/
theorem C36_walk {ν : Type} (mode : RoundMode) (digits : ℕ) (g : GCode α) (h : none ∉ g.allZs) (v : Visitor ν α) (hv : ReadOnly v) (s : ν) :
    ∃ info, (∀ i L, g.allLayers[i]? = some L → Numbered mode digits g i L.z (info i) ∧ FirstAlike g i (info i)) ∧
      walkWith mode digits v s g = ((walk info 0 0 (layerLines g)).foldlM (Event.call v g) s).map (fun s => (s, g)) := by
  rw [walkWith_ok h]
  refine ⟨codeInfo mode digits ((heights mode digits g).insertionSort (· ≤ ·)) g, ?_, ?_⟩
  · intro i L hL
    unfold codeInfo
    rw [hL]
    exact ⟨layerNumber_spec mode digits g i _ L.z, layerIndex_first hL _ _⟩
  · exact acceptFrom_readOnly hv g _ 0 s 0 (by simp)

/-- C36 with the calls written down. -/
theorem C36_record (mode : RoundMode) (digits : ℕ) (g : GCode α) (h : none ∉ g.allZs) :
    ∃ info, (∀ i L, g.allLayers[i]? = some L → Numbered mode digits g i L.z (info i) ∧ FirstAlike g i (info i)) ∧
      walkWith mode digits recorder [] g = .ok (walk info 0 0 (layerLines g), g) := by
  obtain ⟨info, h1, h2⟩ := C36_walk mode digits g h recorder (by
    intro s g L i s' g' he
    simp only [recorder, Except.ok.injEq, Prod.mk.injEq] at he
    exact he.2.symm) []
  refine ⟨info, h1, ?_⟩
  rw [h2, walk_record]
  rfl

/-- C36 for visitors that change the program: if each change concerns layers up to the one just reported, the calls
are still those of `walk` on the program as it was. -/
theorem C36_changing {ν : Type} (mode : RoundMode) (digits : ℕ) (g : GCode α) (h : none ∉ g.allZs) (v : Visitor ν α) (hv : Tame v)
    (s : ν) (r : (ν × List (Event α)) × GCode α) (hr : walkWith mode digits (traced v) (s, []) g = .ok r) :
    ∃ info, (∀ i L, g.allLayers[i]? = some L → Numbered mode digits g i L.z (info i) ∧ (info i).index ≤ i) ∧
      r.1.2 = walk info 0 0 (layerLines g) := by
  rw [walkWith_ok h] at hr
  obtain ⟨info, h1, h2⟩ := acceptFrom_traced hv g _ 0 s [] 0 g r (by simp) rfl rfl hr
  exact ⟨info, fun i L hL => h1 i L (by omega) hL, by simpa using h2⟩

/-- The lines a walk visits, with their numbers. -/
def visited : List (Event α) → List (PyLine α × ℤ)
  | [] => []
  | .line l i :: es => (l, i.lineNumber) :: visited es
  | _ :: es => visited es

theorem visited_append (a b : List (Event α)) : visited (a ++ b) = visited a ++ visited b := by
  induction a with
  | nil => rfl
  | cons e a ih => cases e <;> simp [visited, ih]

/-- C36, consequence: every line of an indexed (in particular of a loaded) program is visited once, in program order,
with its position in the program as its number. -/
theorem C36_lines (info : ℕ → LayerInfo) (g : GCode α) (hi : Indexed g) :
    visited (walk info 0 0 (layerLines g)) = g.lines.mapIdx (fun i l => (l, (i : ℤ))) := by
  have hl : ∀ (num idx : ℕ) (pr : Bool) (L : List (PyLine α)) (n : ℕ),
      visited (L.mapIdx (fun j l => Event.line l ⟨num, idx, (n + j : ℕ), pr⟩)) = L.mapIdx (fun j l => (l, ((n + j : ℕ) : ℤ))) := by
    intro num idx pr L
    induction L with
    | nil => intro n; rfl
    | cons l L ih =>
      intro n
      rw [List.mapIdx_cons, List.mapIdx_cons]
      simp only [visited]
      congr 1
      have := ih (n + 1)
      simp only [Nat.add_assoc, Nat.add_comm 1] at this
      exact this
  have key : ∀ (Ls : List (List (PyLine α))) (i n : ℕ), visited (walk info i n Ls) = Ls.flatten.mapIdx (fun j l => (l, ((n + j : ℕ) : ℤ))) := by
    intro Ls
    induction Ls with
    | nil => intro i n; rfl
    | cons L Ls ih =>
      intro i n
      simp only [walk, visited, visited_append, List.flatten_cons, List.mapIdx_append]
      rw [hl, ih]
      congr 1
      apply List.mapIdx_eq_mapIdx_iff.2
      intro j hj
      rw [show n + L.length + j = n + (j + L.length) by omega]
  rw [key, hi.1]
  apply List.mapIdx_eq_mapIdx_iff.2
  intro j hj
  simp

/-- The pause visitor is such a visitor. -/
theorem pauseVisitor_tame (pauses : List ℤ) : Tame (pauseVisitor (α := α) pauses) := by
  intro s g L i s' g' h
  simp only [pauseVisitor] at h
  split_ifs at h
  · cases hp : g.prependToLayer [pauseCommand] i.layerIndex with
    | error e => rw [hp] at h; simp at h
    | ok q =>
      rw [hp] at h
      simp only [Except.ok.injEq, Prod.mk.injEq] at h
      unfold GCode.prependToLayer at hp
      cases hL : g.allLayers[i.layerIndex]? with
      | none => simp only [hL] at hp; simp at hp
      | some layer =>
        simp only [hL] at hp
        split_ifs at hp
        revert hp
        cases g.lineIdxs[endIndex g.layerIdxs (g.layerIdxs.idxOf i.layerIndex) i.layerIndex - 1]? with
        | none => intro hp; simp at hp
        | some e =>
          intro hp
          simp only [Except.ok.injEq] at hp
          rw [← h.2, ← hp]
          simp [List.drop_set]
  · simp only [Except.ok.injEq, Prod.mk.injEq] at h
    rw [← h.2]; simp

/-- A program with two printed layers. -/
def floors : List Str :=
  [c!"; start", c!"G21", c!"G90", c!"M82", c!"G28", c!"G1 Z0.3 F1200", c!"G1 X10 Y10 E1", c!"G1 X20 Y10 E2", c!"M106 S255",
   c!"G1 Z0.6", c!"G1 X20 Y20 E3 ; side", c!"M104 S0"]

/-- The same, loaded. -/
def floorsG : GCode ℚ := loadQ floors

/-- The sample has recorded heights, all known, and several layers. -/
example : none ∉ floorsG.allZs ∧ floorsG.allZs.length = 2 ∧ floorsG.allLayers.length = 4 := by decide +kernel

/-- The recorder only reads. -/
example : ReadOnly (recorder (α := ℚ)) := by
  intro s g L i s' g' he
  simp only [recorder, Except.ok.injEq, Prod.mk.injEq] at he
  exact he.2.symm

/-- A walk written out: numbers of the first line of each layer, layer numbers and indices of the sample. -/
def events (data : List Str) : List (Event ℚ) := (okOr ([], loadQ data) (walkWith .halfEven 2 recorder [] (loadQ data))).1

/-- The announcements in it. -/
def announced (es : List (Event ℚ)) : List Info := es.filterMap (fun e => match e with | .will _ i => some i | _ => none)

example : announced (events floors) =
    [⟨0, 0, 0, false⟩, ⟨0, 1, 5, true⟩, ⟨1, 2, 9, true⟩, ⟨3, 3, 12, false⟩] := by decide +kernel

/-- A program with two layers that print the same lines (relative positioning). -/
def stairs : List Str := [c!"G91", c!"G1 Z0.3", c!"G1 X10 E1", c!"G1 X-10 E1", c!"G1 Z0.3", c!"G1 X10 E1", c!"G1 X-10 E1"]

example : GCode.load qEnv stairs = .ok (loadQ stairs) ∧ none ∉ (loadQ stairs).allZs := by decide +kernel

/-- C37 is false of the code: in `stairs`, layers 1 and 2 have the same lines, and layer 2 is announced with index 1. -/
theorem C37_refuted : GCode.load qEnv stairs = .ok (loadQ stairs) ∧ (loadQ stairs).allLayers.length = 4 ∧
    (announced (events stairs)).map (·.layerIndex) = [0, 1, 1, 3] := by decide +kernel

/-- C37, what holds: the layer announced has its own index exactly if no earlier layer looks like it (same
commands, arguments at most 0.001 apart); in a light program, exactly if it is not a second empty layer. -/
theorem C37_partial (mode : RoundMode) (digits : ℕ) (g : GCode α) (h : none ∉ g.allZs) :
    ∃ info, walkWith mode digits recorder [] g = .ok (walk info 0 0 (layerLines g), g) ∧
      ∀ i L, g.allLayers[i]? = some L → ((info i).index = i ↔
        ∀ j M, j < i → g.allLayers[j]? = some M →
          (g.light = false → ¬ LookAlike M.lines L.lines) ∧ (g.light = true → ¬ (M.lines = [] ∧ L.lines = []))) := by
  obtain ⟨info, h1, h2⟩ := C36_record mode digits g h
  refine ⟨info, h2, ?_⟩
  intro i L hL
  obtain ⟨_, hf⟩ := h1 i L hL
  constructor
  · intro he j M hj hM
    exact hf.first j L M hL hM (by omega)
  · intro hn
    obtain ⟨L', M, hL', hM, hle, hs⟩ := hf.exists_
    obtain rfl : L = L' := by rw [hL] at hL'; exact Option.some.inj hL'
    by_contra hne
    obtain ⟨n1, n2⟩ := hn (info i).index M (by omega) hM
    rcases hs with ⟨hl, hs⟩ | ⟨hl, hs | hs⟩
    · exact n1 hl hs
    · exact hne hs
    · exact n2 hl hs

/-- The layers of the sample do not look alike, except that nothing is claimed of empty layers. -/
theorem floorsG_distinct : Distinct floorsG := by
  intro i j L M hi hj hij hne
  rw [← linesEq_iff, ← linesEq_iff]
  have hlen : floorsG.allLayers.length = 4 := by decide +kernel
  have hi4 : i < 4 := by
    by_contra hn
    rw [List.getElem?_eq_none (by omega)] at hi; simp at hi
  have hj4 : j < 4 := by
    by_contra hn
    rw [List.getElem?_eq_none (by omega)] at hj; simp at hj
  have key : ∀ i ∈ List.range 4, ∀ j ∈ List.range 4, i ≠ j →
      ((floorsG.allLayers[i]?).map (fun L => (floorsG.allLayers[j]?).map (fun M =>
        L.lines.isEmpty || (!linesEq L.lines M.lines && !linesEq (pauseLine :: L.lines) M.lines)))) = some (some true) := by decide +kernel
  have := key i (by simpa using hi4) j (by simpa using hj4) hij
  rw [hi, hj] at this
  simp only [Option.map_some, Option.some.injEq, Bool.or_eq_true, Bool.and_eq_true, List.isEmpty_iff] at this
  rcases this with h | h
  · exact absurd h hne
  · constructor
    · intro h'; rw [h'] at h; simp at h
    · intro h'; rw [h'] at h; simp at h

/-- Layer texts of a program after pausing. -/
def pausedTexts (data : List Str) (pauses : List ℤ) : List (List Str) :=
  (okOr (loadQ data) ((loadQ data).pauseAt .halfEven 2 pauses)).allLayers.map (fun L => L.lines.map (·.raw))

/-- C38 is false of the code: asked to pause at layer 1 (the second printed one) of `stairs`, it puts the pause at
the start of layer 0. -/
theorem C38_refuted : GCode.load qEnv stairs = .ok (loadQ stairs) ∧
    pausedTexts stairs [1] = [[c!"G91"], [c!"M226", c!"G1 Z0.3", c!"G1 X10 E1", c!"G1 X-10 E1"],
      [c!"G1 Z0.3", c!"G1 X10 E1", c!"G1 X-10 E1"], []] ∧
    (announced (events stairs)).map (fun i => (i.layerNumber, i.isPrinted)) = [(0, false), (0, true), (1, true), (3, false)] := by decide +kernel

/-- C38, what holds for every loaded program with known heights: pausing succeeds; the layers come out with pauses
added at their starts and nothing else changed; and as many pauses are added as there are printed layers with a
number in the list. Lines, layers and index arrays stay consistent. -/
theorem C38_count_partial (env : Env α) (data : List Str) (light : Bool) (home : Home α) (g : GCode α)
    (hg : GCode.load env data light home = .ok g) (h : none ∉ g.allZs) (mode : RoundMode) (digits : ℕ) (pauses : List ℤ) :
    ∃ g' k, g.pauseAt mode digits pauses = .ok g' ∧ g'.allLayers = withPauses k g.allLayers ∧ Indexed g' ∧
      g' = { g with allLayers := g'.allLayers, lines := g'.lines, layerIdxs := g'.layerIdxs, lineIdxs := g'.lineIdxs } ∧
      ∃ due : List (Layer α), due.Sublist g.allLayers ∧ (∀ L ∈ due, ShouldPause mode digits g pauses L.z) ∧
        (∀ L ∈ g.allLayers, ShouldPause mode digits g pauses L.z → L ∈ due) ∧
        ((List.range g.allLayers.length).map k).sum = due.length := by
  obtain ⟨g', k, h1, h2, h3, h4, _, h6, _⟩ := pause_loop (mode := mode) (digits := digits) (pauses := pauses)
    (zs := (heights mode digits g).insertionSort (· ≤ ·)) g
    (fun z hz hn => by
      rw [codePause_iff] at hz
      obtain ⟨x, hx, _⟩ := hz
      rw [hn] at hx; simp at hx) (load_emptyFlat hg) g.allLayers.length 0 (fun _ => 0) 0 g (by simp)
    (withPauses_zero _).symm (load_indexed hg) rfl (fun _ _ _ _ => rfl)
  refine ⟨g', k, ?_, h2, h3, h4, _, List.filter_sublist (p := fun L : Layer α => codePause mode digits ((heights mode digits g).insertionSort (· ≤ ·)) pauses L.z), ?_, ?_, ?_⟩
  · unfold GCode.pauseAt
    rw [(iteratorZs_ok g).2 h]
    simp only [accept, h1]
  · intro L hL
    rw [← codePause_iff]
    exact (List.mem_filter.1 hL).2
  · intro L hL hs
    exact List.mem_filter.2 ⟨hL, by rw [codePause_iff]; exact hs⟩
  · rw [h6]; simp

/-- C38 for programs without look-alike layers (and for all light programs): each printed layer whose number is in
the list gets one pause line at its start; every other layer is untouched. -/
theorem C38_exact_partial (env : Env α) (data : List Str) (light : Bool) (home : Home α) (g : GCode α)
    (hg : GCode.load env data light home = .ok g) (h : none ∉ g.allZs) (hd : light = true ∨ Distinct g)
    (mode : RoundMode) (digits : ℕ) (pauses : List ℤ) :
    ∃ g', g.pauseAt mode digits pauses = .ok g' ∧ Indexed g' ∧
      List.Forall₂ (fun L M => (ShouldPause mode digits g pauses L.z → M = { L with lines := pauseLine :: L.lines }) ∧
        (¬ ShouldPause mode digits g pauses L.z → M = L)) g.allLayers g'.allLayers ∧
      g' = { g with allLayers := g'.allLayers, lines := g'.lines, layerIdxs := g'.layerIdxs, lineIdxs := g'.lineIdxs } := by
  have hlight : g.light = light := by
    rcases load_ok hg with ⟨_, rfl⟩ | ⟨_, s, hs, rfl⟩ <;> rfl
  obtain ⟨g', k, h1, h2, h3, h4, _, _, h7⟩ := pause_loop (mode := mode) (digits := digits) (pauses := pauses)
    (zs := (heights mode digits g).insertionSort (· ≤ ·)) g
    (fun z hz hn => by
      rw [codePause_iff] at hz
      obtain ⟨x, hx, _⟩ := hz
      rw [hn] at hx; simp at hx) (load_emptyFlat hg) g.allLayers.length 0 (fun _ => 0) 0 g (by simp)
    (withPauses_zero _).symm (load_indexed hg) rfl (fun _ _ _ _ => rfl)
  refine ⟨g', ?_, h3, ?_, h4⟩
  · unfold GCode.pauseAt
    rw [(iteratorZs_ok g).2 h]
    simp only [accept, h1]
  · obtain ⟨_, hk⟩ := h7 (by rw [hlight]; exact hd) (fun _ => by simp) (fun _ _ => rfl)
    rw [List.forall₂_iff_get]
    refine ⟨by rw [h2]; simp [withPauses], ?_⟩
    intro i hi hi'
    have hL : g.allLayers[i]? = some (g.allLayers.get ⟨i, hi⟩) := List.getElem?_eq_getElem hi
    generalize g.allLayers.get ⟨i, hi⟩ = L at hL
    have hM : g'.allLayers[i]? = some (g'.allLayers.get ⟨i, hi'⟩) := List.getElem?_eq_getElem hi'
    generalize g'.allLayers.get ⟨i, hi'⟩ = M at hM
    rw [h2, withPauses_get, hL] at hM
    have hM' := (Option.some.inj hM).symm
    have hki := hk i L (by omega) hL
    rw [hM', hki]
    constructor
    · intro hs
      rw [← codePause_iff] at hs
      rw [if_pos hs]; rfl
    · intro hs
      rw [← codePause_iff] at hs
      rw [if_neg hs]; rfl

/-- The pause line is the text `M226`. -/
theorem pauseLine_raw : (pauseLine : PyLine α).raw = c!"M226" ∧ (pauseLine : PyLine α).command = some c!"M226" := by
  constructor
  · unfold pauseLine
    show (rawToLine c!"M226" : PyLine α).raw = _
    rw [rawToLine, split_raw]
  · rfl

/-- Deleting the inserted lines restores the layers. -/
theorem paused_restore (mode : RoundMode) (digits : ℕ) (g : GCode α) (pauses : List ℤ) (layers : List (Layer α))
    (h : List.Forall₂ (fun L M => (ShouldPause mode digits g pauses L.z → M = { L with lines := pauseLine :: L.lines }) ∧
        (¬ ShouldPause mode digits g pauses L.z → M = L)) g.allLayers layers) (hno : ∀ L ∈ g.allLayers, ∀ l ∈ L.lines, l.raw ≠ c!"M226") :
    layers.map (fun L => L.lines.filter (fun l => l.raw ≠ c!"M226")) = layerLines g := by
  unfold layerLines
  generalize g.allLayers = A at h hno
  induction h with
  | nil => rfl
  | cons h _ ih =>
    rename_i L M A B _
    rw [List.map_cons, List.map_cons, ih (fun L hL => hno L (List.mem_cons_of_mem _ hL))]
    congr 1
    have hf : L.lines.filter (fun l => l.raw ≠ c!"M226") = L.lines := by
      rw [List.filter_eq_self]
      intro l hl
      simpa using hno L (by simp) l hl
    by_cases hs : ShouldPause mode digits g pauses L.z
    · rw [h.1 hs]
      simp only
      rw [List.filter_cons_of_neg (by simp [(pauseLine_raw (α := α)).1]), hf]
    · rw [h.2 hs, hf]

/-- C38: deleting the inserted lines restores the program. -/
theorem C38_restore_partial (env : Env α) (data : List Str) (light : Bool) (home : Home α) (g : GCode α)
    (hg : GCode.load env data light home = .ok g) (h : none ∉ g.allZs) (hd : light = true ∨ Distinct g)
    (hno : ∀ l ∈ g.lines, l.raw ≠ c!"M226") (mode : RoundMode) (digits : ℕ) (pauses : List ℤ) :
    ∃ g', g.pauseAt mode digits pauses = .ok g' ∧ g'.lines.filter (fun l => l.raw ≠ c!"M226") = g.lines := by
  obtain ⟨g', h1, h2, h3, _⟩ := C38_exact_partial env data light home g hg h hd mode digits pauses
  refine ⟨g', h1, ?_⟩
  have hi := load_indexed hg
  rw [h2.1, hi.1]
  have := paused_restore mode digits g pauses g'.allLayers h3 (by
    intro L hL l hl
    apply hno
    rw [hi.1]
    exact List.mem_flatten.2 ⟨L.lines, List.mem_map.2 ⟨L, hL, rfl⟩, hl⟩)
  rw [← this, List.filter_flatten]
  simp only [layerLines, List.map_map]
  rfl

example : ∀ l ∈ floorsG.lines, l.raw ≠ c!"M226" := by decide +kernel
example : GCode.load qEnv floors = .ok floorsG ∧ none ∉ floorsG.allZs := by decide +kernel
example : pausedTexts floors [1, 7, -1] = [[c!"; start", c!"G21", c!"G90", c!"M82", c!"G28"],
    [c!"G1 Z0.3 F1200", c!"G1 X10 Y10 E1", c!"G1 X20 Y10 E2", c!"M106 S255"],
    [c!"M226", c!"G1 Z0.6", c!"G1 X20 Y20 E3 ; side", c!"M104 S0"], []] := by decide +kernel
example : ShouldPause .halfEven 2 floorsG [1, 7, -1] (some (3 / 5)) := ⟨3 / 5, rfl, by decide +kernel, by decide +kernel⟩
example : ¬ ShouldPause .halfEven 2 floorsG [1, 7, -1] (some (3 / 10)) := by
  rintro ⟨h, h1, _, h3⟩
  obtain rfl := Option.some.inj h1
  revert h3
  decide +kernel

/-- C39 is false of the code: extruding before any Z word leaves the unknown height among the recorded ones, and the
iterator cannot be constructed. -/
theorem C39_refuted : GCode.load qEnv [c!"G1 X10 E1"] = .ok (loadQ [c!"G1 X10 E1"]) ∧
    (loadQ [c!"G1 X10 E1"]).pauseAt .halfEven 2 [] = .error .typeError := by decide +kernel

/-- The same when extrusion and first Z word share the line. -/
theorem C39_same_line_refuted : GCode.load qEnv [c!"G1 X10 Z0.3 E1"] = .ok (loadQ [c!"G1 X10 Z0.3 E1"]) ∧
    (loadQ [c!"G1 X10 Z0.3 E1"]).pauseAt .halfEven 2 [] = .error .typeError := by decide +kernel

/-- C39, exact condition: for a loaded program, walking it with the pause visitor raises exactly if an unknown height was recorded,
and then it raises TypeError. -/
theorem C39_partial (env : Env α) (data : List Str) (light : Bool) (home : Home α) (g : GCode α)
    (hg : GCode.load env data light home = .ok g) (mode : RoundMode) (digits : ℕ) (pauses : List ℤ) :
    (none ∉ g.allZs → ∃ g', g.pauseAt mode digits pauses = .ok g') ∧
    (none ∈ g.allZs → g.pauseAt mode digits pauses = .error .typeError) := by
  refine ⟨fun h => ?_, fun h => ?_⟩
  · obtain ⟨g', _, h1, _⟩ := C38_count_partial env data light home g hg h mode digits pauses
    exact ⟨g', h1⟩
  · unfold GCode.pauseAt
    rw [(iteratorZs_ok g).1 h]

/-- C39 for every program in which a move or G92 with a Z word comes before the first extruding line. -/
theorem C39_height_first_partial (env : Env α) (data : List Str) (home : Home α) (g : GCode α)
    (hg : GCode.load env data false home = .ok g) (hh : HeightFirst g.lines) (mode : RoundMode) (digits : ℕ) (pauses : List ℤ) :
    ∃ g', g.pauseAt mode digits pauses = .ok g' :=
  (C39_partial env data false home g hg mode digits pauses).1 (load_heights hg hh)

/-- The sample gives the height first. -/
example : HeightFirst floorsG.lines := by
  intro pre l post he hx
  have hz : ∃ m ∈ floorsG.lines.take 6, SetsZ m := by
    refine ⟨floorsG.lines[5]'(by decide +kernel), ?_, ?_⟩
    · decide +kernel
    · unfold SetsZ; decide +kernel
  have hno : ∀ l ∈ floorsG.lines.take 6, l.extruding ≠ some true := by decide +kernel
  have hpre : 6 ≤ pre.length := by
    by_contra hn
    apply hno l _ hx
    rw [he, List.take_append, List.mem_append]
    right
    rw [show 6 - pre.length = (6 - pre.length - 1) + 1 by omega]
    simp
  obtain ⟨m, hm, hs⟩ := hz
  refine ⟨m, ?_, hs⟩
  rw [he, List.take_append_of_le_length hpre] at hm
  exact List.mem_of_mem_take hm

/-- C40. In the walk of any program, the number of a printed layer is the number of (rounded) recorded heights below
its own; so numbers follow height, differ when the rounded heights differ, and stay below the number of recorded
heights. -/
theorem C40_numbers (mode : RoundMode) (digits : ℕ) (g : GCode α) (h : none ∉ g.allZs) :
    ∃ info, walkWith mode digits recorder [] g = .ok (walk info 0 0 (layerLines g), g) ∧
      (∀ i L, g.allLayers[i]? = some L → (info i).printed = true → (info i).number < g.allZs.length) ∧
      ∀ i j L M a b, g.allLayers[i]? = some L → g.allLayers[j]? = some M → (info i).printed = true → (info j).printed = true →
        L.z = some a → M.z = some b →
        (pyRound mode digits a ≤ pyRound mode digits b → (info i).number ≤ (info j).number) ∧
        (pyRound mode digits a < pyRound mode digits b → (info i).number < (info j).number) := by
  obtain ⟨info, h1, h2⟩ := C36_record mode digits g h
  have hlen : (heights mode digits g).length ≤ g.allZs.length := by
    unfold heights; rw [List.length_map]; exact List.length_filterMap_le _ _
  have hlt : ∀ (H : List α) (r : α), r ∈ H → (H.filter (fun k => k < r)).length < H.length := by
    intro H r hr
    apply List.length_filter_lt_length_iff_exists.2
    exact ⟨r, hr, by simp⟩
  have hmono : ∀ (H : List α) (r s : α), r ≤ s → (H.filter (fun k => k < r)).length ≤ (H.filter (fun k => k < s)).length := by
    intro H r s hrs
    apply List.Sublist.length_le
    have : H.filter (fun k => k < r) = (H.filter (fun k => k < s)).filter (fun k => k < r) := by
      rw [List.filter_filter]
      apply List.filter_congr
      intro k _
      by_cases hk : k < r
      · simp [hk, lt_of_lt_of_le hk hrs]
      · simp [hk]
    rw [this]; exact List.filter_sublist
  have hstrict : ∀ (H : List α) (r s : α), r ∈ H → r < s → (H.filter (fun k => k < r)).length < (H.filter (fun k => k < s)).length := by
    intro H r s hr hrs
    have : H.filter (fun k => k < r) = (H.filter (fun k => k < s)).filter (fun k => k < r) := by
      rw [List.filter_filter]
      apply List.filter_congr
      intro k _
      by_cases hk : k < r
      · simp [hk, lt_trans hk hrs]
      · simp [hk]
    rw [this]
    exact hlt _ r (List.mem_filter.2 ⟨hr, by simpa using hrs⟩)
  refine ⟨info, h2, ?_, ?_⟩
  · intro i L hL hp
    obtain ⟨hn, _⟩ := h1 i L hL
    obtain ⟨z, hz, hm⟩ := hn.printed.1 hp
    rw [hn.number z hz hp]
    exact lt_of_lt_of_le (hlt _ _ hm) hlen
  · intro i j L M a b hL hM hpi hpj ha hb
    obtain ⟨hn, _⟩ := h1 i L hL
    obtain ⟨hn', _⟩ := h1 j M hM
    rw [hn.number a ha hpi, hn'.number b hb hpj]
    refine ⟨hmono _ _ _, hstrict _ _ _ ?_⟩
    obtain ⟨z, hz, hm⟩ := hn.printed.1 hpi
    rw [ha] at hz
    rw [Option.some.inj hz]; exact hm

end GCodeUtils
