import Verif.Props.OptionRuns

/-
  C137: pauses inserted by a first run, the other options given to later runs.
-/

set_option linter.unusedSectionVars false

namespace GCodeUtils

open Spec

variable {α : Type} [Field α] [LinearOrder α] [IsStrictOrderedRing α] [FloorRing α]

/-! ### filters and pauses -/

theorem withPauses_cons (k : ℕ → ℕ) (L : Layer α) (Ls : List (Layer α)) :
    withPauses k (L :: Ls) = { L with lines := List.replicate (k 0) pauseLine ++ L.lines } :: withPauses (fun i => k (i + 1)) Ls := by
  unfold withPauses
  rw [List.mapIdx_cons]

/-- The filter does not see pauses. -/
def Blind {σ : Type} (f : σ → PyLine α → σ × PyLine α) : Prop := ∀ s, f s pauseLine = (s, pauseLine)

theorem scan_paused {σ : Type} {f : σ → PyLine α → σ × PyLine α} (hf : Blind f) (n : ℕ) (ls : List (PyLine α)) (s : σ) :
    scan f s (List.replicate n pauseLine ++ ls) = ((scan f s ls).1, List.replicate n pauseLine ++ (scan f s ls).2) := by
  induction n with
  | zero => rfl
  | succ n ih =>
    rw [List.replicate_succ, List.cons_append, scan, hf s]
    simp only
    rw [ih]
    rfl

theorem scanLayers_paused {σ : Type} {f : σ → PyLine α → σ × PyLine α} (hf : Blind f) (Ls : List (Layer α)) :
    ∀ (k : ℕ → ℕ) (s : σ), (scanLayers f s (withPauses k Ls)).2 = withPauses k (scanLayers f s Ls).2 := by
  induction Ls with
  | nil => intro k s; rfl
  | cons L Ls ih =>
    intro k s
    rw [withPauses_cons]
    simp only [scanLayers]
    rw [scan_paused hf, withPauses_cons, ih]

theorem pauseLine_command : (pauseLine : PyLine α).command = some c!"M226" := rfl

theorem pause_not (c : Str) (hc : c ≠ c!"M226") : ¬ HasCmd (pauseLine : PyLine α) c := by
  intro h
  rw [HasCmd, pauseLine_command, Option.some.injEq] at h
  exact hc h.symm

theorem pause_not_move : ¬ IsMove (pauseLine : PyLine α) := not_move_cmd (by decide) (pauseLine_command (α := α))

theorem transLine_blind : Blind (transLine (α := α)) := by
  intro s
  unfold transLine
  rw [if_neg pause_not_move, if_neg (pause_not _ (by decide)), if_neg (pause_not _ (by decide)), if_neg (pause_not _ (by decide))]

theorem relLine_blind : Blind (relLine (α := α)) := by
  intro s
  unfold relLine
  rw [if_neg (pause_not _ (by decide)), if_neg (pause_not _ (by decide)), if_neg (pause_not _ (by decide)), if_neg (fun h => pause_not_move h.1)]

/-- The layers after the filters of a group of options. -/
def optLayers (o : ModOptions α) (Ls : List (Layer α)) : List (Layer α) :=
  let Ls := if o.x.isSome || o.y.isSome then (scanLayers transLine (TransSt.init o.x o.y) Ls).2 else Ls
  if o.e then (scanLayers relLine RelSt.init Ls).2 else Ls

theorem filter_layers (o : ModOptions α) (g : GCode α) : o.filter g = .ok { g with allLayers := optLayers o g.allLayers } := by
  unfold ModOptions.filter optLayers
  by_cases hx : (o.x.isSome || o.y.isSome) = true
  · rw [if_pos hx, if_pos hx, translate_eq]
    simp only
    by_cases he : o.e = true
    · rw [if_pos he, if_pos he, toRelativeE_eq]
    · rw [if_neg he, if_neg he]
  · rw [if_neg hx, if_neg hx]
    simp only
    by_cases he : o.e = true
    · rw [if_pos he, if_pos he, toRelativeE_eq]
    · rw [if_neg he, if_neg he]

theorem optLayers_paused (o : ModOptions α) (k : ℕ → ℕ) (Ls : List (Layer α)) : optLayers o (withPauses k Ls) = withPauses k (optLayers o Ls) := by
  unfold optLayers
  have h1 : (if o.x.isSome || o.y.isSome then (scanLayers transLine (TransSt.init o.x o.y) (withPauses k Ls)).2 else withPauses k Ls) =
      withPauses k (if o.x.isSome || o.y.isSome then (scanLayers transLine (TransSt.init o.x o.y) Ls).2 else Ls) := by
    split_ifs
    · exact scanLayers_paused transLine_blind _ _ _
    · rfl
  simp only
  rw [h1]
  by_cases he : o.e = true
  · rw [if_pos he, if_pos he]; exact scanLayers_paused relLine_blind _ _ _
  · rw [if_neg he, if_neg he]

theorem optLayers_shape (o : ModOptions α) (Ls : List (Layer α)) : SameShape Ls (optLayers o Ls) := by
  unfold optLayers
  have h1 : SameShape Ls (if o.x.isSome || o.y.isSome then (scanLayers transLine (TransSt.init o.x o.y) Ls).2 else Ls) := by
    split_ifs
    · exact scanLayers_shape _ _ _
    · exact SameShape.refl _
  simp only
  by_cases he : o.e = true
  · rw [if_pos he]; exact h1.trans (scanLayers_shape _ _ _)
  · rw [if_neg he]; exact h1

theorem memory_layers (os : List (ModOptions α)) : ∀ (g : GCode α), ∃ Ls, inMemory g os = .ok { g with allLayers := Ls } ∧ SameShape g.allLayers Ls ∧
    ∀ k, inMemory { g with allLayers := withPauses k g.allLayers } os = .ok { g with allLayers := withPauses k Ls } := by
  induction os with
  | nil => intro g; exact ⟨g.allLayers, rfl, SameShape.refl _, fun _ => rfl⟩
  | cons o os ih =>
    intro g
    obtain ⟨Ls, h1, h2, h3⟩ := ih { g with allLayers := optLayers o g.allLayers }
    refine ⟨Ls, ?_, (optLayers_shape o g.allLayers).trans h2, ?_⟩
    · simp only [inMemory, bind, Except.bind, filter_layers]
      exact h1
    · intro k
      simp only [inMemory, bind, Except.bind, filter_layers, optLayers_paused]
      exact h3 k

/-! ### the pauses of a filtered program -/

/-- One pause at the beginning of each layer that should have one. -/
def onePause (mode : RoundMode) (digits : ℕ) (g : GCode α) (pauses : List ℤ) (j : ℕ) : ℕ :=
  match g.allLayers[j]? with
  | none => 0
  | some L => if codePause mode digits ((heights mode digits g).insertionSort (· ≤ ·)) pauses L.z then 1 else 0

/-- Where the pauses of a filtered program without repeated layers are. -/
theorem pause_places {g0 g : GCode α} (hi : Indexed g0) (hf : EmptyFlat g0) (hg : g = { g0 with allLayers := g.allLayers }) (hs : SameShape g0.allLayers g.allLayers)
    (hd : Distinct g) {mode : RoundMode} {digits : ℕ} (pauses : List ℤ) :
    ∃ g', accept mode digits ((heights mode digits g0).insertionSort (· ≤ ·)) (pauseVisitor pauses) () g = .ok ((), g') ∧
      g'.allLayers = withPauses (onePause mode digits g0 pauses) g.allLayers := by
  have hpos := positionsFrom_shape hs 0
  have hix : Indexed ({ g with lines := (layerLines g).flatten } : GCode α) := by
    refine ⟨rfl, ?_, ?_⟩
    · have : g.layerIdxs = g0.layerIdxs := by rw [hg]
      show g.layerIdxs = ((positions (layerLines g)).map (·.1))
      rw [this, hi.layer]
      unfold positions layerLines
      rw [hpos]
    · have : g.lineIdxs = g0.lineIdxs := by rw [hg]
      show g.lineIdxs = ((positions (layerLines g)).map (·.2))
      rw [this, hi.line]
      unfold positions layerLines
      rw [hpos]
  obtain ⟨g', k, h1, h2, _, _, _, _, h7⟩ := pause_loop (mode := mode) (digits := digits) (pauses := pauses)
    (zs := (heights mode digits g0).insertionSort (· ≤ ·)) ({ g with lines := (layerLines g).flatten } : GCode α)
    (fun z hz hn => by
      rw [codePause_iff] at hz
      obtain ⟨x, hx, _⟩ := hz
      rw [hn] at hx; simp at hx) (hs.emptyFlat hf) g.allLayers.length 0 (fun _ => 0) 0 ({ g with lines := (layerLines g).flatten } : GCode α) (by simp)
    (withPauses_zero _).symm hix rfl (fun _ _ _ _ => rfl)
  obtain ⟨b', hb, hs'⟩ := accept_lines g.allLayers.length 0 0 (a := ({ g with lines := (layerLines g).flatten } : GCode α)) (b := g) rfl h1
  refine ⟨b', hb, ?_⟩
  have e1 : b'.allLayers = g'.allLayers := by rw [hs']
  rw [e1, h2]
  obtain ⟨_, h8⟩ := h7 (.inr hd) (fun _ => by simp) (fun _ _ => rfl)
  unfold withPauses
  refine List.ext_getElem? fun j => ?_
  simp only [List.getElem?_mapIdx]
  cases hj : g.allLayers[j]? with
  | none => rfl
  | some M =>
    have hk := h8 j M (by omega) hj
    obtain ⟨L, hL, hz⟩ : ∃ L, g0.allLayers[j]? = some L ∧ M.z = L.z := by
      obtain ⟨hlen, hM⟩ := List.getElem?_eq_some_iff.1 hj
      have hl0 : j < g0.allLayers.length := by rw [hs.length_eq]; exact hlen
      refine ⟨g0.allLayers[j], List.getElem?_eq_getElem hl0, ?_⟩
      rw [← hM]
      exact ((List.forall₂_iff_get.1 hs).2 j hl0 hlen).1
    simp only [Option.map_some, onePause, hL, hk, hz]

/-! ### a pause survives being written -/

theorem firm_pause : Firm (pauseLine : PyLine α) := by
  have hr : (pauseLine : PyLine α).raw = c!"M226" := rfl
  refine ⟨⟨by rw [hr]; decide, pause_not _ (by decide), ?_, fun h => absurd h (pause_not _ (by decide))⟩, ?_, ?_⟩
  · intro home m _
    exact ⟨_, _, by with_unfolding_all rfl, eq_of_sameArgs (by with_unfolding_all exact ⟨rfl, rfl, rfl, rfl, rfl, rfl, rfl, rfl⟩)⟩
  · intro home m m' l' _ hp
    obtain ⟨m1, l1, r1, r2⟩ : ∃ m1 l1, processLine home m { raw := c!"M226" } = .ok (m1, l1) ∧ SameArgs (pauseLine : PyLine α) l1 :=
      ⟨_, _, by with_unfolding_all rfl, by with_unfolding_all exact ⟨rfl, rfl, rfl, rfl, rfl, rfl, rfl, rfl⟩⟩
    rw [hr, r1] at hp
    obtain ⟨rfl, rfl⟩ := Prod.mk.inj (Except.ok.inj hp)
    exact r2
  · rintro (h | h)
    · exact absurd h pause_not_move
    · exact absurd h (pause_not _ (by decide))

theorem program_paused {P : PyLine α → Prop} (hp : P pauseLine) {g : GCode α} (k : ℕ → ℕ) (h : ∀ l ∈ program g, P l) :
    ∀ l ∈ program { g with allLayers := withPauses k g.allLayers }, P l := by
  rw [program_def] at h ⊢
  intro l hl
  obtain ⟨M, hM, hm⟩ := List.mem_flatMap.1 hl
  simp only [withPauses] at hM
  obtain ⟨i, hi, rfl⟩ := List.mem_mapIdx.1 hM
  simp only [List.mem_append] at hm
  rcases hm with hm | hm
  · rw [List.eq_of_mem_replicate hm]; exact hp
  · exact h l (List.mem_flatMap.2 ⟨_, List.getElem_mem hi, hm⟩)

/-- **C137** (partial), pauses.  A first run inserts the pauses, any number of later runs move and convert.  If the layers of
the program are all different before and after, the result is what inserting the pauses last gives. -/
theorem C137_pause_first_partial {env : Env α} {text t1 t : Str} {g : GCode α} (os : List (ModOptions α)) (hos : os ≠ []) (n : ℤ)
    (hg : GCode.load env (readlines text) = .ok g) (h20 : ∀ l ∈ g.lines, ¬ HasCmd l c!"G20")
    (hs : ∀ l ∈ g.lines, IsMove l ∨ HasCmd l c!"G92" → ShortNumbers l)
    (ho : ∀ o ∈ os, (∃ k : ℤ, o.x.getD 0 = k / 10 ^ 3) ∧ ∃ k : ℤ, o.y.getD 0 = k / 10 ^ 3) (hd : Distinct g)
    (h1 : modPipeline env none none false (some n) (readlines text) = .ok t1) (h2 : optionRuns env t1 os = .ok t) :
    ∃ g', inMemory g os = .ok g' ∧ (Distinct g' → ∃ g'', g'.pauseAt env.mode 2 [n] = .ok g'' ∧ t = g''.write) := by
  have hl : g.lines = program g := (load_indexed hg).flat
  have hi := load_indexed hg
  have he := load_emptyFlat hg
  obtain ⟨_, _, _, _, _, _, _, _, hz, _⟩ := mod_steps hg h1
  obtain ⟨gp, p1, p2⟩ := pause_places (mode := env.mode) (digits := 2) hi he rfl (SameShape.refl _) hd [n]
  generalize hk : onePause env.mode 2 g [n] = k at p2
  have e1 : t1 = gp.write := by
    rw [modPipeline_eq (x := none) (y := none) (e := false) hg rfl rfl] at h1
    unfold modTail at h1
    simp only [bind, Except.bind, (iteratorZs_ok g).2 hz, p1, Except.ok.injEq] at h1
    exact h1.symm
  obtain ⟨Ls, m1, m2, m3⟩ := memory_layers os g
  have hF : ∀ l ∈ program g, Firm l := by
    rw [← hl]
    intro l hm
    exact ⟨saves_loaded hg h20 (load_no_newline hg) l hm, readsSame_loaded hg h20 l hm, hs l hm⟩
  have F := program_paused firm_pause k hF
  have e2 : t1 = (program { g with allLayers := withPauses k g.allLayers }).flatMap (fun l => l.raw ++ ['\n']) := by
    rw [e1, GCode.write, GCode.allLines, p2, program_def, List.flatMap_def, List.flatMap_def]
  obtain ⟨g1, hg1⟩ : ∃ g1 : GCode α, GCode.load env (readlines t1) = .ok g1 := by
    cases os with
    | nil => exact absurd rfl hos
    | cons o' os' =>
      obtain ⟨_, q, _⟩ := optionRuns_cons h2
      obtain ⟨g1, q1, _⟩ := run_text q
      exact ⟨g1, q1⟩
  have hg1' := hg1
  rw [e2] at hg1'
  obtain ⟨g2, r1, r2⟩ := runs_memory os hos hg1 (load_same (fun l hl => ⟨(F l hl).saves, (F l hl).reads⟩) hg1') F ho h2
  rw [m3 k] at r1
  obtain rfl := Except.ok.inj r1
  refine ⟨_, m1, fun hd' => ?_⟩
  obtain ⟨gq, q1, q2⟩ := pause_places (g := { g with allLayers := Ls }) (mode := env.mode) (digits := 2) hi he rfl m2 hd' [n]
  rw [hk] at q2
  refine ⟨gq, ?_, ?_⟩
  · unfold GCode.pauseAt
    rw [(iteratorZs_ok ({ g with allLayers := Ls } : GCode α)).2 hz]
    simp only
    rw [show heights env.mode 2 ({ g with allLayers := Ls } : GCode α) = heights env.mode 2 g from rfl, q1]
  · rw [r2, GCode.write, GCode.write, GCode.allLines, GCode.allLines, q2]

/-- **C137** (partial), pauses and one group of options: the pauses first and the rest in a second run give, character for character, the
output of one run. -/
theorem C137_pause_one_run_partial {env : Env α} {text t1 t : Str} {g : GCode α} (o : ModOptions α) (n : ℤ)
    (hg : GCode.load env (readlines text) = .ok g) (h20 : ∀ l ∈ g.lines, ¬ HasCmd l c!"G20")
    (hs : ∀ l ∈ g.lines, IsMove l ∨ HasCmd l c!"G92" → ShortNumbers l)
    (hx : ∃ k : ℤ, o.x.getD 0 = k / 10 ^ 3) (hy : ∃ k : ℤ, o.y.getD 0 = k / 10 ^ 3) (hd : Distinct g)
    (hd' : ∀ g', o.filter g = .ok g' → Distinct g')
    (h1 : modPipeline env none none false (some n) (readlines text) = .ok t1) (h2 : modPipeline env o.x o.y o.e none (readlines t1) = .ok t) :
    modPipeline env o.x o.y o.e (some n) (readlines text) = .ok t := by
  obtain ⟨g', m1, m2⟩ := C137_pause_first_partial [o] (by simp) n hg h20 hs (by
    intro o' ho
    obtain rfl := List.mem_singleton.1 ho
    exact ⟨hx, hy⟩) hd h1 (t := t) (by simp only [optionRuns, bind, Except.bind, h2])
  have hf : o.filter g = .ok g' := by
    rw [filter_layers]
    simp only [inMemory, bind, Except.bind, filter_layers] at m1
    exact m1
  obtain ⟨g2, q1, q2⟩ := m2 (hd' g' hf)
  have hf' := hf
  unfold ModOptions.filter at hf'
  cases hq : (if o.x.isSome || o.y.isSome then g.translate o.x o.y else .ok g) with
  | error e => rw [hq] at hf'; cases hf'
  | ok ga =>
    rw [hq] at hf'
    rw [modPipeline_eq hg hq hf', q2]
    unfold modTail
    unfold GCode.pauseAt at q1
    simp only [bind, Except.bind]
    cases hz : iteratorZs env.mode 2 g' with
    | error e => rw [hz] at q1; cases q1
    | ok zs =>
      rw [hz] at q1
      simp only at q1 ⊢
      cases ha : accept env.mode 2 zs (pauseVisitor [n]) () g' with
      | error e => rw [ha] at q1; cases q1
      | ok r =>
        rw [ha] at q1
        simp only [Except.ok.injEq] at q1 ⊢
        rw [q1]

/-- Checking that no two layers look alike. -/
theorem distinct_check {g : GCode ℚ} (n : ℕ) (hlen : g.allLayers.length = n)
    (key : ∀ i ∈ List.range n, ∀ j ∈ List.range n, i ≠ j → ((g.allLayers[i]?).map (fun L => (g.allLayers[j]?).map (fun M =>
      L.lines.isEmpty || (!linesEq L.lines M.lines && !linesEq (pauseLine :: L.lines) M.lines)))) = some (some true)) : Distinct g := by
  intro i j L M hi hj hij hne
  rw [← linesEq_iff, ← linesEq_iff]
  have hi4 : i < n := by
    by_contra hn
    rw [List.getElem?_eq_none (by omega)] at hi; simp at hi
  have hj4 : j < n := by
    by_contra hn
    rw [List.getElem?_eq_none (by omega)] at hj; simp at hj
  have := key i (by simpa using hi4) j (by simpa using hj4) hij
  rw [hi, hj] at this
  simp only [Option.map_some, Option.some.injEq, Bool.or_eq_true, Bool.and_eq_true, List.isEmpty_iff] at this
  rcases this with h | h
  · exact absurd h hne
  · constructor
    · intro h'; rw [h'] at h; simp at h
    · intro h'; rw [h'] at h; simp at h

/-- The hypotheses of the two theorems on the program of `C137_one_run_partial`; the others are shown there. -/
example : Distinct optG ∧ (∀ g', ({ x := some 5, y := some (1 / 2), e := true } : ModOptions ℚ).filter optG = .ok g' → Distinct g') ∧
    modPipeline qEnv none none false (some 1) (readlines optText) =
      .ok c!"G90\nM82\nG92 X0 E0\nG1 Z0.3\nG1 X10 Y10 E1.25 ; draw\nG1 Y20 E2.5\nM226\nG1 Z0.6\nG1 X0.125 E4\n" ∧
    modPipeline qEnv (some 5) (some (1 / 2)) true none
      (readlines c!"G90\nM82\nG92 X0 E0\nG1 Z0.3\nG1 X10 Y10 E1.25 ; draw\nG1 Y20 E2.5\nM226\nG1 Z0.6\nG1 X0.125 E4\n") =
      .ok c!"G90\nM83\nG92 X-5.000 E0.00000\nG1 Z0.3\nG1 X10.000 Y10.500 E1.25000\nG1 Y20.500 E1.25000\nM226\nG1 Z0.6\nG1 X0.125 E1.50000\n" := by
  refine ⟨distinct_check 4 (by decide +kernel) (by decide +kernel), ?_, by decide +kernel, by decide +kernel⟩
  intro g' hg
  obtain rfl : okOr optG (({ x := some 5, y := some (1 / 2), e := true } : ModOptions ℚ).filter optG) = g' := by rw [hg]; rfl
  exact distinct_check 4 (by decide +kernel) (by decide +kernel)

/-- C137 is false for pauses in a program whose layers become equal: here all layers are the same lines after the conversion, so that one run puts
the pause in front of the first layer, and two runs put it in front of the third. -/
theorem C137_repeated_refuted : ∃ text t1 : Str,
    modPipeline qEnv none none false (some 2) (readlines text) = .ok t1 ∧
    modPipeline qEnv none none true none (readlines t1) =
      .ok c!"G91\nM83\nG1 Z0.2\nG1 X1.000 E1.00000\nG1 Z0.2\nG1 X1.000 E1.00000\nM226\nG1 Z0.2\nG1 X1.000 E1.00000\n" ∧
    modPipeline qEnv none none true (some 2) (readlines text) =
      .ok c!"G91\nM83\nM226\nG1 Z0.2\nG1 X1.000 E1.00000\nG1 Z0.2\nG1 X1.000 E1.00000\nG1 Z0.2\nG1 X1.000 E1.00000\n" :=
  ⟨c!"G91\nM82\nG1 Z0.2\nG1 X1 E1\nG1 Z0.2\nG1 X1 E2\nG1 Z0.2\nG1 X1 E3\n",
    c!"G91\nM82\nG1 Z0.2\nG1 X1 E1\nG1 Z0.2\nG1 X1 E2\nM226\nG1 Z0.2\nG1 X1 E3\n", by decide +kernel⟩

end GCodeUtils
