import Verif.Lemmas.Pauses
import Verif.Props.Visit
import Verif.Props.Cli

/-
  C115: pauses added one run after another.
-/

set_option linter.unusedSectionVars false

namespace GCodeUtils

open Spec

variable {α : Type} [Field α] [LinearOrder α] [IsStrictOrderedRing α] [FloorRing α]

theorem lookAlike_filter {a b : List (PyLine α)} (h : LookAlike a b) (P : Option Str → Bool) :
    LookAlike (a.filter (fun l => P l.command)) (b.filter (fun l => P l.command)) := by
  unfold LookAlike at h ⊢
  induction h with
  | nil => exact .nil
  | @cons x y xs ys h1 _ ih =>
    rw [List.filter_cons, List.filter_cons, h1.1]
    by_cases hc : P y.command = true
    · rw [if_pos hc, if_pos hc]; exact .cons h1 ih
    · rw [if_neg hc, if_neg hc]; exact ih

/-- Pauses at the ends of layers do not make layers look alike. -/
theorem distinct_ends {g g1 : GCode α} {k : ℕ → ℕ} (hd : Distinct g) (hno : ∀ l ∈ (layerLines g).flatten, l.command ≠ some c!"M226")
    (hemp : ∀ i L, g.allLayers[i]? = some L → L.lines = [] → i = 0 ∨ g.allLayers.length ≤ i + 1)
    (hlast : ∀ i, g.allLayers.length ≤ i + 1 → k i = 0)
    (he : PauseEnds false k 0 (layerLines g) (layerLines g1)) : Distinct g1 := by
  intro i j L1 M1 hi hj hij hne
  have get : ∀ (i : ℕ) (L1 : Layer α), g1.allLayers[i]? = some L1 → ∃ (L : Layer α) (ps : List (PyLine α)), g.allLayers[i]? = some L ∧ L1.lines = L.lines ++ ps ∧
      L1.lines.filter (fun l => l.command ≠ some c!"M226") = L.lines ∧ (g.allLayers.length ≤ i + 1 → ps = []) := by
    intro i L1 hi
    obtain ⟨L, ps, h1, h2, h3, h4⟩ := he.get (i := i) (L' := L1.lines) (by simp [layerLines, hi])
    simp only [layerLines, List.getElem?_map, Option.map_eq_some_iff] at h1
    obtain ⟨L0, h0, rfl⟩ := h1
    refine ⟨L0, ps, h0, h2, ?_, fun h => ?_⟩
    · rw [h2, List.filter_append]
      have e1 : L0.lines.filter (fun l => l.command ≠ some c!"M226") = L0.lines := by
        rw [List.filter_eq_self]
        intro l hl
        simpa using hno l (List.mem_flatten.2 ⟨L0.lines, List.mem_map.2 ⟨L0, List.mem_of_getElem? h0, rfl⟩, hl⟩)
      have e2 : ps.filter (fun l => l.command ≠ some c!"M226") = [] := by
        rw [List.filter_eq_nil_iff]
        intro p hp
        simpa using (h4 p hp).2 rfl
      rw [e1, e2, List.append_nil]
    · rw [hlast (0 + i + 1) (by omega)] at h3
      exact List.length_eq_zero_iff.1 h3
  obtain ⟨L, ps, a1, a2, a3, a4⟩ := get i L1 hi
  obtain ⟨M, qs, b1, b2, b3, b4⟩ := get j M1 hj
  by_cases hL : L.lines = []
  · have hps : ps ≠ [] := by rintro rfl; apply hne; rw [a2, hL]; rfl
    have hi0 : i = 0 := by
      rcases hemp i L a1 hL with h | h
      · exact h
      · exact absurd (a4 h) hps
    have key : ∀ X : List (PyLine α), X ≠ [] → X.filter (fun l => l.command ≠ some c!"M226") = [] → ¬ LookAlike X M1.lines := by
      intro X hX hX0 hla
      have h1 := lookAlike_filter hla (fun c => c ≠ some c!"M226")
      rw [hX0, b3] at h1
      have hM : M.lines = [] := by
        unfold LookAlike at h1
        cases h : M.lines with
        | nil => rfl
        | cons a b => rw [h] at h1; cases h1
      have hq : qs = [] := by
        rcases hemp j M b1 hM with h | h
        · omega
        · exact b4 h
      rw [b2, hM, hq] at hla
      unfold LookAlike at hla
      cases X with
      | nil => exact hX rfl
      | cons a b => cases hla
    refine ⟨key _ hne (by rw [a3, hL]), key _ (by simp) ?_⟩
    rw [List.filter_cons, if_neg (by rw [pauseLine_raw.2]; simp), a3, hL]
  · obtain ⟨c1, _⟩ := hd i j L M a1 b1 hij hL
    refine ⟨fun h => c1 ?_, fun h => c1 ?_⟩
    · have := lookAlike_filter h (fun c => c ≠ some c!"M226")
      rwa [a3, b3] at this
    · have := lookAlike_filter h (fun c => c ≠ some c!"M226")
      rw [List.filter_cons, if_neg (by rw [pauseLine_raw.2]; simp), a3, b3] at this
      exact this

theorem asked_append (mode : RoundMode) (digits : ℕ) (g : GCode α) (a b : List (List ℤ)) (i : ℕ) :
    asked mode digits g (a ++ b) i = asked mode digits g a i + asked mode digits g b i := by
  unfold asked
  rw [List.countP_append]

theorem asked_nil (mode : RoundMode) (digits : ℕ) (g : GCode α) (i : ℕ) : asked mode digits g [] i = 0 := rfl

theorem asked_none {mode : RoundMode} {digits : ℕ} {g : GCode α} {i : ℕ} (h : ∀ L, g.allLayers[i]? = some L → L.z = none) (ps : List (List ℤ)) :
    asked mode digits g ps i = 0 := by
  unfold asked
  rw [List.countP_eq_zero]
  intro p _
  simp only [decide_eq_true_eq]
  rintro ⟨L, hL, z, hz, _⟩
  rw [h L hL] at hz
  cases hz

theorem asked_one {mode : RoundMode} {digits : ℕ} {g : GCode α} {i : ℕ} {L : Layer α} (h : g.allLayers[i]? = some L) (p : List ℤ) :
    (ShouldPause mode digits g p L.z → asked mode digits g [p] i = 1) ∧ (¬ ShouldPause mode digits g p L.z → asked mode digits g [p] i = 0) := by
  unfold asked
  have : (∃ L, g.allLayers[i]? = some L ∧ ShouldPause mode digits g p L.z) ↔ ShouldPause mode digits g p L.z := by
    rw [h]
    constructor
    · rintro ⟨M, hM, k⟩; cases hM; exact k
    · exact fun k => ⟨L, rfl, k⟩
  refine ⟨fun hs => ?_, fun hs => ?_⟩
  · refine (List.countP_eq_length.2 fun q hq => ?_).trans rfl
    simp only [decide_eq_true_eq]
    rw [List.mem_singleton.1 hq]
    exact this.2 hs
  · rw [List.countP_eq_zero]
    intro q hq
    simp only [decide_eq_true_eq]
    rw [List.mem_singleton.1 hq]
    exact fun k => hs (this.1 k)

theorem asked_same {mode : RoundMode} {digits : ℕ} {g g1 : GCode α} (hz : g1.allZs = g.allZs) (h : List.Forall₂ LayerWithMore g.allLayers g1.allLayers)
    (ps : List (List ℤ)) (i : ℕ) : asked mode digits g1 ps i = asked mode digits g ps i := by
  have hh : heights mode digits g1 = heights mode digits g := by unfold heights; rw [hz]
  have hs : ∀ p z, ShouldPause mode digits g1 p z ↔ ShouldPause mode digits g p z := by
    intro p z
    unfold ShouldPause
    rw [hh]
  have hgz : g1.allLayers[i]?.map (·.z) = g.allLayers[i]?.map (·.z) := by
    have : g1.allLayers.map (·.z) = g.allLayers.map (·.z) := by
      generalize g.allLayers = a at h
      generalize g1.allLayers = b at h
      induction h with
      | nil => rfl
      | cons h1 _ ih => rw [List.map_cons, List.map_cons, h1.1, ih]
    rw [← List.getElem?_map, ← List.getElem?_map, this]
  unfold asked
  refine List.countP_congr fun p _ => ?_
  simp only [decide_eq_true_eq, hs]
  cases h1 : g1.allLayers[i]? with
  | none =>
    cases h2 : g.allLayers[i]? with
    | none => simp
    | some L => rw [h1, h2] at hgz; cases hgz
  | some M =>
    cases h2 : g.allLayers[i]? with
    | none => rw [h1, h2] at hgz; cases hgz
    | some L =>
      rw [h1, h2] at hgz
      have : M.z = L.z := by simpa using hgz
      simp [this]

theorem spaced_paused {S : Option α → Prop} {Ls Ms : List (Layer α)}
    (h : List.Forall₂ (fun L M => (S L.z → M = { L with lines := pauseLine :: L.lines }) ∧ (¬ S L.z → M = L)) Ls Ms) (j : ℕ → ℕ) :
    ∀ n : ℕ, (∀ i L, Ls[i]? = some L → (S L.z → j (n + i) = 1) ∧ (¬ S L.z → j (n + i) = 0)) →
    (Ms.flatMap (·.lines)).map (·.raw) = spaced j n (Ls.map (fun L => L.lines.map (·.raw))) := by
  induction h with
  | nil => intro n _; rfl
  | @cons L M Ls Ms h1 _ ih =>
    intro n hj
    have h0 := hj 0 L rfl
    rw [Nat.add_zero] at h0
    have hs := ih (n + 1) (fun i K hK => by
      have := hj (i + 1) K (by simpa using hK)
      rwa [show n + (i + 1) = n + 1 + i by omega] at this)
    simp only [List.flatMap_cons, List.map_append, List.map_cons, spaced, hs]
    by_cases hL : S L.z
    · rw [h1.1 hL, h0.1 hL]
      simp [pauseLine_raw.1]
    · rw [h1.2 hL, h0.2 hL]
      simp

theorem paused_write {env : Env α} {data : List Str} {light : Bool} {home : Home α} {g : GCode α}
    (hg : GCode.load env data light home = .ok g) (h : none ∉ g.allZs) (hd : light = true ∨ Distinct g) (mode : RoundMode) (digits : ℕ) (p : List ℤ) :
    ∃ g', g.pauseAt mode digits p = .ok g' ∧ g'.write = (spaced (asked mode digits g [p]) 0 (layerTexts g)).flatMap (fun t => t ++ ['\n']) := by
  obtain ⟨g', h1, _, h3, _⟩ := C38_exact_partial env data light home g hg h hd mode digits p
  refine ⟨g', h1, ?_⟩
  have := spaced_paused h3 (asked mode digits g [p]) 0 (fun i L hL => by rw [Nat.zero_add]; exact asked_one hL p)
  unfold layerTexts
  rw [← this, GCode.write, GCode.allLines, List.flatMap_map]

/-- The program loaded from a text to which pauses were added. -/
structure Grown (light : Bool) (k : ℕ → ℕ) (g gn : GCode α) : Prop where
  ends : PauseEnds light k 0 (layerLines g) (layerLines gn)
  findings : SameFindings g gn
  layers : List.Forall₂ LayerWithMore g.allLayers gn.allLayers

theorem runs_from {env : Env α} {data : List Str} {light : Bool} {home : Home α} {g : GCode α} (hg : GCode.load env data light home = .ok g)
    (hl : g.lines ≠ []) (hnl : ∀ l ∈ g.lines, '\n' ∉ l.raw) (hz : none ∉ g.allZs)
    (hd : light = true ∨ Distinct g ∧ ∀ l ∈ g.lines, l.command ≠ some c!"M226") (mode : RoundMode) (digits : ℕ) (ps : List (List ℤ)) :
    ∀ (done : List (List ℤ)) (text : Str) (gn : GCode α), GCode.load env (readlines text) light home = .ok gn → Grown light (asked mode digits g done) g gn →
    ps ≠ [] → pauseRuns env light home mode digits text ps = .ok ((spaced (asked mode digits g (done ++ ps)) 0 (layerTexts g)).flatMap (fun t => t ++ ['\n'])) := by
  obtain ⟨_, _, c3, c4, c5⟩ := C04_layers_contiguous env data light home g hg
  have hflat := load_emptyFlat hg
  have h0 : ∀ qs, asked mode digits g qs 0 = 0 := asked_none (load_firstFlat hg)
  have hlast : ∀ qs i, g.allLayers.length ≤ i + 1 → asked mode digits g qs i = 0 := by
    intro qs i hi
    refine asked_none (fun L hL => ?_) qs
    obtain ⟨K, hK, hKl⟩ := c5
    have : i < g.allLayers.length := by
      by_contra hc
      rw [List.getElem?_eq_none (by omega)] at hL
      cases hL
    obtain rfl : i = g.appendLayerId := by omega
    rw [hL] at hK
    cases hK
    exact hflat L (List.mem_of_getElem? hL) hKl
  have hlt : layerTexts g = (layerLines g).map (fun L => L.map (·.raw)) := by simp [layerTexts, layerLines]
  induction ps with
  | nil => intro _ _ _ _ _ h; exact absurd rfl h
  | cons p ps ih =>
    intro done text gn htext hgr _
    have hzn : none ∉ gn.allZs := by rw [hgr.findings.2.2.1]; exact hz
    have hdn : light = true ∨ Distinct gn := by
      rcases hd with hd | ⟨hd, hno⟩
      · exact .inl hd
      · by_cases hlt : light = true
        · exact .inl hlt
        · rw [Bool.not_eq_true] at hlt
          subst hlt
          refine .inr (distinct_ends hd ?_ ?_ (hlast done) hgr.ends)
          · rw [← (load_indexed hg).flat]; exact hno
          · intro i L hL hLe
            by_contra hc
            exact c3 i L (by omega) (by omega) hL hLe
    obtain ⟨gp, h1, h2⟩ := paused_write htext hzn hdn mode digits p
    have hw : gp.write = (spaced (asked mode digits g (done ++ [p])) 0 (layerTexts g)).flatMap (fun t => t ++ ['\n']) := by
      rw [h2]
      have := spaced_ends (asked mode digits gn [p]) hgr.ends
      rw [h0, hlast done _ (by simp [layerLines])] at this
      simp only [List.replicate_zero, List.nil_append, List.append_nil] at this
      rw [show layerTexts gn = (layerLines gn).map (fun L => L.map (·.raw)) by simp [layerTexts, layerLines], this, hlt]
      congr 1
      refine spaced_congr fun i _ => ?_
      rw [asked_append, asked_same hgr.findings.2.2.1 hgr.layers]
    unfold pauseRuns
    rw [htext]
    simp only [bind, Except.bind, h1]
    obtain ⟨g1, k1, k2, k3, k4, _, _⟩ := load_paused hg hl hnl (asked mode digits g (done ++ [p])) (h0 _) (hlast _)
    rw [← hw] at k1
    by_cases hps : ps = []
    · subst hps
      simp only [pauseRuns, hw]
    · rw [ih (done ++ [p]) gp.write g1 k1 ⟨k2, k3, k4⟩ hps]
      simp

theorem grown_zero (light : Bool) (n : ℕ) (Ls : List (List (PyLine α))) : PauseEnds light (fun _ => 0) n Ls Ls := by
  induction Ls generalizing n with
  | nil => exact .nil n
  | cons L Ls ih => simpa using PauseEnds.cons (L := L) (ps := []) rfl (by simp) (ih (n + 1))

theorem added_refl {β : Type} (P : β → Prop) (a : List β) : Added P a a := by
  induction a with
  | nil => exact .nil
  | cons x a ih => exact .same x ih

theorem strip_no_newline {l : Str} (h : '\n' ∉ l.dropLast) : '\n' ∉ strip l := by
  have sub : ∀ s : Str, ∀ c ∈ strip s, c ∈ s := by
    intro s c hc
    unfold strip at hc
    have := (List.dropWhile_sublist _).mem (List.mem_reverse.1 hc)
    exact (List.dropWhile_sublist _).mem (List.mem_reverse.1 this)
  rcases List.eq_nil_or_concat l with rfl | ⟨a, c, rfl⟩
  · simp [strip]
  · rw [List.concat_eq_append, List.dropLast_concat] at h
    rw [List.concat_eq_append]
    by_cases hc : isSpace c = true
    · rw [strip_append_space a [c] (by simpa using hc)]
      exact fun k => h (sub _ _ k)
    · intro k
      rcases List.mem_append.1 (sub _ _ k) with k | k
      · exact h k
      · rw [← List.mem_singleton.1 k] at hc
        exact hc (by decide)

theorem load_no_newline {env : Env α} {light : Bool} {home : Home α} {text : Str} {g : GCode α} (hg : GCode.load env (readlines text) light home = .ok g) :
    ∀ l ∈ g.lines, '\n' ∉ l.raw := by
  intro l hl
  have : l.raw ∈ g.lines.map (·.raw) := List.mem_map.2 ⟨l, hl, rfl⟩
  rw [load_raws hg, List.mem_filter, List.mem_map] at this
  obtain ⟨⟨d, hd, e⟩, _⟩ := this
  rw [← e]
  exact strip_no_newline ((isLines_readlines text).2.1 d hd).2

/-- C115: pauses added by any number of runs, each working on what the one before wrote: in the final text every layer
    of the original program is preceded by one pause for each run that asks for it, and nothing else changes. -/
theorem C115_runs (env : Env α) (light : Bool) (home : Home α) (text : Str) (g : GCode α) (hg : GCode.load env (readlines text) light home = .ok g)
    (hl : g.lines ≠ []) (hz : none ∉ g.allZs)
    (hd : light = true ∨ Distinct g ∧ ∀ l ∈ g.lines, l.command ≠ some c!"M226") (mode : RoundMode) (digits : ℕ) (ps : List (List ℤ)) (hps : ps ≠ []) :
    pauseRuns env light home mode digits text ps = .ok ((spaced (asked mode digits g ps) 0 (layerTexts g)).flatMap (fun t => t ++ ['\n'])) := by
  have := runs_from hg hl (load_no_newline hg) hz hd mode digits ps [] text g hg ⟨grown_zero light 0 _, ?_, ?_⟩ hps
  · simpa using this
  · exact ⟨rfl, rfl, rfl, rfl, rfl, rfl, rfl, rfl, rfl, rfl, rfl, rfl, rfl, rfl, rfl⟩
  · exact List.forall₂_same.2 fun L _ => ⟨rfl, rfl, added_refl _ _⟩

/-- C115: the order of the runs does not matter. -/
theorem C115_order (env : Env α) (light : Bool) (home : Home α) (text : Str) (g : GCode α) (hg : GCode.load env (readlines text) light home = .ok g)
    (hl : g.lines ≠ []) (hz : none ∉ g.allZs) (hd : light = true ∨ Distinct g ∧ ∀ l ∈ g.lines, l.command ≠ some c!"M226")
    (mode : RoundMode) (digits : ℕ) (ps qs : List (List ℤ)) (hpq : ps.Perm qs) :
    pauseRuns env light home mode digits text ps = pauseRuns env light home mode digits text qs := by
  by_cases hps : ps = []
  · subst hps
    rw [List.nil_perm.1 hpq]
  · rw [C115_runs env light home text g hg hl hz hd mode digits ps hps, C115_runs env light home text g hg hl hz hd mode digits qs (fun h => hps (by subst h; exact List.perm_nil.1 hpq))]
    have : asked mode digits g ps = asked mode digits g qs := by
      funext i
      exact hpq.countP_eq _
    rw [this]

/-- C115: runs that ask for different layers give what one run with all their layers gives. -/
theorem C115_one_run (env : Env α) (light : Bool) (home : Home α) (text : Str) (g : GCode α) (hg : GCode.load env (readlines text) light home = .ok g)
    (hl : g.lines ≠ []) (hz : none ∉ g.allZs) (hd : light = true ∨ Distinct g ∧ ∀ l ∈ g.lines, l.command ≠ some c!"M226")
    (mode : RoundMode) (digits : ℕ) (ps : List (List ℤ)) (hps : ps ≠ []) (hdis : ps.Pairwise (fun p q => ∀ n ∈ p, n ∉ q)) :
    pauseRuns env light home mode digits text ps = pauseRuns env light home mode digits text [ps.flatten] := by
  rw [C115_runs env light home text g hg hl hz hd mode digits ps hps, C115_runs env light home text g hg hl hz hd mode digits [ps.flatten] (by simp)]
  have : asked mode digits g ps = asked mode digits g [ps.flatten] := by
    funext i
    clear hps
    cases hL : g.allLayers[i]? with
    | none => rw [asked_none (by simp [hL]), asked_none (by simp [hL])]
    | some L =>
      induction ps with
      | nil =>
        rw [asked_nil, (asked_one hL _).2]
        rintro ⟨_, _, _, h⟩
        simp at h
      | cons p ps ih =>
        obtain ⟨h1, h2⟩ := List.pairwise_cons.1 hdis
        have hsplit : asked mode digits g (p :: ps) i = asked mode digits g [p] i + asked mode digits g ps i := asked_append mode digits g [p] ps i
        rw [hsplit, ih h2, List.flatten_cons]
        by_cases hp : ShouldPause mode digits g p L.z
        · obtain ⟨h, e1, e2, e3⟩ := id hp
          have hq : ¬ ShouldPause mode digits g ps.flatten L.z := by
            rintro ⟨h', f1, f2, f3⟩
            rw [e1] at f1
            obtain rfl := Option.some.inj f1
            obtain ⟨q, hq, hm⟩ := List.mem_flatten.1 f3
            exact h1 q hq _ e3 hm
          rw [(asked_one hL _).1 hp, (asked_one hL _).2 hq, (asked_one hL _).1]
          exact ⟨h, e1, e2, List.mem_append.2 (.inl e3)⟩
        · rw [(asked_one hL _).2 hp, Nat.zero_add]
          by_cases hq : ShouldPause mode digits g ps.flatten L.z
          · rw [(asked_one hL _).1 hq, (asked_one hL _).1]
            obtain ⟨h, e1, e2, e3⟩ := hq
            exact ⟨h, e1, e2, List.mem_append.2 (.inr e3)⟩
          · rw [(asked_one hL _).2 hq, (asked_one hL _).2]
            rintro ⟨h, e1, e2, e3⟩
            rcases List.mem_append.1 e3 with e3 | e3
            · exact hp ⟨h, e1, e2, e3⟩
            · exact hq ⟨h, e1, e2, e3⟩
  rw [this]

/-- The tool run on its own output is the same as the filter run on its own output. -/
theorem modRuns_eq (env : Env α) (text : Str) (ns : List ℤ) :
    modRuns env text ns = pauseRuns env false Home.init env.mode 2 text (ns.map (fun n => [n])) := by
  induction ns generalizing text with
  | nil => rfl
  | cons n ns ih =>
    unfold modRuns modPipeline
    simp only [List.map_cons, pauseRuns, bind, Except.bind]
    cases GCode.load env (readlines text) with
    | error e => rfl
    | ok g =>
      simp only [Option.isSome_none, Bool.or_self, Bool.false_eq_true, if_false]
      unfold GCode.pauseAt
      cases iteratorZs env.mode 2 g with
      | error e => rfl
      | ok zs =>
        simp only
        cases accept env.mode 2 zs (pauseVisitor [n]) () g with
        | error e => rfl
        | ok r => exact ih _

/-- C115 for the command line tool, which takes one layer number at a time: running it for one number after another on
    its own output puts in front of each layer one pause for each time its number was given. -/
theorem C115_tool (env : Env α) (text : Str) (g : GCode α) (hg : GCode.load env (readlines text) = .ok g)
    (hl : g.lines ≠ []) (hz : none ∉ g.allZs) (hd : Distinct g) (hno : ∀ l ∈ g.lines, l.command ≠ some c!"M226") (ns : List ℤ) (hns : ns ≠ []) :
    modRuns env text ns = .ok ((spaced (asked env.mode 2 g (ns.map (fun n => [n]))) 0 (layerTexts g)).flatMap (fun t => t ++ ['\n'])) := by
  rw [modRuns_eq]
  exact C115_runs env false Home.init text g hg hl hz (.inr ⟨hd, hno⟩) env.mode 2 _ (by simpa using hns)

def floorsText : Str := floors.flatMap (fun t => t ++ ['\n'])

example : GCode.load qEnv (readlines floorsText) = .ok floorsG ∧ floorsG.lines ≠ [] ∧ none ∉ floorsG.allZs ∧
    ∀ l ∈ floorsG.lines, l.command ≠ some c!"M226" := by decide +kernel

example : modRuns qEnv floorsText [1, 0] = modRuns qEnv floorsText [0, 1] ∧
    modRuns qEnv floorsText [1, 0] = .ok ([c!"; start", c!"G21", c!"G90", c!"M82", c!"G28", c!"M226", c!"G1 Z0.3 F1200", c!"G1 X10 Y10 E1", c!"G1 X20 Y10 E2",
      c!"M106 S255", c!"M226", c!"G1 Z0.6", c!"G1 X20 Y20 E3 ; side", c!"M104 S0"].flatMap (fun t => t ++ ['\n'])) := by decide +kernel

/-- Asking for the same layer twice gives two pauses. -/
example : modRuns qEnv floorsText [1, 1] = .ok ([c!"; start", c!"G21", c!"G90", c!"M82", c!"G28", c!"G1 Z0.3 F1200", c!"G1 X10 Y10 E1", c!"G1 X20 Y10 E2",
      c!"M106 S255", c!"M226", c!"M226", c!"G1 Z0.6", c!"G1 X20 Y20 E3 ; side", c!"M104 S0"].flatMap (fun t => t ++ ['\n'])) := by decide +kernel

example : ([[1], [0]] : List (List ℤ)).Pairwise (fun p q => ∀ n ∈ p, n ∉ q) := by decide

end GCodeUtils
