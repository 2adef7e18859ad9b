import Verif.Lemmas.Bystander
import Verif.Lemmas.Write
import Verif.Spec.Pauses
import Verif.Lemmas.Simulate

/-
  Loading a program that was written with pauses.
-/

set_option linter.unusedSectionVars false

namespace GCodeUtils

open Spec

variable {α : Type} [Field α] [LinearOrder α] [IsStrictOrderedRing α] [FloorRing α]

/-- A pause read from a file. -/
def IsPause (light : Bool) (l : PyLine α) : Prop := l.raw = c!"M226" ∧ (light = false → l.command = some c!"M226")

/-- The layers number `n`, `n+1`, … with `k (i+1)` pauses at the end of layer `i`. -/
inductive PauseEnds (light : Bool) (k : ℕ → ℕ) : ℕ → List (List (PyLine α)) → List (List (PyLine α)) → Prop
  | nil (n : ℕ) : PauseEnds light k n [] []
  | cons {n : ℕ} {L ps : List (PyLine α)} {Ls Ls' : List (List (PyLine α))} (h : ps.length = k (n + 1)) (hp : ∀ p ∈ ps, IsPause light p)
      (ht : PauseEnds light k (n + 1) Ls Ls') : PauseEnds light k n (L :: Ls) ((L ++ ps) :: Ls')

theorem PauseEnds.snoc {light : Bool} {k : ℕ → ℕ} {n : ℕ} {a b : List (List (PyLine α))} (h : PauseEnds light k n a b)
    (L : List (PyLine α)) {ps : List (PyLine α)} (hl : ps.length = k (n + a.length + 1)) (hp : ∀ p ∈ ps, IsPause light p) :
    PauseEnds light k n (a ++ [L]) (b ++ [L ++ ps]) := by
  induction h with
  | nil n => exact .cons (by simpa using hl) hp (.nil _)
  | cons h1 h2 _ ih =>
    refine .cons h1 h2 (ih ?_)
    simpa [Nat.add_assoc, Nat.add_comm, Nat.add_left_comm] using hl

theorem PauseEnds.length {light : Bool} {k : ℕ → ℕ} {n : ℕ} {a b : List (List (PyLine α))} (h : PauseEnds light k n a b) : b.length = a.length := by
  induction h with
  | nil => rfl
  | cons _ _ _ ih => simp [ih]

theorem PauseEnds.get {light : Bool} {k : ℕ → ℕ} {n : ℕ} {a b : List (List (PyLine α))} (h : PauseEnds light k n a b) {i : ℕ} {L' : List (PyLine α)} (hb : b[i]? = some L') :
    ∃ L ps, a[i]? = some L ∧ L' = L ++ ps ∧ ps.length = k (n + i + 1) ∧ ∀ p ∈ ps, IsPause light p := by
  induction h generalizing i with
  | nil => simp at hb
  | @cons n L ps Ls Ms h1 h2 _ ih =>
    cases i with
    | zero => obtain rfl : L ++ ps = L' := by simpa using hb
              exact ⟨L, ps, rfl, rfl, h1, h2⟩
    | succ i =>
      obtain ⟨L, ps, h2, h3, h4, h5⟩ := ih (by simpa using hb)
      exact ⟨L, ps, by simpa using h2, h3, by simpa [Nat.add_assoc, Nat.add_comm, Nat.add_left_comm] using h4, h5⟩

theorem pauses_texts {light : Bool} {ps : List (PyLine α)} (h : ∀ p ∈ ps, IsPause light p) : ps.map (·.raw) = List.replicate ps.length c!"M226" := by
  rw [List.eq_replicate_iff]
  refine ⟨by simp, ?_⟩
  intro t ht
  obtain ⟨p, hp, rfl⟩ := List.mem_map.1 ht
  exact (h p hp).1

/-- Pauses at the ends of layers and pauses at the starts of the next ones are the same text. -/
theorem spaced_ends {light : Bool} {k : ℕ → ℕ} (j : ℕ → ℕ) {n : ℕ} {a b : List (List (PyLine α))} (h : PauseEnds light k n a b) :
    List.replicate (k n) c!"M226" ++ spaced j n (b.map (fun L => L.map (·.raw))) =
      spaced (fun i => k i + j i) n (a.map (fun L => L.map (·.raw))) ++ List.replicate (k (n + a.length)) c!"M226" := by
  induction h with
  | nil n => simp [spaced]
  | @cons n L ps Ls Ls' h1 h2 _ ih =>
    simp only [List.map_cons, spaced, List.length_cons]
    rw [List.map_append, pauses_texts h2, h1, ← List.replicate_append_replicate]
    rw [show n + (Ls.length + 1) = n + 1 + Ls.length by omega]
    simp only [List.append_assoc] at ih ⊢
    rw [ih]

theorem spaced_append (k : ℕ → ℕ) (n : ℕ) (a b : List (List Str)) : spaced k n (a ++ b) = spaced k n a ++ spaced k (n + a.length) b := by
  induction a generalizing n with
  | nil => simp [spaced]
  | cons L a ih =>
    simp only [List.cons_append, spaced, ih, List.length_cons, List.append_assoc]
    rw [show n + 1 + a.length = n + (a.length + 1) by omega]

theorem spaced_zero (n : ℕ) (a : List (List Str)) : spaced (fun _ => 0) n a = a.flatten := by
  induction a generalizing n with
  | nil => rfl
  | cons L a ih => simp [spaced, ih]

theorem spaced_congr {k k' : ℕ → ℕ} {n : ℕ} {a : List (List Str)} (h : ∀ i < a.length, k (n + i) = k' (n + i)) : spaced k n a = spaced k' n a := by
  induction a generalizing n with
  | nil => rfl
  | cons L a ih =>
    simp only [spaced]
    rw [show k n = k' n from h 0 (by simp), ih]
    intro i hi
    have := h (i + 1) (by simpa using hi)
    rwa [show n + (i + 1) = n + 1 + i by omega] at this

/-- One step either extends the current layer or closes it. -/
theorem buildStep_cut {env : Env α} {light : Bool} {home : Home α} {s t : BuildSt α} {l0 : PyLine α} (h : buildStep env light home s l0 = .ok t) :
    ∃ m l, processLine home s.m l0 = .ok (m, l) ∧
      ((t.ls.allLayers.length = s.ls.allLayers.length ∧ closedLines t.ls = closedLines s.ls ∧ t.ls.curLines = s.ls.curLines ++ [storedLine light l0 l]) ∨
       (t.ls.allLayers.length = s.ls.allLayers.length + 1 ∧ closedLines t.ls = closedLines s.ls ++ [s.ls.curLines] ∧ t.ls.curLines = [storedLine light l0 l])) := by
  obtain ⟨m, l, hp, h | ⟨cmd, ds, _, _, _, h⟩⟩ := buildStep_ok h
  · refine ⟨m, l, hp, .inl ?_⟩
    rw [h.2]
    exact ⟨rfl, rfl, rfl⟩
  · refine ⟨m, l, hp, ?_⟩
    rcases stepLayer_cases env.mode { s.ls with hasExtrusion := s.ls.hasExtrusion || l.extruding.getD false } l ds.total ds.layerBegin with ⟨p, est, e⟩ | ⟨bz, est, _, e⟩
    · left
      rw [h, e]
      exact ⟨rfl, rfl, rfl⟩
    · right
      rw [h, e]
      refine ⟨by simp [recordLine], by simp [recordLine, closedLines], by simp [recordLine]⟩

/-- The texts with pauses before every line that closes a layer. -/
def weave (env : Env α) (light : Bool) (home : Home α) (k : ℕ → ℕ) : BuildSt α → List Str → List Str
  | _, [] => []
  | s, r :: rs =>
    match buildStep env light home s { raw := r } with
    | .error _ => []
    | .ok t => List.replicate (if t.ls.allLayers.length = s.ls.allLayers.length + 1 then k t.ls.allLayers.length else 0) c!"M226" ++ r :: weave env light home k t rs

structure PauseRel (light : Bool) (k : ℕ → ℕ) (s s' : BuildSt α) : Prop where
  more : MoreRel s s'
  cur : s'.ls.curLines = s.ls.curLines
  closed : PauseEnds light k 0 (closedLines s.ls) (closedLines s'.ls)

theorem bystander_pause : Bystander c!"M226" := by
  intro ws hw
  rw [← (findall_reads _ ws).2 hw]
  decide +kernel

theorem pause_command {home : Home α} {m m' : Machine α} {l : PyLine α} (h : processLine home m { raw := c!"M226" } = .ok (m', l)) :
    l.raw = c!"M226" ∧ l.command = some c!"M226" := by
  have hk := processLine_keeps h
  have hc : (split ({ raw := c!"M226" } : PyLine α)).1.command = some c!"M226" := by
    have := C76_command (α := α) c!"M226" _ ((findall_reads (lower c!"M226") _).1 rfl)
    unfold rawToLine at this
    rw [this]
    decide +kernel
  obtain ⟨l', h1, h2, _⟩ := processLine_bystander bystander_pause home m
  rw [h] at h1
  cases h1
  exact ⟨h2, hk.2.1.trans hc⟩

theorem forall₂_len {s s' : BuildSt α} (h : MoreRel s s') : s'.ls.allLayers.length = s.ls.allLayers.length := h.layers.length_eq.symm

theorem pauses_fold {env : Env α} {light : Bool} {home : Home α} {s : BuildSt α} (n : ℕ) : ∀ {s' : BuildSt α}, MoreRel s s' →
    ∃ v ps, (bare (List.replicate n c!"M226")).foldlM (buildStep env light home) s' = .ok v ∧ MoreRel s v ∧ closedLines v.ls = closedLines s'.ls ∧
      v.ls.curLines = s'.ls.curLines ++ ps ∧ ps.length = n ∧ ∀ p ∈ ps, IsPause light p := by
  induction n with
  | zero => intro s' h; exact ⟨s', [], rfl, h, rfl, by simp, rfl, by simp⟩
  | succ n ih =>
    intro s' h
    obtain ⟨v, hv, hm⟩ := buildStep_extra (env := env) (light := light) (home := home) h bystander_pause
    obtain ⟨mv, p, hpp, hcv⟩ := buildStep_cut hv
    have hp := pause_command hpp
    have hv' : closedLines v.ls = closedLines s'.ls ∧ v.ls.curLines = s'.ls.curLines ++ [storedLine light { raw := c!"M226" } p] := by
      rcases hcv with ⟨_, a, b⟩ | ⟨a, _, _⟩
      · exact ⟨a, b⟩
      · rw [forall₂_len hm, forall₂_len h] at a; omega
    obtain ⟨w, ps, h1, h2, h3, h4, h5, h6⟩ := ih hm
    refine ⟨w, storedLine light { raw := c!"M226" } p :: ps, ?_, h2, by rw [h3, hv'.1], by rw [h4, hv'.2]; simp, by simp [h5], ?_⟩
    · rw [List.replicate_succ]
      simp only [bare, List.map_cons]
      exact foldlM_cons_ok.2 ⟨v, hv, h1⟩
    · intro x hx
      rcases List.mem_cons.1 hx with rfl | hx
      · refine ⟨?_, ?_⟩
        · cases light
          · exact hp.1
          · rfl
        · rintro rfl; exact hp.2
      · exact h6 x hx

theorem weave_fold {env : Env α} {light : Bool} {home : Home α} {k : ℕ → ℕ} {rs : List Str} :
    ∀ {s s' t : BuildSt α}, PauseRel light k s s' → (bare rs).foldlM (buildStep env light home) s = .ok t →
    ∃ t', (bare (weave env light home k s rs)).foldlM (buildStep env light home) s' = .ok t' ∧ PauseRel light k t t' := by
  induction rs with
  | nil =>
    intro s s' t h hf
    simp only [bare, List.map_nil, List.foldlM_nil, pure, Except.pure, Except.ok.injEq] at hf
    subst hf
    exact ⟨s', rfl, h⟩
  | cons r rs ih =>
    intro s s' t h hf
    simp only [bare, List.map_cons] at hf
    obtain ⟨u, hu, hf⟩ := foldlM_cons_ok.1 hf
    unfold weave
    rw [hu]
    simp only
    obtain ⟨v, ps, hv, hm, hv1, hv2, hv3, hv4⟩ := pauses_fold (env := env) (light := light) (home := home)
      (if u.ls.allLayers.length = s.ls.allLayers.length + 1 then k u.ls.allLayers.length else 0) h.more
    rcases buildStep_same (env := env) (light := light) (home := home) hm { raw := r } with ⟨e, h1, _⟩ | ⟨u1, w, h1, h2, h3⟩
    · rw [hu] at h1; cases h1
    · rw [hu] at h1; cases h1
      obtain ⟨mu, lu, hlu, hcu⟩ := buildStep_cut hu
      obtain ⟨mw, lw, hlw, hcw⟩ := buildStep_cut h2
      rw [hm.m, hlu] at hlw
      cases hlw
      have rel : PauseRel light k u w := by
        rcases hcu with ⟨a, b, c⟩ | ⟨a, b, c⟩
        · rcases hcw with ⟨a', b', c'⟩ | ⟨a', _, _⟩
          · rw [if_neg (by omega), List.length_eq_zero_iff] at hv3
            rw [hv3, List.append_nil] at hv2
            exact ⟨h3, by rw [c, c', hv2, h.cur], by rw [b, b', hv1]; exact h.closed⟩
          · rw [forall₂_len h3, forall₂_len hm] at a'; omega
        · rcases hcw with ⟨a', _, _⟩ | ⟨a', b', c'⟩
          · rw [forall₂_len h3, forall₂_len hm] at a'; omega
          · refine ⟨h3, by rw [c, c'], ?_⟩
            rw [if_pos a] at hv3
            rw [b, b', hv1, hv2, h.cur]
            refine h.closed.snoc _ ?_ hv4
            have : (closedLines s.ls).length = s.ls.allLayers.length := by simp [closedLines]
            rw [this, Nat.zero_add, ← a]
            exact hv3
      obtain ⟨t', k1, k2⟩ := ih rel hf
      refine ⟨t', ?_, k2⟩
      unfold bare at hv k1 ⊢
      rw [List.map_append, List.foldlM_append, hv]
      exact foldlM_cons_ok.2 ⟨w, h2, k1⟩

/-- Before the first layer is closed no height is known; the first layer has no height. -/
def FirstFlat (s : BuildSt α) : Prop :=
  (s.ls.allLayers = [] → s.ls.prevBaseZ = none ∧ s.ls.prevZ = none ∧ s.ls.curZ = none) ∧ ∀ L, s.ls.allLayers[0]? = some L → L.z = none

theorem firstFlat_step {env : Env α} {light : Bool} {home : Home α} {s t : BuildSt α} {l0 : PyLine α} (hs : FirstFlat s)
    (h : buildStep env light home s l0 = .ok t) : FirstFlat t := by
  obtain ⟨m, l, hp, h | ⟨cmd, ds, _, _, _, h⟩⟩ := buildStep_ok h
  · rw [h.2]
    exact ⟨fun k => ⟨(hs.1 k).1, (hs.1 k).2.2, (hs.1 k).2.2⟩, hs.2⟩
  · rw [h]
    unfold stepLayer
    simp only
    by_cases c1 : nextCurZ s.ls.curZ l ≠ s.ls.prevZ
    · rw [if_pos c1]
      have hbz : s.ls.prevZ = none → (baseZ env.mode { s.ls with hasExtrusion := s.ls.hasExtrusion || l.extruding.getD false, curZ := nextCurZ s.ls.curZ l }).1 = none := by
        intro hpz
        unfold baseZ
        simp only [hpz]
      generalize baseZ env.mode { s.ls with hasExtrusion := s.ls.hasExtrusion || l.extruding.getD false, curZ := nextCurZ s.ls.curZ l } = q at hbz ⊢
      by_cases c2 : some q.1 ≠ s.ls.prevBaseZ
      · rw [if_pos c2]
        refine ⟨fun k => absurd k (by simp [recordLine]), ?_⟩
        intro L hL
        simp only [recordLine] at hL
        cases ha : s.ls.allLayers with
        | cons L0 Ls =>
          rw [ha] at hL
          exact hs.2 L (by rw [ha]; simpa using hL)
        | nil =>
          rw [ha] at hL
          obtain ⟨_, hpz, _⟩ := hs.1 ha
          simp only [List.nil_append, List.getElem?_cons_zero, Option.some.injEq] at hL
          rw [← hL]
          exact hbz hpz
      · rw [if_neg c2]
        refine ⟨fun k => ?_, hs.2⟩
        have k' : s.ls.allLayers = [] := k
        exfalso
        apply c2
        rw [(hs.1 k').1]
        simp
    · rw [if_neg c1]
      rw [not_not] at c1
      refine ⟨fun k => ?_, hs.2⟩
      obtain ⟨a, b, c⟩ := hs.1 k
      exact ⟨a, c1.trans b, c1.trans b⟩

theorem load_firstFlat {env : Env α} {data : List Str} {light : Bool} {home : Home α} {g : GCode α}
    (h : GCode.load env data light home = .ok g) : ∀ L, g.allLayers[0]? = some L → L.z = none := by
  rcases load_ok h with ⟨_, rfl⟩ | ⟨_, s, hs, rfl⟩
  · intro L hL
    simp only [List.getElem?_cons_zero, Option.some.injEq] at hL
    rw [← hL]
  · have hf : FirstFlat s := by
      refine foldlM_inv (buildStep env light home) (fun _ s => FirstFlat s) (fun _ _ _ _ hp hs => firstFlat_step hp hs) _ [] _ s ?_ hs
      exact ⟨fun _ => ⟨rfl, rfl, rfl⟩, by simp [BuildSt.start]⟩
    intro L hL
    unfold finalize closeLast at hL
    simp only at hL
    cases ha : s.ls.allLayers with
    | cons L0 Ls =>
      rw [ha] at hL
      refine hf.2 L ?_
      rw [ha]
      split_ifs at hL <;> simpa [ha] using hL
    | nil =>
      obtain ⟨_, b, _⟩ := hf.1 ha
      split_ifs at hL
      · rw [ha] at hL
        simp only [List.nil_append, List.getElem?_cons_zero, Option.some.injEq] at hL
        rw [← hL]
      · rw [ha] at hL
        simp only [List.nil_append, List.cons_append, List.getElem?_cons_zero, Option.some.injEq] at hL
        rw [← hL]
        exact b

/-- Reloading a program written with pauses at the starts of layers: the pauses end the layers before. -/
theorem load_paused {env : Env α} {data : List Str} {light : Bool} {home : Home α} {g : GCode α} (hg : GCode.load env data light home = .ok g)
    (hl : g.lines ≠ []) (hnl : ∀ l ∈ g.lines, '\n' ∉ l.raw) (k : ℕ → ℕ) (h0 : k 0 = 0) (hlast : ∀ i, g.allLayers.length ≤ i + 1 → k i = 0) :
    ∃ g1, GCode.load env (readlines ((spaced k 0 (layerTexts g)).flatMap (fun t => t ++ ['\n']))) light home = .ok g1 ∧
      PauseEnds light k 0 (layerLines g) (layerLines g1) ∧ SameFindings g g1 ∧ List.Forall₂ LayerWithMore g.allLayers g1.allLayers ∧ g1.lines ≠ [] ∧
      (∀ l ∈ g1.lines, '\n' ∉ l.raw) := by
  have hraws := load_raws hg
  rcases load_ok hg with ⟨_, rfl⟩ | ⟨hd, s, hs, rfl⟩
  · exact absurd rfl hl
  set g0 : GCode α := GCode.blank light home with hg0
  have hinv := fold_inv (start_inv g0) hs
  rw [readLines_bare] at hs
  obtain ⟨s', hs', hrel⟩ := weave_fold (k := k) (s' := BuildSt.start g0) ⟨more_start g0, rfl, .nil 0⟩ hs
  set texts := weave env light home k (BuildSt.start g0) ((data.map strip).filter (fun s => !s.isEmpty)) with htexts
  have hinv' := fold_inv (start_inv g0) hs'
  have hraws' := fold_raws hs'
  have hdone' : s'.done.map (·.raw) = texts := by
    simpa [BuildSt.start, bare, Function.comp_def] using hraws'
  have hcur : s.ls.curLines ≠ [] := hrel.more.some_line hl
  have hLL : layerLines (finalize g0 s) = closedLines s.ls ++ [s.ls.curLines] ++ [[]] := by rw [finalize_layers, if_neg hcur]
  have hLL' : layerLines (finalize g0 s') = closedLines s'.ls ++ [s.ls.curLines] ++ [[]] := by
    rw [finalize_layers, hrel.cur, if_neg hcur]
  have hlen : (finalize g0 s).allLayers.length = (closedLines s.ls).length + 2 := by
    have : (finalize g0 s).allLayers.length = (layerLines (finalize g0 s)).length := by simp [layerLines]
    rw [this, hLL]; simp
  have htr : PauseEnds light k 0 (layerLines (finalize g0 s)) (layerLines (finalize g0 s')) := by
    rw [hLL, hLL']
    have h1 := hrel.closed.snoc s.ls.curLines (ps := []) (hlast _ (by rw [hlen]; omega)).symm (by simp)
    have h2 := h1.snoc [] (ps := []) (hlast _ (by rw [hlen]; simp)).symm (by simp)
    simpa using h2
  have htext : texts = spaced k 0 (layerTexts (finalize g0 s)) := by
    have hsp := spaced_ends (fun _ => 0) htr
    rw [h0, hlast (0 + (layerLines (finalize g0 s)).length) (by rw [hlen, hLL]; simp)] at hsp
    simp only [List.replicate_zero, List.nil_append, List.append_nil, Nat.add_zero, spaced_zero] at hsp
    rw [show layerTexts (finalize g0 s) = (layerLines (finalize g0 s)).map (fun L => L.map (·.raw)) by simp [layerTexts, layerLines]]
    rw [← hsp, hLL', ← hdone']
    rw [hinv'.1.flat, hrel.cur, ← List.map_flatten]
    simp
  obtain ⟨k1, k2, k3⟩ := finalize_more (g := g0) hrel.more hl
  have hclean : ∀ t ∈ texts, strip t = t ∧ t ≠ [] ∧ '\n' ∉ t := by
    intro t ht
    rw [← hdone'] at ht
    obtain ⟨l, hlm, rfl⟩ := List.mem_map.1 ht
    have : l.raw = c!"M226" ∨ l.raw ∈ (finalize g0 s).lines.map (·.raw) := by
      have hfl : s'.done = (layerLines (finalize g0 s')).flatten := by rw [hLL', hinv'.1.flat, hrel.cur]; simp
      rw [hfl] at hlm
      obtain ⟨L', hL', hm⟩ := List.mem_flatten.1 hlm
      obtain ⟨i, hi⟩ := List.mem_iff_getElem?.1 hL'
      obtain ⟨L, ps, hL, rfl, _, hps⟩ := htr.get hi
      have hin : ∀ x ∈ L, x.raw ∈ (finalize g0 s).lines.map (·.raw) := by
        intro x hx
        refine List.mem_map.2 ⟨x, ?_, rfl⟩
        rw [(load_indexed hg).flat]
        exact List.mem_flatten.2 ⟨L, List.mem_iff_getElem?.2 ⟨i, hL⟩, hx⟩
      rcases List.mem_append.1 hm with hm | hm
      · exact .inr (hin _ hm)
      · exact .inl (hps _ hm).1
    rcases this with h | h
    · rw [h]; decide +kernel
    · refine ⟨?_, ?_, ?_⟩
      · rw [hraws, List.mem_filter, List.mem_map] at h
        obtain ⟨⟨d, _, hd⟩, _⟩ := h
        rw [← hd, strip_strip]
      · rw [hraws, List.mem_filter] at h
        simpa using h.2
      · obtain ⟨x, hx, hxr⟩ := List.mem_map.1 h
        rw [← hxr]
        exact hnl x hx
  have hne : texts ≠ [] := by
    rw [← hdone']
    intro h
    have : s'.done = [] := List.map_eq_nil_iff.1 h
    rw [hinv'.1.flat, hrel.cur] at this
    exact hcur (List.append_eq_nil_iff.1 this).2
  refine ⟨finalize g0 s', ?_, htr, k1, k2, ?_, ?_⟩
  · rw [← htext]
    unfold GCode.load prepare
    have hnn : readlines (texts.flatMap (fun t => t ++ ['\n'])) ≠ [] := by
      rw [readlines_write texts (fun t ht => (hclean t ht).2.2)]
      simpa using hne
    rw [if_neg (by simpa [List.isEmpty_iff] using hnn)]
    unfold preprocessAll
    rw [readLines_readlines texts hclean]
    have : (GCode.blank light home : GCode α).light = light ∧ (GCode.blank light home : GCode α).home = home := ⟨rfl, rfl⟩
    rw [this.1, this.2]
    have hs'' : (texts.map (fun t => ({ raw := t } : PyLine α))).foldlM (buildStep env light home) (BuildSt.start (GCode.blank light home)) = .ok s' := hs'
    rw [hs'']
  · intro h
    apply hne
    rw [← hdone']
    have : s'.done = [] := h
    rw [this]; rfl
  · intro l hlm
    have hlm' : l ∈ s'.done := hlm
    exact (hclean l.raw (by rw [← hdone']; exact List.mem_map.2 ⟨l, hlm', rfl⟩)).2.2

end GCodeUtils
