import Verif.Lemmas.KeptLayers
import Verif.Props.Changes
import Verif.Props.Bystander
import Verif.Props.Stretch
import Verif.Props.ArcGeometry
import Verif.Lemmas.MeasuredRel
import Verif.Spec.ArcHeight

/-
  C128: arc optimisation and stretching keep the layers of a program.
-/

set_option linter.unusedSectionVars false

namespace GCodeUtils

open Spec

variable {α : Type} [Field α] [LinearOrder α] [IsStrictOrderedRing α] [FloorRing α]

/-- The text is read as a line that goes to the same height as `l`. -/
def ReadsHeight (l : PyLine α) (r : Str) : Prop :=
  ∀ (home : Home α) (m m' : Machine α) (l' : PyLine α), m.imperial = false → processLine home m { raw := r } = .ok (m', l') →
    (∀ s, zStep s l' = zStep s l) ∧ ¬ HasCmd l' c!"G20"

theorem run_readsHeight {home : Home α} {ls : List (PyLine α)} {rs : List Str} (h : List.Forall₂ ReadsHeight ls rs) :
    ∀ {m m' : Machine α} {out : List (PyLine α)}, Run home m (bare rs) m' out → m.imperial = false → ∀ s, zChanges s out = zChanges s ls := by
  induction h with
  | nil => intro m m' out hr _ s; cases hr; rfl
  | cons hl _ ih =>
    intro m m' out hr hm s
    simp only [bare, List.map_cons] at hr
    cases hr with
    | cons hp hr =>
      obtain ⟨h1, h2⟩ := hl _ _ _ _ hm hp
      have him := (process_imperial hp).1
      rw [if_neg (show ¬ _ = some c!"G20" from h2), hm] at him
      simp only [zChanges, h1]
      rw [ih hr (by rw [him]; split_ifs <;> rfl)]

/-- A text that comes back unchanged from a file. -/
def WholeLine (r : Str) : Prop := strip r = r ∧ r ≠ [] ∧ '\n' ∉ r

theorem load_readsHeight {env : Env α} {home : Home α} {ls : List (PyLine α)} {rs : List Str} {g : GCode α} (h : List.Forall₂ ReadsHeight ls rs)
    (hw : ∀ r ∈ rs, WholeLine r) (hg : GCode.load env (readlines (rs.flatMap (fun r => r ++ ['\n']))) false home = .ok g) :
    changes none g.lines = zChanges (false, none) ls ∧ g.lines.length = rs.length := by
  obtain ⟨out, hr, ho⟩ := load_run hg
  rw [if_neg (by simp)] at ho
  rw [readLines_readlines rs hw] at hr
  rw [(load_zChanges hg).1, ho]
  exact ⟨run_readsHeight h hr rfl _, by simpa using hr.length⟩

theorem readsHeight_same {l : PyLine α} (h : ReadsSame l) (h20 : ¬ HasCmd l c!"G20") : ReadsHeight l l.raw := by
  intro home m m' l' hm hp
  have hs := h home m m' l' hm hp
  have hc : l'.command = l.command := hs.1.symm
  have hz : l'.z = l.z := hs.2.2.2.1.symm
  exact ⟨fun s => zStep_congr hc hz s, by rw [hasCmd_congr hc]; exact h20⟩

/-! ### arcs -/

theorem readsHeight_kept {l l' : PyLine α} (h : ReadsHeight l l.raw) (hk : Kept l l') : ReadsHeight l' l'.raw := by
  rcases hk with rfl | ⟨_, _, _, _, _, _, rfl⟩
  · exact h
  · intro home m m' k hm hp
    obtain ⟨h1, h2⟩ := h home m m' k hm hp
    exact ⟨fun s => (h1 s).trans (zStep_congr rfl rfl s).symm, h2⟩

theorem rewrites_readsHeight {R : PyLine α → List (PyLine α) → List (PyLine α) → Prop} {x y : List (PyLine α)} (h : Rewrites R x y)
    (hx : ∀ l ∈ x, ReadsHeight l l.raw) (hR : ∀ s w gen, R s w gen → ∀ l ∈ gen, l.z = none) (hy : ∀ l ∈ y, Saves l) :
    List.Forall₂ ReadsHeight y (y.map (·.raw)) := by
  have hg : ∀ l : PyLine α, Saves l → l.z = none → ReadsHeight l l.raw := by
    intro l hs hz home m m' l' hm hp
    obtain ⟨m1, l1, h1, h2⟩ := hs.reads home m hm
    rw [hp] at h1
    obtain ⟨rfl, rfl⟩ : m' = m1 ∧ l' = l1 := by simpa using h1
    have hc := (eq_command h2).symm
    refine ⟨fun s => zStep_congr hc ?_ s, by rw [hasCmd_congr hc]; exact hs.metric⟩
    have := (C13_eq_iff l l').1 h2
    rw [hz]
    have hw := this.2.2.2.1
    rw [hz] at hw
    cases hz' : l'.z with
    | none => rfl
    | some v => rw [hz'] at hw; simp [Spec.Within] at hw
  have all : ∀ l ∈ y, ReadsHeight l l.raw := by
    induction h with
    | done => intro l hl; simp at hl
    | keep hk _ ih =>
      intro l hl
      rcases List.mem_cons.1 hl with rfl | hl
      · exact readsHeight_kept (hx _ (by simp)) hk
      · exact ih (fun k hk => hx k (by simp [hk])) (fun k hk => hy k (by simp [hk])) l hl
    | arc hk _ hgen _ ih =>
      intro l hl
      rcases List.mem_cons.1 hl with rfl | hl
      · exact readsHeight_kept (hx _ (by simp)) hk
      · rcases List.mem_append.1 hl with hl | hl
        · exact hg l (hy l (by simp [hl])) (hR _ _ _ hgen l hl)
        · exact ih (fun k hk => hx k (by simp [hk])) (fun k hk => hy k (by simp [hk])) l hl
  clear hg hy h
  induction y with
  | nil => exact .nil
  | cons l y ih => exact .cons (all l (by simp)) (ih (fun k hk => all k (by simp [hk])))

theorem rewrites_moves {R : PyLine α → List (PyLine α) → List (PyLine α) → Prop} {P : PyLine α → Prop} {W : List (PyLine α) → Prop} {x y : List (PyLine α)}
    (hcom : ∀ l ∈ x, l.command = none → l.e = none) (h1 : ∀ s w gen, R s w gen → ∀ l ∈ w, MoveOrComment l) (h2 : ∀ s w gen, R s w gen → ∀ l ∈ w, l.e ≠ none)
    (hW : ∀ s w gen, R s w gen → W w) (h3 : ∀ s w gen, R s w gen → ∀ l ∈ gen, P l) (h : Rewrites R x y) :
    Rewrites (fun _ w gen => (∀ l ∈ w, IsMove l ∧ l.e ≠ none) ∧ W w ∧ ∀ l ∈ gen, P l) x y := by
  induction h with
  | done => exact .done
  | keep hk _ ih => exact .keep hk (ih (fun l hl => hcom l (by simp [hl])))
  | arc hk hw hR _ ih =>
    refine .arc hk hw ⟨?_, hW _ _ _ hR, h3 _ _ _ hR⟩ (ih (fun l hl => hcom l (by simp [hl])))
    obtain ⟨e, hm⟩ := window_same hcom (fun l hl => by simp [hl]) hw (h1 _ _ _ hR) (h2 _ _ _ hR)
    intro l hl
    exact ⟨hm l (e ▸ hl), h2 _ _ _ hR l hl⟩

theorem rewrites_pos {R : PyLine α → List (PyLine α) → List (PyLine α) → Prop} {x y : List (PyLine α)} (h : Rewrites R x y) (hx : x ≠ []) : 0 < y.length := by
  cases h with
  | done => exact absurd rfl hx
  | keep => simp
  | arc => simp

/-- C128, arcs. In a program in millimetres in which runs of extruding moves on an arc stay at their height, arc optimisation keeps the layers: the
written program, loaded again, has the same number of layers, at the same heights, with the same changes of height in each, and the
same layer height. -/
theorem C128_arcs_partial {env : Env α} {data : List Str} {home home' : Home α} {t : Trig α} {g g' g2 : GCode α}
    (h : GCode.load env data false home = .ok g) (h20 : ∀ l ∈ g.lines, ¬ HasCmd l c!"G20") (hn : ∀ l ∈ g.lines, '\n' ∉ l.raw)
    (hz : ∀ a w b u l v, ArcRun t g.lines a w b → w = u ++ l :: v → heightAfter (a ++ u ++ [l]) = heightAfter (a ++ u))
    (ho : g.optimizeArcs t = .ok g') (h2 : GCode.load env (readlines g'.write) false home' = .ok g2) (hne : g.lines ≠ []) :
    g2.est = g.est ∧ g2.allLayers.map (·.z) = g.allLayers.map (·.z) ∧
      changesIn none (g2.allLayers.map (·.lines)) = changesIn none (g.allLayers.map (·.lines)) := by
  have hp : program g = g.lines := (load_indexed h).flat.symm
  have hs := saves_loaded h h20 hn
  have hr := readsSame_loaded h h20
  have hs' := optimizeArcs_saves (load_layers_ne h) ho (by rw [hp]; exact hs)
  have hrw := C51_extruding_moves env data home g g' h t ho
  have hgen : ∀ s w gen, (ArcReplacement t s w gen ∧ ∀ l ∈ w, l.e ≠ none) → ∀ l ∈ gen, l.z = none ∧ ¬ HasCmd l c!"G90" ∧ ¬ HasCmd l c!"G91" := by
    rintro s w gen ⟨⟨_, pts, c, r, paths, fils, arc, rest, _, ha, ⟨last, _, hcor⟩, rfl⟩, _⟩ l hl
    rcases List.mem_cons.1 hl with rfl | hl
    · obtain ⟨_, _, _, _, hc⟩ := ha.command
      refine ⟨ha.height, ?_, ?_⟩ <;>
      · rw [HasCmd, hc]
        split_ifs <;> decide
    · split_ifs at hcor
      · obtain ⟨k, rfl, hk, _, _, hkz, _⟩ := hcor
        obtain rfl := List.mem_singleton.1 hl
        refine ⟨hkz, ?_, ?_⟩ <;>
        · rw [HasCmd, show l.command = _ from hk.1]
          decide
      · rw [hcor] at hl; simp at hl
  have hw : g'.write = ((program g').map (·.raw)).flatMap (fun r => r ++ ['\n']) := by
    unfold GCode.write GCode.allLines
    rw [program_def, List.flatMap_map]
  rw [hw] at h2
  have hpos : 0 < (program g').length := rewrites_pos hrw (by rw [hp]; exact hne)
  have hfor := rewrites_readsHeight hrw (fun l hl => by rw [hp] at hl; exact readsHeight_same (hr l hl) (h20 l hl)) (fun s w gen hR l hl => (hgen s w gen hR l hl).1) hs'
  have hwhole : ∀ r ∈ (program g').map (·.raw), WholeLine r := by
    intro r hr'
    obtain ⟨l, hl, rfl⟩ := List.mem_map.1 hr'
    exact (hs' l hl).text
  obtain ⟨e2, e3⟩ := load_readsHeight hfor hwhole h2
  have hst : ∀ a w b u l v, program g = a ++ (w ++ b) → (∀ l ∈ w, IsMove l ∧ l.e ≠ none) →
      (8 ≤ w.length ∧ ∃ s pts c r paths fils, OnArc t s w pts c r paths fils) → w = u ++ l :: v →
      zStep ((a ++ u).foldl zStep (false, none)) l = (a ++ u).foldl zStep (false, none) := by
    intro a w b u l v e hm hW ew
    rw [hp] at e
    have hh := hz a w b u l v ⟨e, hW.1, hm, hW.2⟩ ew
    have e' : g.lines = (a ++ u) ++ l :: (v ++ b) := by rw [e, ew]; simp
    have z1 := (load_zChanges h).2 (a ++ u) (l :: (v ++ b)) e'
    have z2 := (load_zChanges h).2 (a ++ u ++ [l]) (v ++ b) (by rw [e']; simp)
    rw [List.foldl_append, hh, ← z1] at z2
    refine Prod.ext ?_ z2
    obtain ⟨c, hc, hl⟩ := (hm l (by rw [ew]; simp)).1
    unfold zStep
    rw [if_neg, if_neg]
    · intro hh; rw [HasCmd, hl] at hh; obtain rfl := Option.some.inj hh; revert hc; decide
    · intro hh; rw [HasCmd, hl] at hh; obtain rfl := Option.some.inj hh; revert hc; decide
  have hmoves := rewrites_moves (load_comment h) (W := fun w => 8 ≤ w.length ∧ ∃ s pts c r paths fils, OnArc t s w pts c r paths fils)
    (fun _ _ _ hR => hR.1.1.2.1) (fun _ _ _ hR => hR.2) (fun s w gen hR => by
      obtain ⟨⟨hf, pts, c, r, paths, fils, _, _, hon, _⟩, _⟩ := hR
      exact ⟨hf.1, s, pts, c, r, paths, fils, hon⟩) hgen hrw
  have e1 := rewrites_zChanges hmoves (false, none) (load_comment h) hst
  have hc : changes none g2.lines = changes none g.lines := by
    rw [e2, e1, hp]
    exact (load_zChanges h).1.symm
  obtain ⟨c1, c2⟩ := C123_heights h2 h hc
  rw [List.length_map] at e3
  exact ⟨c1, c2 (by rw [← List.length_pos_iff, e3]; exact hpos) hne⟩

/-! ### stretching -/

/-- A line without a command in its words. -/
theorem bystander_dead {s : Str} (h : dropN (findall (lower s)) = [] ∨ ∃ rest, dropN (findall (lower s)) = none :: rest) : Bystander s := by
  have key : ∀ ws : List Tok, afterNumber ws = dropN ws := by
    intro ws
    unfold afterNumber dropN
    split
    · rfl
    · cases ws with
      | nil => rfl
      | cons t ts =>
        cases t with
        | none => rfl
        | some w =>
          obtain ⟨c, v⟩ := w
          by_cases hc : c = 'n'
          · subst hc; rename_i hh; exact absurd rfl (hh _ _)
          · simp [hc]
  refine bystander_of s (fun c hc => ?_)
  unfold commandOf at hc
  rw [key] at hc
  rcases h with h | ⟨rest, h⟩
  · rw [h] at hc
    obtain rfl := Option.some.inj hc
    have head : ∀ d : Char, s.head? = some d → d.toLower ∈ c!"gtm" → False := by
      intro d hd hm
      cases s with
      | nil => simp at hd
      | cons a s =>
        obtain rfl : a = d := by simpa using hd
        have e : lower (a :: s) = a.toLower :: lower s := rfl
        rw [e] at h
        simp only [List.mem_cons, List.not_mem_nil, or_false] at hm
        rcases hm with hm | hm | hm <;>
        · rw [hm] at h
          simp [findall, findallAux, matchTok, wordLetters, dropN] at h
    refine ⟨fun hh => head _ hh (by decide), fun hh => head _ hh (by decide), ?_, ?_⟩
    · intro e; exact head 'M' (by rw [e]; rfl) (by decide)
    · intro e; exact head 'M' (by rw [e]; rfl) (by decide)
  · rw [h] at hc; simp at hc

theorem marks_last {s : Str} (h : Marks s) : ∀ c, s.getLast? = some c → isSpace c = false := by
  have hall : ∀ m ∈ markTexts, m ≠ [] ∧ ∀ c, m.getLast? = some c → isSpace c = false := by
    intro m hm
    simp only [markTexts, List.mem_cons, List.not_mem_nil, or_false] at hm
    rcases hm with rfl | rfl | rfl | rfl | rfl | rfl <;>
    · refine ⟨by decide, fun c hc => ?_⟩
      simp only [List.getLast?_cons_cons, List.getLast?_singleton, Option.some.injEq] at hc
      subst hc
      decide
  induction h with
  | nil => intro c hc; simp at hc
  | cons sep m s _ hm _ ih =>
    intro c hc
    by_cases hs : s = []
    · subst hs
      rw [List.append_nil, List.getLast?_append_of_ne_nil _ (hall m hm).1] at hc
      exact (hall m hm).2 c hc
    · rw [List.getLast?_append_of_ne_nil _ hs] at hc
      exact ih c hc

theorem whole_marked {r s : Str} (h : WholeLine r) (hs : Marks s) : WholeLine (r ++ s) := by
  by_cases hse : s = []
  · subst hse; rw [List.append_nil]; exact h
  obtain ⟨h1, h2, h3⟩ := h
  refine ⟨strip_of_ends ?_ ?_, by simp [h2], ?_⟩
  · intro c hc
    rw [List.head?_append_of_ne_nil _ h2, ← h1] at hc
    exact strip_head r c hc
  · intro c hc
    rw [List.getLast?_append_of_ne_nil _ hse] at hc
    exact marks_last hs c hc
  · intro hc
    rcases List.mem_append.1 hc with hc | hc
    · exact h3 hc
    · rcases marks_trailing hs with rfl | ht
      · exact hse rfl
      · exact (ht.clean _ hc).2.2 rfl

theorem readsHeight_dead {r : Str} (h : Bystander r) {home : Home α} {m m' : Machine α} {l : PyLine α} (hp : processLine home m { raw := r } = .ok (m', l)) :
    (∀ s, zStep s l = s) ∧ ¬ HasCmd l c!"G20" := by
  obtain ⟨l1, h1, _, _, hz, _, hc⟩ := processLine_bystander h home m
  rw [hp] at h1
  obtain ⟨_, rfl⟩ : m' = m ∧ l = l1 := by simpa using h1
  have hno : ∀ c, c.head? = some 'G' → ¬ HasCmd l c := fun c hG hh => hc c hh hG
  exact ⟨fun s => zStep_plain hz (hno _ rfl) (hno _ rfl), hno _ rfl⟩

theorem readsHeight_marked {l : PyLine α} (h : ReadsHeight l l.raw) {s : Str} (hs : Marks s) (hN : ¬ Nested l.raw) (hn : '\n' ∉ l.raw) :
    ReadsHeight l (l.raw ++ s) := by
  rcases marks_trailing hs with rfl | ht
  · rw [List.append_nil]; exact h
  · intro home m m' l' hm hp
    by_cases hlive : ∃ w rest, dropN (findall (lower l.raw)) = some w :: rest
    · rw [sameMeaning_process (sameMeaning_trailing ht hN hn hlive)] at hp
      cases hq : processLine home m { raw := l.raw } with
      | error e => rw [hq] at hp; simp [Except.map] at hp
      | ok q =>
        obtain ⟨m1, l1⟩ := q
        rw [hq] at hp
        simp only [Except.map, Except.ok.injEq] at hp
        obtain ⟨rfl, rfl⟩ := Prod.mk.inj hp
        obtain ⟨h1, h2⟩ := h home m m1 l1 hm hq
        exact ⟨fun s => (zStep_congr rfl rfl s).trans (h1 s), h2⟩
    · have hdead : dropN (findall (lower l.raw)) = [] ∨ ∃ rest, dropN (findall (lower l.raw)) = none :: rest := by
        cases hd : dropN (findall (lower l.raw)) with
        | nil => exact .inl rfl
        | cons t rest =>
          cases t with
          | none => exact .inr ⟨rest, rfl⟩
          | some w => exact absurd ⟨w, rest, hd⟩ hlive
      have hdead' : dropN (findall (lower (l.raw ++ s))) = [] ∨ ∃ rest, dropN (findall (lower (l.raw ++ s))) = none :: rest := by
        obtain ⟨j, hj⟩ := findall_trailing ht hN hn
        rw [hj]
        cases hf : findall (lower l.raw) with
        | nil =>
          cases j with
          | zero => exact .inl rfl
          | succ j => exact .inr ⟨_, rfl⟩
        | cons t rest =>
          rw [hf] at hdead
          cases t with
          | none => exact .inr ⟨_, rfl⟩
          | some w =>
            obtain ⟨c, v⟩ := w
            by_cases hc : c = 'n'
            · subst hc
              simp only [dropN, if_true, List.cons_append] at hdead ⊢
              rcases hdead with rfl | ⟨r, rfl⟩
              · cases j with
                | zero => exact .inl rfl
                | succ j => exact .inr ⟨_, rfl⟩
              · exact .inr ⟨_, rfl⟩
            · simp [dropN, hc] at hdead
      obtain ⟨l1, h1, _⟩ := processLine_bystander (α := α) (bystander_dead hdead) home m
      have e1 := (readsHeight_dead (bystander_dead hdead) h1).1
      have e2 := (h home m m l1 hm h1).1
      obtain ⟨e3, e4⟩ := readsHeight_dead (bystander_dead hdead') hp
      exact ⟨fun s => by rw [e3 s, ← e2 s, e1 s], e4⟩

theorem readsHeight_rebuilt {l k : PyLine α} (hx : XYMove l) (hc : k.command = l.command) (hkz : k.z = l.z)
    (hz : ∀ v, l.z = some v → ∃ n : ℤ, v = n / 10 ^ 3) : ReadsHeight l (unsplit k).raw ∧ WholeLine (unsplit k).raw := by
  have hm : IsMove k := by
    rcases hx.1 with h | h
    · exact ⟨c!"G0", by simp, hc.trans h⟩
    · exact ⟨c!"G1", by simp, hc.trans h⟩
  have hr : Rebuilds k := .inl hm
  obtain ⟨t1, t2, t3, _⟩ := unsplit_text hr
  refine ⟨?_, t1, t2, t3⟩
  intro home m m' l' him hp
  obtain ⟨_, _, w3, _⟩ := rebuilt_all hr hp him
  obtain ⟨c1, _⟩ := rebuilt_reads hr hp him
  rw [hkz, map_exact hz] at w3
  refine ⟨fun s => zStep_congr (c1.trans hc) w3 s, ?_⟩
  obtain ⟨c, hcm, e⟩ := hm
  intro h
  rw [HasCmd, c1, e] at h
  obtain rfl := Option.some.inj h
  revert hcm; decide

theorem stretches_heights {ε : α} {most : LoopKind → α} {hist B C : List (PyLine α)} (h : Stretches ε most hist B C) :
    ∀ {A : List (PyLine α)}, List.Forall₂ MarkedUp A B → (∀ l ∈ A, ReadsHeight l l.raw ∧ WholeLine l.raw ∧ ¬ Nested l.raw) →
      (∀ l ∈ A, XYMove l → ∀ v, l.z = some v → ∃ n : ℤ, v = n / 10 ^ 3) →
      List.Forall₂ ReadsHeight A (C.map (·.raw)) ∧ ∀ r ∈ C.map (·.raw), WholeLine r := by
  induction h with
  | done =>
    intro A hm _ _
    cases hm
    exact ⟨.nil, fun r hr => by simp at hr⟩
  | step hl _ ih =>
    intro A hm hA hz
    rename_i hist l l' a b _
    cases hm with
    | cons hml hm =>
      rename_i l0 A
      obtain ⟨i1, i2⟩ := ih hm (fun k hk => hA k (by simp [hk])) (fun k hk => hz k (by simp [hk]))
      obtain ⟨a1, a2, a3⟩ := hA l0 (by simp)
      obtain ⟨s, hs, rfl⟩ := hml
      have kept : l'.raw = l0.raw ++ s → ReadsHeight l0 l'.raw ∧ WholeLine l'.raw := by
        intro e
        rw [e]
        exact ⟨readsHeight_marked a1 hs a3 a2.2.2, whole_marked a2 hs⟩
      have key : ReadsHeight l0 l'.raw ∧ WholeLine l'.raw := by
        unfold LineStretch at hl
        split at hl
        · split_ifs at hl with hcond
          · obtain ⟨dx, dy, n, _, _, _, _, _, m, m1, m2, _, _, m3, _⟩ := hl
            rw [m1]
            have hx : XYMove l0 := hcond.1
            exact readsHeight_rebuilt hx m2 m3 (hz l0 (by simp) hx)
          · exact kept hl
        · exact kept hl
      refine ⟨.cons key.1 i1, ?_⟩
      intro r hr
      rw [List.map_cons] at hr
      rcases List.mem_cons.1 hr with rfl | hr
      · exact key.2
      · exact i2 r hr

/-- C128, stretching. A stretched program, written and loaded again, has the layers of the original: the same number, at the same
heights, with the same changes of height in each, and the same layer height. The program is in millimetres, its comments in
parentheses are not nested, and the heights in its moves have at most three decimals. -/
theorem C128_stretch_partial {env : Env α} {data : List Str} {home home' : Home α} {ε : α} {sqrt : α → α} (hs : IsSqrt ε sqrt) {fuel : ℕ} {slicer : Slicer}
    {repo : StretchRepo α} {profile : ProfileOracle α} {g g' g2 : GCode α}
    (h : GCode.load env data false home = .ok g) (h20 : ∀ l ∈ g.lines, ¬ HasCmd l c!"G20") (hn : ∀ l ∈ g.lines, ¬ Nested l.raw ∧ '\n' ∉ l.raw)
    (hz : ∀ l ∈ g.lines, XYMove l → ∀ v, l.z = some v → ∃ n : ℤ, v = n / 10 ^ 3)
    (ho : g.stretch sqrt fuel slicer repo profile = .ok g') (h2 : GCode.load env (readlines g'.write) false home' = .ok g2) (hne : g.lines ≠ []) :
    g2.est = g.est ∧ g2.allLayers.map (·.z) = g.allLayers.map (·.z) ∧
      changesIn none (g2.allLayers.map (·.lines)) = changesIn none (g.allLayers.map (·.lines)) := by
  have hp : linesOf g.allLayers = g.lines := by
    have : g.lines = program g := (load_indexed h).flat
    rw [program_def] at this
    exact this.symm
  have hsv := saves_loaded h h20 (fun l hl => (hn l hl).2)
  have hr := readsSame_loaded h h20
  obtain ⟨Ls, w, ⟨d, ha⟩, _, hst, _⟩ := stretch_spec hs ho
  have hm := flat_marked (setupFilter_marked ha)
  rw [hp] at hm
  obtain ⟨hfor, hwhole⟩ := stretches_heights hst hm (fun l hl => ⟨readsHeight_same (hr l hl) (h20 l hl), (hsv l hl).text, (hn l hl).1⟩) hz
  have hw : g'.write = ((g'.allLayers.flatMap (·.lines)).map (·.raw)).flatMap (fun r => r ++ ['\n']) := by
    unfold GCode.write GCode.allLines
    rw [List.flatMap_map]
  rw [hw] at h2
  obtain ⟨e2, e3⟩ := load_readsHeight hfor hwhole h2
  obtain ⟨c1, c2⟩ := C123_heights h2 h (e2.trans (load_zChanges h).1.symm)
  refine ⟨c1, c2 ?_ hne⟩
  rw [← List.length_pos_iff, e3, ← hfor.length_eq]
  exact List.length_pos_iff.2 hne

/-! ### examples and refutations -/

/-- An arc in each of two layers. -/
def twoArcs : List Str := c!"G1 Z0.2" :: arcCcw ++ c!"G1 Z0.4" :: arcCcw

/-- A spiral. -/
def arcSpiral : List Str :=
  [c!"G1 Z0.2", c!"G1 X60.000 Y50.000 E1.0000 F1800", c!"G1 X59.659 Y52.588 E1.2611 Z0.21", c!"G1 X58.660 Y55.000 E1.5221 Z0.22", c!"G1 X57.071 Y57.071 E1.7832 Z0.23",
   c!"G1 X55.000 Y58.660 E2.0442 Z0.24", c!"G1 X52.588 Y59.659 E2.3053 Z0.25", c!"G1 X50.000 Y60.000 E2.5663 Z0.26", c!"G1 X47.412 Y59.659 E2.8274 Z0.27",
   c!"G1 X45.000 Y58.660 E3.0884 Z0.28", c!"G1 X42.929 Y57.071 E3.3495 Z0.29", c!"M107"]

/-- The hypotheses of `C128_arcs_partial` are met by a program with two layers in which both arcs are replaced. -/
example : GCode.load qEnv twoArcs = .ok (loadQ twoArcs) ∧ (∀ l ∈ (loadQ twoArcs).lines, ¬ HasCmd l c!"G20" ∧ '\n' ∉ l.raw) ∧
    (∀ a w b u l v, ArcRun qTrig (loadQ twoArcs).lines a w b → w = u ++ l :: v → heightAfter (a ++ u ++ [l]) = heightAfter (a ++ u)) ∧
    (loadQ twoArcs).optimizeArcs qTrig = .ok (arcsQ twoArcs) ∧
    GCode.load qEnv (readlines (arcsQ twoArcs).write) = .ok (loadQ (readlines (arcsQ twoArcs).write)) ∧
    (loadQ twoArcs).lines.length = 24 ∧ (loadQ (readlines (arcsQ twoArcs).write)).lines.length = 8 ∧
    (loadQ (readlines (arcsQ twoArcs).write)).allLayers.map (·.z) = [none, some (2 / 10), some (4 / 10), none] := by
  refine ⟨by decide +kernel, by unfold HasCmd; decide +kernel, ?_, by decide +kernel, by decide +kernel, by decide +kernel, by decide +kernel, by decide +kernel⟩
  intro a w b u l v ⟨e, _, hm, _⟩ ew
  have he := (hm l (by rw [ew]; simp)).2
  have hz : ∀ k ∈ (loadQ twoArcs).lines, k.e ≠ none → k.z = none := by decide +kernel
  have h0 : l.z = none := hz l (by rw [e, ew]; simp) he
  generalize a ++ u = p
  unfold heightAfter
  rw [List.foldl_append]
  simp only [List.foldl_cons, List.foldl_nil]
  generalize p.foldl heightStep none = z
  unfold heightStep
  rw [h0]
  split_ifs
  · rfl
  · cases z <;> simp
  · rfl

/-- A program that rises with every extruding move meets the hypothesis, too: no run of moves is at one height. -/
example : (∀ l ∈ (loadQ arcSpiral).lines, ¬ HasCmd l c!"G20" ∧ '\n' ∉ l.raw) ∧
    (∀ a w b u l v, ArcRun qTrig (loadQ arcSpiral).lines a w b → w = u ++ l :: v → heightAfter (a ++ u ++ [l]) = heightAfter (a ++ u)) := by
  refine ⟨by unfold HasCmd; decide +kernel, ?_⟩
  intro a w b u l v ⟨e, h8, hm, _, _, _, _, _, _, hon⟩ ew
  exfalso
  obtain ⟨z, hz⟩ := hon.height
  have hall : List.IsChain (fun k k' : PyLine ℚ => k.e ≠ none → k'.e ≠ none → k.currentZ ≠ k'.currentZ) (loadQ arcSpiral).lines := by decide +kernel
  rw [e] at hall
  match w, h8 with
  | k :: k' :: w, _ =>
    exact (List.isChain_cons_cons.1 hall.right_of_append).1 (hm k (by simp)).2 (hm k' (by simp)).2 ((hz k (by simp)).trans (hz k' (by simp)).symm)

/-- C128 is refuted for programs that change the height in an extruding move: the layer at 0.4 is lost. -/
theorem C128_arcs_refuted : GCode.load qEnv arcRise = .ok (loadQ arcRise) ∧ (loadQ arcRise).optimizeArcs qTrig = .ok (arcsQ arcRise) ∧
    GCode.load qEnv (readlines (arcsQ arcRise).write) = .ok (loadQ (readlines (arcsQ arcRise).write)) ∧
    (loadQ arcRise).allLayers.map (·.z) = [none, some (2 / 10), some (4 / 10), none] ∧
    (loadQ (readlines (arcsQ arcRise).write)).allLayers.map (·.z) = [none, some (2 / 10), none] := by decide +kernel

/-- A square in each of two layers, with Z words in the moves of the second. -/
def twoSquares : List Str := squareC ++ [c!"G0 X0 Y0 Z0.6 F7800", c!";TYPE:WALL-OUTER", c!"G1 F1200 X1 Y0 Z0.6 E6", c!"G1 X1 Y1 E7", c!"G1 X0 Y1 E8", c!";TYPE:FILL"]

/-- The hypotheses of `C128_stretch_partial` are met by such a program. -/
example : GCode.load qEnv twoSquares = .ok (loadQ twoSquares) ∧ (∀ l ∈ (loadQ twoSquares).lines, ¬ HasCmd l c!"G20") ∧
    (∀ l ∈ (loadQ twoSquares).lines, ¬ Nested l.raw ∧ '\n' ∉ l.raw) ∧
    (∀ l ∈ (loadQ twoSquares).lines, XYMove l → ∀ v, l.z = some v → ∃ n : ℤ, v = n / 10 ^ 3) ∧
    (loadQ twoSquares).stretch rSqrt 100 .cura (StretchRepo.default 1) noProfile = .ok (stretchQ .cura 1 twoSquares) ∧
    GCode.load qEnv (readlines (stretchQ .cura 1 twoSquares).write) = .ok (loadQ (readlines (stretchQ .cura 1 twoSquares).write)) ∧
    (stretchQ .cura 1 twoSquares).write ≠ (loadQ twoSquares).write ∧
    (loadQ (readlines (stretchQ .cura 1 twoSquares).write)).allLayers.map (·.z) = [none, some (3 / 10), some (6 / 10), none] := by
  refine ⟨by decide +kernel, by unfold HasCmd; decide +kernel, ?_, ?_, by decide +kernel, by decide +kernel, by decide +kernel, by decide +kernel⟩
  · intro l hl
    have : ∀ l ∈ (loadQ twoSquares).lines, l.raw.head? ≠ some '(' ∧ '\n' ∉ l.raw := by decide +kernel
    exact ⟨fun h => (this l hl).1 h.1, (this l hl).2⟩
  · intro l hl _ v hv
    have : ∀ l ∈ (loadQ twoSquares).lines, l.z = none ∨ l.z = some (300 / 10 ^ 3) ∨ l.z = some (600 / 10 ^ 3) := by decide +kernel
    rcases this l hl with h | h | h <;> rw [h] at hv
    · cases hv
    · exact ⟨300, by rw [← Option.some.inj hv]; norm_num⟩
    · exact ⟨600, by rw [← Option.some.inj hv]; norm_num⟩

/-- A height in a nested comment at the end of a layer. -/
def nestedHeight : List Str := [c!"G1 X0 Y0 Z0.2", c!";TYPE:WALL-OUTER", c!"G1 X1 Y1 E1", c!"(g1 (a) z8)"]

/-- C128 is refuted for nested comments: stretching adds a layer. -/
theorem C128_stretch_refuted : GCode.load qEnv nestedHeight = .ok (loadQ nestedHeight) ∧
    (loadQ nestedHeight).stretch rSqrt 100 .cura (StretchRepo.default 1) noProfile = .ok (stretchQ .cura 1 nestedHeight) ∧
    GCode.load qEnv (readlines (stretchQ .cura 1 nestedHeight).write) = .ok (loadQ (readlines (stretchQ .cura 1 nestedHeight).write)) ∧
    (loadQ nestedHeight).allLayers.map (·.z) = [none, some (2 / 10), none] ∧
    (loadQ (readlines (stretchQ .cura 1 nestedHeight).write)).allLayers.map (·.z) = [none, some (2 / 10), some 8, none] := by decide +kernel

end GCodeUtils
