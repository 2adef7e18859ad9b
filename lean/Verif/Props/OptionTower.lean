import Verif.Props.OptionPause
import Verif.Props.Measured
import Verif.Lemmas.Level
import Verif.Lemmas.Heater
import Verif.Lemmas.TempCal
import Verif.Spec.OptionTower

/-
  C138: a temperature tower built before or after moving and converting.
-/

set_option linter.unusedSectionVars false

namespace GCodeUtils

open Spec

variable {α : Type} [Field α] [LinearOrder α] [IsStrictOrderedRing α] [FloorRing α]

/-! ### the inserted lines depend on the heights -/

/-- The texts inserted into layers that begin at the given heights. -/
def inserted (mode : RoundMode) (temp : TempFn α) (zm zM : α) : Option α → List (Option (Option α)) → Except Err (List (Option Str))
  | _, [] => .ok []
  | last, none :: zs => (inserted mode temp zm zM last zs).map (none :: ·)
  | last, some cz :: zs =>
    match tempStep mode temp zm zM last cz with
    | .error er => .error er
    | .ok (last, i) => (inserted mode temp zm zM last zs).map (i :: ·)

theorem writeLoop_inserted {mode : RoundMode} {temp : TempFn α} {zm zM : α} (Ls : List (Layer α)) : ∀ {last l : Option α} {out : List Str},
    writeLoop mode temp zm zM last Ls = (out, .ok l) → ∃ ins, inserted mode temp zm zM last (Ls.map layerZ) = .ok ins ∧ out = tower ins Ls ∧ ins.length = Ls.length ∧
      ∀ s, some s ∈ ins → ∃ t : α, IsTempLine t s := by
  induction Ls with
  | nil =>
    intro last l out h
    simp only [writeLoop, Prod.mk.injEq] at h
    exact ⟨[], rfl, by rw [← h.1]; rfl, rfl, by simp⟩
  | cons L Ls ih =>
    intro last l out h
    simp only [writeLoop] at h
    simp only [List.map_cons]
    cases hz : layerZ L with
    | none =>
      rw [hz] at h
      obtain ⟨ins, h1, h2, h3, h4⟩ := ih h
      have hL := (layerZ_startHeight L).1.1 hz
      refine ⟨none :: ins, by simp only [inserted, h1]; rfl, ?_, by simp [h3], by simpa using h4⟩
      rw [h2]
      simp [tower, hL]
    | some cz =>
      rw [hz] at h
      simp only [inserted] at h ⊢
      cases hs : tempStep mode temp zm zM last cz with
      | error er => rw [hs] at h; simp at h
      | ok p =>
        obtain ⟨last', i⟩ := p
        rw [hs] at h
        simp only [Prod.mk.injEq] at h
        obtain ⟨ins, h1, h2, h3, h4⟩ := ih (last := last') (l := l) (out := (writeLoop mode temp zm zM last' Ls).1) (Prod.ext rfl h.2)
        simp only [h1]
        refine ⟨i :: ins, rfl, ?_, by simp [h3], ?_⟩
        · rw [← h.1, h2]
          simp [tower]
        · intro s hm
          rcases List.mem_cons.1 hm with hm | hm
          · unfold tempStep at hs
            cases cz with
            | none => simp only [Except.ok.injEq, Prod.mk.injEq] at hs; rw [← hs.2] at hm; cases hm
            | some c =>
              simp only at hs
              split_ifs at hs
              · cases ht : temp zm zM c with
                | error er => rw [ht] at hs; cases hs
                | ok r =>
                  rw [ht] at hs
                  cases r with
                  | none => simp only [Except.ok.injEq, Prod.mk.injEq] at hs; rw [← hs.2] at hm; cases hm
                  | some raw =>
                    simp only at hs
                    split_ifs at hs
                    · simp only [Except.ok.injEq, Prod.mk.injEq] at hs
                      rw [← hs.2] at hm
                      cases hm
                      exact ⟨_, tempLine_ok mode raw⟩
                    · simp only [Except.ok.injEq, Prod.mk.injEq] at hs; rw [← hs.2] at hm; cases hm
              · simp only [Except.ok.injEq, Prod.mk.injEq] at hs; rw [← hs.2] at hm; cases hm
          · exact h4 s hm

theorem parseHeights_congr {minZ : α} {zM : Option α} {Ls Ls' : List (Layer α)} (h : Ls'.map layerZ = Ls.map layerZ) :
    parseHeights minZ zM none Ls' = parseHeights minZ zM none Ls := by
  have key : ∀ (Ls Ls' : List (Layer α)) (a : Option α), Ls'.map layerZ = Ls.map layerZ → Ls'.foldl (scanZmin minZ) a = Ls.foldl (scanZmin minZ) a := by
    intro Ls
    induction Ls with
    | nil =>
      intro Ls' a h
      cases Ls' with
      | nil => rfl
      | cons L Ls' => simp at h
    | cons L Ls ih =>
      intro Ls' a h
      cases Ls' with
      | nil => simp at h
      | cons L' Ls' =>
        simp only [List.map_cons, List.cons.injEq] at h
        rw [List.foldl_cons, List.foldl_cons, show scanZmin minZ a L' = scanZmin minZ a L by unfold scanZmin; rw [h.1]]
        exact ih _ _ h.2
  unfold parseHeights
  rw [key Ls Ls' none h]

/-- What a run writes. -/
theorem towerRun_steps {env : Env α} {temp : TempFn α} {minZ : α} {text t : Str} (h : towerRun env temp minZ text = .ok t) :
    ∃ g zm zM ins, GCode.load env (readlines text) = .ok g ∧ parseHeights minZ g.zmax none g.allLayers = .ok (zm, zM) ∧
      inserted env.mode temp zm zM none (g.allLayers.map layerZ) = .ok ins ∧ (writeTemp env.mode temp minZ {} g).1 = tower ins g.allLayers ∧
      t = printed (tower ins g.allLayers) ∧ ins.length = g.allLayers.length ∧
      ∀ s, some s ∈ ins → ∃ t : α, IsTempLine t s := by
  unfold towerRun at h
  simp only [bind, Except.bind] at h
  cases hg : (GCode.load env (readlines text) : Except Err (GCode α)) with
  | error e => rw [hg] at h; cases h
  | ok g =>
    rw [hg] at h
    simp only at h
    unfold writeTemp at h
    cases hp : parseHeights minZ g.zmax (({} : TempSt α).zmin) g.allLayers with
    | error e => rw [hp] at h; simp at h
    | ok p =>
      obtain ⟨zm, zM⟩ := p
      rw [hp] at h
      simp only at h
      cases hw : (writeLoop env.mode temp zm zM ({} : TempSt α).lastTarget g.allLayers).2 with
      | error e => rw [hw] at h; simp [Except.map] at h
      | ok l =>
        rw [hw] at h
        simp only [Except.map, Except.ok.injEq] at h
        obtain ⟨ins, h1, h2, h3, h4⟩ := writeLoop_inserted g.allLayers (last := ({} : TempSt α).lastTarget) (l := l)
          (out := (writeLoop env.mode temp zm zM ({} : TempSt α).lastTarget g.allLayers).1) (Prod.ext rfl hw)
        refine ⟨g, zm, zM, ins, rfl, hp, h1, ?_, by rw [← h, h2], h3, h4⟩
        unfold writeTemp
        rw [hp]
        exact h2

/-- Programs with the same texts in the layers and the same heights become the same tower. -/
theorem tower_congr {ins : List (Option Str)} {Ls Ls' : List (Layer α)} (h : Ls'.map (fun L => L.lines.map (·.raw)) = Ls.map (fun L => L.lines.map (·.raw))) :
    tower ins Ls' = tower ins Ls := by
  have e : ∀ Ls : List (Layer α), tower ins Ls = (List.zipWith (fun i (L : List Str) => i.toList ++ L) ins (Ls.map (fun L => L.lines.map (·.raw)))).flatten := by
    intro Ls
    unfold tower
    rw [List.zipWith_map_right]
  rw [e, e, h]

theorem tower_mem {s : Str} {ins : List (Option Str)} (h : some s ∈ ins) {Ls : List (Layer α)} (hl : ins.length = Ls.length) : s ∈ tower ins Ls := by
  unfold tower
  induction ins generalizing Ls with
  | nil => simp at h
  | cons i ins ih =>
    cases Ls with
    | nil => simp at hl
    | cons L Ls =>
      rw [List.zipWith_cons_cons, List.flatten_cons, List.mem_append, List.mem_append]
      rcases List.mem_cons.1 h with h | h
      · rw [← h]; exact .inl (.inl (by simp))
      · exact .inr (ih h (by simpa using hl))

theorem same_chunks {β : Type} (A : List (List β)) : ∀ {B : List (List β)}, A.map List.length = B.map List.length → A.flatten = B.flatten → A = B := by
  induction A with
  | nil => intro B h _; cases B with | nil => rfl | cons b B => simp at h
  | cons a A ih =>
    intro B h hf
    cases B with
    | nil => simp at h
    | cons b B =>
      simp only [List.map_cons, List.cons.injEq] at h
      rw [List.flatten_cons, List.flatten_cons] at hf
      obtain ⟨h1, h2⟩ := List.append_inj hf h.1
      rw [h1, ih h.2 h2]

/-! ### the inserted lines as lines -/

/-- A temperature line of a program. -/
def heatLine (s : Str) : PyLine α := { raw := s, command := some c!"M104" }

/-- Layers with the inserted lines. -/
def withTower (ins : List (Option Str)) (Ls : List (Layer α)) : List (Layer α) :=
  List.zipWith (fun i (L : Layer α) => { L with lines := i.toList.map heatLine ++ L.lines }) ins Ls

theorem heatLine_not (s : Str) (c : Str) (hc : c ≠ c!"M104") : ¬ HasCmd (heatLine s : PyLine α) c := by
  intro h
  have : some c!"M104" = some c := h
  rw [Option.some.injEq] at this
  exact hc this.symm

theorem heatLine_not_move (s : Str) : ¬ IsMove (heatLine s : PyLine α) := not_move_cmd (a := c!"M104") (by decide) (show HasCmd _ _ from rfl)

theorem transLine_heat (p : TransSt α) (s : Str) : transLine p (heatLine s) = (p, heatLine s) := by
  unfold transLine
  rw [if_neg (heatLine_not_move s), if_neg (heatLine_not s _ (by decide)), if_neg (heatLine_not s _ (by decide)), if_neg (heatLine_not s _ (by decide))]

theorem relLine_heat (p : RelSt α) (s : Str) : relLine p (heatLine s) = (p, heatLine s) := by
  unfold relLine
  rw [if_neg (heatLine_not s _ (by decide)), if_neg (heatLine_not s _ (by decide)), if_neg (heatLine_not s _ (by decide)), if_neg (fun h => heatLine_not_move s h.1)]

theorem scanLayers_heat {σ : Type} {f : σ → PyLine α → σ × PyLine α} (hf : ∀ p s, f p (heatLine s) = (p, heatLine s)) (Ls : List (Layer α)) :
    ∀ (ins : List (Option Str)) (p : σ), ins.length = Ls.length → (scanLayers f p (withTower ins Ls)).2 = withTower ins (scanLayers f p Ls).2 := by
  induction Ls with
  | nil => intro ins p h; cases ins with | nil => rfl | cons i ins => simp at h
  | cons L Ls ih =>
    intro ins p h
    cases ins with
    | nil => simp at h
    | cons i ins =>
      have hi : ins.length = Ls.length := by simpa using h
      have e : ∀ ls : List (PyLine α), scan f p (i.toList.map heatLine ++ ls) = ((scan f p ls).1, i.toList.map heatLine ++ (scan f p ls).2) := by
        intro ls
        cases i with
        | none => rfl
        | some s => simp only [Option.toList, List.map_cons, List.map_nil, List.cons_append, List.nil_append, scan, hf p s]
      simp only [withTower, List.zipWith_cons_cons, scanLayers]
      rw [e]
      simp only [List.cons.injEq, true_and]
      exact ih ins _ hi

theorem scanLayers_length {σ : Type} (f : σ → PyLine α → σ × PyLine α) (Ls : List (Layer α)) (p : σ) : (scanLayers f p Ls).2.length = Ls.length :=
  (scanLayers_shape f Ls p).length_eq.symm

theorem optLayers_heat (o : ModOptions α) {ins : List (Option Str)} {Ls : List (Layer α)} (h : ins.length = Ls.length) :
    optLayers o (withTower ins Ls) = withTower ins (optLayers o Ls) := by
  unfold optLayers
  have h1 : (if o.x.isSome || o.y.isSome then (scanLayers transLine (TransSt.init o.x o.y) (withTower ins Ls)).2 else withTower ins Ls) =
      withTower ins (if o.x.isSome || o.y.isSome then (scanLayers transLine (TransSt.init o.x o.y) Ls).2 else Ls) := by
    split_ifs
    · exact scanLayers_heat transLine_heat _ _ _ h
    · rfl
  simp only
  rw [h1]
  by_cases he : o.e = true
  · rw [if_pos he, if_pos he]
    refine scanLayers_heat relLine_heat _ _ _ ?_
    split_ifs
    · rw [scanLayers_length]; exact h
    · exact h
  · rw [if_neg he, if_neg he]

theorem process_heat {n : Str} {t : α} (h : ReadsTenths n t) (home : Home α) (m : Machine α) :
    ∃ m' l', processLine home m { raw := c!"M104 S" ++ n } = .ok (m', l') ∧ SameArgs (heatLine (c!"M104 S" ++ n)) l' := by
  have hs : split ({ raw := c!"M104 S" ++ n } : PyLine α) = ({ raw := c!"M104 S" ++ n, command := some c!"M104", isMove := false }, [some ('m', c!"104")]) := by
    unfold split
    rw [findall_temp h]
    rfl
  refine ⟨m, { (stamp m ({ raw := c!"M104 S" ++ n, command := some c!"M104", isMove := false } : PyLine α)) with currentE := some m.currentE }, ?_, ?_⟩
  · unfold processLine
    rw [hs]
    rfl
  · exact ⟨rfl, rfl, rfl, rfl, rfl, rfl, rfl, rfl⟩

theorem firm_heat {n : Str} {t : α} (h : ReadsTenths n t) : Firm (heatLine (c!"M104 S" ++ n) : PyLine α) := by
  refine ⟨⟨⟨?_, by simp [heatLine], ?_⟩, heatLine_not _ _ (by decide), ?_, fun k => absurd k (heatLine_not _ _ (by decide))⟩, ?_, ?_⟩
  · refine strip_of_ends ?_ ?_
    · intro c hc
      have : c = 'M' := by simpa [heatLine] using hc.symm
      rw [this]; decide
    · intro c hc
      obtain ⟨a, d, _, _, hd, rfl, _⟩ := h
      have : c = d := by
        have e : (heatLine (c!"M104 S" ++ (a ++ ['.', d])) : PyLine α).raw = (c!"M104 S" ++ a ++ ['.']) ++ [d] := by simp [heatLine]
        rw [e, List.getLast?_concat] at hc
        exact (Option.some.inj hc).symm
      rw [this]
      exact (by decide : ∀ d ∈ c!"0123456789", isSpace d = false) d hd
  · intro hm
    have hc := tenths_chars h
    simp only [heatLine, List.mem_append] at hm
    rcases hm with hm | hm
    · revert hm; decide
    · exact absurd (hc _ hm) (by decide)
  · intro home m _
    obtain ⟨m', l', h1, h2⟩ := process_heat h home m
    exact ⟨m', l', h1, eq_of_sameArgs h2⟩
  · intro home m m' l' _ hp
    obtain ⟨m1, l1, h1, h2⟩ := process_heat h home m
    rw [show (heatLine (c!"M104 S" ++ n) : PyLine α).raw = c!"M104 S" ++ n from rfl, h1] at hp
    obtain ⟨rfl, rfl⟩ := Prod.mk.inj (Except.ok.inj hp)
    exact h2
  · rintro (k | k)
    · exact absurd k (heatLine_not_move _)
    · exact absurd k (heatLine_not _ _ (by decide))

/-- The program with the inserted lines. -/
theorem program_tower (ins : List (Option Str)) (Ls : List (Layer α)) : ((withTower ins Ls).flatMap (·.lines)).map (·.raw) = tower ins Ls := by
  unfold withTower tower
  induction ins generalizing Ls with
  | nil => rfl
  | cons i ins ih =>
    cases Ls with
    | nil => rfl
    | cons L Ls =>
      simp only [List.zipWith_cons_cons, List.flatMap_cons, List.map_append, List.flatten_cons]
      rw [ih]
      cases i <;> simp [heatLine]

theorem mem_tower {P : PyLine α → Prop} {ins : List (Option Str)} (hi : ∀ s, some s ∈ ins → P (heatLine s)) {Ls : List (Layer α)}
    (h : ∀ l ∈ Ls.flatMap (·.lines), P l) : ∀ l ∈ (withTower ins Ls).flatMap (·.lines), P l := by
  unfold withTower
  induction ins generalizing Ls with
  | nil => simp
  | cons i ins ih =>
    cases Ls with
    | nil => simp
    | cons L Ls =>
      simp only [List.zipWith_cons_cons, List.flatMap_cons, List.mem_append] at h ⊢
      rintro l ((hl | hl) | hl)
      · obtain ⟨s, hs, rfl⟩ := List.mem_map.1 hl
        exact hi s (by cases i with | none => simp at hs | some s' => simp at hs; simp [hs])
      · exact h l (.inl hl)
      · exact ih (fun s hs => hi s (by simp [hs])) (fun l hl => h l (.inr hl)) l hl

theorem optLayers_flat (o : ModOptions α) (Ls : List (Layer α)) : (optLayers o Ls).flatMap (·.lines) = optLines o (Ls.flatMap (·.lines)) := by
  unfold optLayers optLines
  have h1 : (if o.x.isSome || o.y.isSome then (scanLayers transLine (TransSt.init o.x o.y) Ls).2 else Ls).flatMap (·.lines) =
      (if o.x.isSome || o.y.isSome then (scan transLine (TransSt.init o.x o.y) (Ls.flatMap (·.lines))).2 else Ls.flatMap (·.lines)) := by
    split_ifs
    · exact (scanLayers_flat transLine Ls _).1
    · rfl
  simp only
  by_cases he : o.e = true
  · rw [if_pos he, if_pos he, ← h1]; exact (scanLayers_flat relLine _ _).1
  · rw [if_neg he, if_neg he]; exact h1

/-- Moving and converting a written tower: the inserted lines stay, the others are moved and converted. -/
theorem tower_modified {env : Env α} {ins : List (Option Str)} {data : List Str} {g : GCode α} {o : ModOptions α} {t : Str} (hg : GCode.load env data = .ok g)
    (hF : ∀ l ∈ g.lines, Firm l) (hlen : ins.length = g.allLayers.length) (hi : ∀ s, some s ∈ ins → ∃ t : α, IsTempLine t s) (hne : some [] ∉ ins)
    (h : modPipeline env o.x o.y o.e none (readlines (printed (tower ins g.allLayers))) = .ok t) : t = printed (tower ins (optLayers o g.allLayers)) := by
  have hl : g.lines = g.allLayers.flatMap (·.lines) := by rw [← program_def]; exact (load_indexed hg).flat
  have F : ∀ l ∈ (withTower ins g.allLayers).flatMap (·.lines), Firm l := by
    refine mem_tower ?_ (by rw [← hl]; exact hF)
    intro s hs
    obtain ⟨u, ⟨_, _, n, rfl, hn⟩ | ⟨_, rfl⟩⟩ := hi s hs
    · exact firm_heat hn
    · exact absurd hs hne
  have e1 : printed (tower ins g.allLayers) = ((withTower ins g.allLayers).flatMap (·.lines)).flatMap (fun l => l.raw ++ ['\n']) := by
    unfold printed
    rw [← program_tower, List.flatMap_map]
  obtain ⟨g1, hg1, ht⟩ := run_text h
  rw [e1] at hg1
  have C := optLines_copy o (load_same (fun l hl => ⟨(F l hl).saves, (F l hl).reads⟩) hg1)
  have hr : ∀ {a b : List (PyLine α)}, List.Forall₂ Copy a b → b.flatMap (fun l => l.raw ++ ['\n']) = a.flatMap (fun l => l.raw ++ ['\n']) := by
    intro a b h
    induction h with
    | nil => rfl
    | cons h1 _ ih => rw [List.flatMap_cons, List.flatMap_cons, ih, h1.1]
  rw [ht, hr C, ← optLayers_flat, optLayers_heat o hlen]
  unfold printed
  rw [← program_tower, List.flatMap_map]

/-! ### the heights of the filtered program, read again -/

/-- The filtered program, read again, has layers with the texts of the filtered layers and at the heights of the original. -/
theorem reread_layers {env : Env α} {o : ModOptions α} {data data' : List Str} {g g2 : GCode α} (hg : GCode.load env data = .ok g) (hg2 : GCode.load env data' = .ok g2)
    (hc : List.Forall₂ Copy (optLines o g.lines) g2.lines) (hz : g2.lines.map (·.currentZ) = g.lines.map (·.currentZ))
    (hlen : g2.allLayers.map (·.lines.length) = g.allLayers.map (·.lines.length)) :
    g2.allLayers.map layerZ = g.allLayers.map layerZ ∧ g2.allLayers.map (fun L => L.lines.map (·.raw)) = (optLayers o g.allLayers).map (fun L => L.lines.map (·.raw)) := by
  have hl : g.lines = g.allLayers.flatMap (·.lines) := by rw [← program_def]; exact (load_indexed hg).flat
  have hl2 : g2.lines = g2.allLayers.flatMap (·.lines) := by rw [← program_def]; exact (load_indexed hg2).flat
  constructor
  · have : g2.allLayers.map (fun L => L.lines.map (·.currentZ)) = g.allLayers.map (fun L => L.lines.map (·.currentZ)) := by
      refine same_chunks _ ?_ ?_
      · simpa [List.map_map, Function.comp_def] using hlen
      · rw [hl, hl2, List.map_flatMap, List.map_flatMap] at hz
        simpa [List.flatMap_def] using hz
    have e : ∀ Ls : List (Layer α), Ls.map layerZ = (Ls.map (fun L => L.lines.map (·.currentZ))).map List.head? := by
      intro Ls
      rw [List.map_map]
      refine List.map_congr_left fun L _ => ?_
      simp [layerZ, List.head?_map]
    rw [e, e, this]
  · refine same_chunks _ ?_ ?_
    · have : (optLayers o g.allLayers).map (·.lines.length) = g.allLayers.map (·.lines.length) := by
        have hs := optLayers_shape o g.allLayers
        generalize optLayers o g.allLayers = A at hs
        generalize g.allLayers = B at hs
        induction hs with
        | nil => rfl
        | cons h _ ih => rw [List.map_cons, List.map_cons, ih, h.2]
      simpa [List.map_map, Function.comp_def] using hlen.trans this.symm
    · have hr : g2.lines.map (·.raw) = (optLines o g.lines).map (·.raw) := by
        clear hz hlen hl2
        generalize optLines o g.lines = A at hc
        generalize g2.lines = B at hc
        induction hc with
        | nil => rfl
        | cons h _ ih => rw [List.map_cons, List.map_cons, ih, h.1]
      rw [hl2, hl, ← optLayers_flat, List.map_flatMap, List.map_flatMap] at hr
      simpa [List.flatMap_def] using hr

/-- Both orders. -/
theorem tower_both {env : Env α} {temp : TempFn α} {minZ : α} {o : ModOptions α} {text t1 t u1 u : Str} {g : GCode α}
    (hg : GCode.load env (readlines text) = .ok g) (hF : ∀ l ∈ g.lines, Firm l) (hx : ∃ k : ℤ, o.x.getD 0 = k / 10 ^ 3) (hy : ∃ k : ℤ, o.y.getD 0 = k / 10 ^ 3)
    (hblank : [] ∉ (writeTemp env.mode temp minZ {} g).1)
    (h1 : towerRun env temp minZ text = .ok t1) (h2 : modPipeline env o.x o.y o.e none (readlines t1) = .ok t)
    (k1 : modPipeline env o.x o.y o.e none (readlines text) = .ok u1) (k2 : towerRun env temp minZ u1 = .ok u)
    (hsame : ∀ g2, GCode.load env (readlines u1) = .ok g2 → List.Forall₂ Copy (optLines o g.lines) g2.lines →
      g2.zmax = g.zmax ∧ g2.lines.map (·.currentZ) = g.lines.map (·.currentZ) ∧ g2.allLayers.map (·.lines.length) = g.allLayers.map (·.lines.length)) : u = t := by
  obtain ⟨g0, zm, zM, ins, a1, a2, a3, a0, a4, a5, a6⟩ := towerRun_steps h1
  rw [hg] at a1
  obtain rfl := Except.ok.inj a1
  have hne : some [] ∉ ins := fun k => hblank (by rw [a0]; exact tower_mem k a5)
  subst a4
  have ht := tower_modified hg hF a5 a6 hne h2
  obtain ⟨g2, zm', zM', ins', b1, b2, b3, _, b4, _, _⟩ := towerRun_steps k2
  obtain ⟨g', c1, c2⟩ := run_text k1
  rw [hg] at c1
  obtain rfl := Except.ok.inj c1
  have F2 := optLines_firm o hx hy hF
  have b1' := b1
  rw [c2] at b1'
  have C := load_same (fun l hl => ⟨(F2 l hl).saves, (F2 l hl).reads⟩) b1'
  obtain ⟨d1, d2, d3⟩ := hsame g2 b1 C
  obtain ⟨e1, e2⟩ := reread_layers hg b1 C d2 d3
  rw [d1, parseHeights_congr e1, a2] at b2
  obtain ⟨rfl, rfl⟩ := Prod.mk.inj (Except.ok.inj b2)
  rw [e1, a3] at b3
  obtain rfl := Except.ok.inj b3
  rw [b4, ht, tower_congr e2]

theorem transLine_rise (s : TransSt α) (l : PyLine α) : SameRise l (transLine s l).2 := by
  have same : SameRise l l := ⟨rfl, rfl, rfl, fun _ => ⟨rfl, rfl⟩⟩
  unfold transLine
  by_cases c0 : IsMove l
  · rw [if_pos c0]
    split_ifs
    · have nh : l.command ≠ some c!"G28" := by
        intro k
        exact absurd c0 (not_move_cmd (a := c!"G28") (by decide) k)
      unfold translateMove
      rcases l with ⟨raw, command, x, y, z, e, f, i, j, im, rel, relE, cx, cy, cz, ce, cf, ct, ex⟩
      cases x <;> cases y <;> simp only <;> (try split_ifs) <;> exact ⟨rfl, rfl, rfl, fun k => absurd k nh⟩
    · exact same
  rw [if_neg c0]
  by_cases c1 : HasCmd l c!"G90"
  · rw [if_pos c1]; exact same
  rw [if_neg c1]
  by_cases c2 : HasCmd l c!"G91"
  · rw [if_pos c2]; exact same
  rw [if_neg c2]
  by_cases c3 : HasCmd l c!"G92"
  · rw [if_pos c3]
    have nh : l.command ≠ some c!"G28" := by
      intro k
      rw [HasCmd, k] at c3
      exact absurd c3 (by decide)
    unfold translateG92
    rcases l with ⟨raw, command, x, y, z, e, f, i, j, im, rel, relE, cx, cy, cz, ce, cf, ct, ex⟩
    split_ifs
    · exact ⟨rfl, rfl, rfl, fun k => absurd k nh⟩
    · cases x <;> cases y <;> exact ⟨rfl, rfl, rfl, fun k => absurd k nh⟩
  · rw [if_neg c3]; exact same

theorem relLine_level (s : RelSt α) (l : PyLine α) : Level l (relLine s l).2 := by
  have same : Level l l := ⟨.inl rfl, fun _ => rfl, fun _ => ⟨rfl, rfl⟩⟩
  unfold relLine
  by_cases c1 : HasCmd l c!"M83"
  · rw [if_pos c1]; exact same
  rw [if_neg c1]
  by_cases c2 : HasCmd l c!"M82"
  · rw [if_pos c2]
    refine ⟨.inr ⟨c2, m83_line⟩, fun k => ?_, fun k => ?_⟩
    · rw [HasCmd] at c2
      rw [c2] at k
      exact absurd (m83_line.symm.trans k) (by decide)
    · rw [HasCmd] at c2
      rw [c2] at k
      exact absurd k (by decide)
  rw [if_neg c2]
  by_cases c3 : HasCmd l c!"G92"
  · rw [if_pos c3]
    cases l.e with
    | some e => exact same
    | none => simp only; split_ifs <;> exact same
  rw [if_neg c3]
  by_cases c4 : IsMove l ∧ s.relative = false
  · rw [if_pos c4]
    cases he : l.e with
    | some e => exact ⟨.inl rfl, fun _ => rfl, fun _ => ⟨rfl, rfl⟩⟩
    | none => exact same
  · rw [if_neg c4]; exact same

theorem scan_pairs {σ : Type} {R : PyLine α → PyLine α → Prop} {f : σ → PyLine α → σ × PyLine α} (h : ∀ s l, R l (f s l).2) (ls : List (PyLine α)) :
    ∀ s, List.Forall₂ R ls (scan f s ls).2 := by
  induction ls with
  | nil => intro s; exact .nil
  | cons l ls ih => intro s; exact .cons (h s l) (ih _)

theorem pairs_copy {R : PyLine α → PyLine α → Prop} (hR : ∀ a b c, R a b → Copy b c → R a c) {A B C : List (PyLine α)} (h : List.Forall₂ R A B) :
    List.Forall₂ Copy B C → List.Forall₂ R A C := by
  induction h generalizing C with
  | nil => intro k; cases k; exact .nil
  | cons h1 _ ih => intro k; cases k with | cons k1 k2 => exact .cons (hR _ _ _ h1 k1) (ih k2)

theorem SameRise.copy (a b c : PyLine α) (h : SameRise a b) (k : Copy b c) : SameRise a c := by
  obtain ⟨_, k1, k2, k3, k4, k5, _⟩ := k
  obtain ⟨h1, h2, h3, h4⟩ := h
  exact ⟨k1.symm.trans h1, k4.symm.trans h2, k5.symm.trans h3, fun q => ⟨k2.symm.trans (h4 q).1, k3.symm.trans (h4 q).2⟩⟩

theorem Level.copy (a b c : PyLine α) (h : Level a b) (k : Copy b c) : Level a c := by
  obtain ⟨_, k1, k2, k3, k4, _⟩ := k
  refine ⟨?_, fun q => k4.symm.trans (h.z (k1.trans q)), fun q => ⟨k2.symm.trans (h.home q).1, k3.symm.trans (h.home q).2⟩⟩
  rw [← k1]
  exact h.command

/-! ### the theorems -/

/-- C138 (partial), moving. A temperature tower is built and then moved, or the program is moved and then made a tower: the two
texts are the same, character for character. The program is in millimetres, its moves and `G92` lines have numbers with at most three decimals
(five for E), so do the offsets, and the tower asks for no temperature outside the safety range (which would be an empty line). -/
theorem C138_move_partial {env : Env α} {temp : TempFn α} {minZ : α} {x y : Option α} {text t1 t u1 u : Str} {g : GCode α}
    (hg : GCode.load env (readlines text) = .ok g) (hne : g.lines ≠ []) (h20 : ∀ l ∈ g.lines, ¬ HasCmd l c!"G20")
    (hs : ∀ l ∈ g.lines, IsMove l ∨ HasCmd l c!"G92" → ShortNumbers l)
    (hx : ∃ k : ℤ, x.getD 0 = k / 10 ^ 3) (hy : ∃ k : ℤ, y.getD 0 = k / 10 ^ 3)
    (hblank : [] ∉ (writeTemp env.mode temp minZ {} g).1)
    (h1 : towerRun env temp minZ text = .ok t1) (h2 : modPipeline env x y false none (readlines t1) = .ok t)
    (k1 : modPipeline env x y false none (readlines text) = .ok u1) (k2 : towerRun env temp minZ u1 = .ok u) : u = t := by
  have hF : ∀ l ∈ g.lines, Firm l := fun l hm => ⟨saves_loaded hg h20 (load_no_newline hg) l hm, readsSame_loaded hg h20 l hm, hs l hm⟩
  refine tower_both (o := { x := x, y := y }) hg hF hx hy hblank h1 h2 k1 k2 ?_
  intro g2 hg2 hc
  have hp : List.Forall₂ SameRise g.lines g2.lines := by
    refine pairs_copy SameRise.copy (B := optLines { x := x, y := y } g.lines) ?_ hc
    unfold optLines
    simp only [Bool.false_eq_true, if_false]
    split_ifs
    · exact scan_pairs transLine_rise _ _
    · exact List.forall₂_same.2 fun l _ => ⟨rfl, rfl, rfl, fun _ => ⟨rfl, rfl⟩⟩
  obtain ⟨_, z1, z2, z3⟩ := load_level hg hg2 hne hp
  exact ⟨z1, z3, z2⟩

/-- C138 (partial), relative extrusion: the same for the conversion, under the conditions of C114. -/
theorem C138_convert_partial {env : Env α} {temp : TempFn α} {minZ : α} {text t1 t u1 u : Str} {g : GCode α}
    (hg : GCode.load env (readlines text) = .ok g) (hne : g.lines ≠ []) (h20 : ∀ l ∈ g.lines, ¬ HasCmd l c!"G20")
    (hs : ∀ l ∈ g.lines, IsMove l ∨ HasCmd l c!"G92" → ShortNumbers l)
    (hmode : (({} : EModeSt).run g.lines).isSome = true) (hreset : NoReset g.lines)
    (hzero : ∀ l ∈ g.lines, HasCmd l c!"G92" → l.e = none ∨ l.e = some 0)
    (hblank : [] ∉ (writeTemp env.mode temp minZ {} g).1)
    (h1 : towerRun env temp minZ text = .ok t1) (h2 : modPipeline env none none true none (readlines t1) = .ok t)
    (k1 : modPipeline env none none true none (readlines text) = .ok u1) (k2 : towerRun env temp minZ u1 = .ok u) : u = t := by
  have hF : ∀ l ∈ g.lines, Firm l := fun l hm => ⟨saves_loaded hg h20 (load_no_newline hg) l hm, readsSame_loaded hg h20 l hm, hs l hm⟩
  refine tower_both (o := { e := true }) hg hF ⟨0, by simp⟩ ⟨0, by simp⟩ hblank h1 h2 k1 k2 ?_
  intro g2 hg2 hc
  have hl : g.lines = program g := (load_indexed hg).flat
  obtain ⟨g', gr, c1, c2, c3, _⟩ := C114_analysis_partial hg hne (load_no_newline hg) h20 hmode hreset hzero (fun l hl hm _ => hs l hl (.inl hm))
  obtain ⟨g'', f1, f2, _⟩ := filter_program ({ e := true } : ModOptions α) g
  have ef : ({ e := true } : ModOptions α).filter g = g.toRelativeE := rfl
  rw [ef, c1] at f1
  obtain rfl := Except.ok.inj f1
  obtain ⟨g0, d1, d2⟩ := run_text (o := ({ e := true } : ModOptions α)) k1
  rw [hg] at d1
  obtain rfl := Except.ok.inj d1
  have ew : g'.write = u1 := by
    rw [d2, hl, ← f2]
    unfold GCode.write GCode.allLines
    rw [program_def]
  rw [ew, hg2] at c2
  obtain rfl := Except.ok.inj c2
  have hp : List.Forall₂ Level g.lines g2.lines := pairs_copy Level.copy (scan_pairs relLine_level g.lines RelSt.init) hc
  obtain ⟨out, r1, o1⟩ := load_run' hg
  obtain ⟨out', r1', o1'⟩ := load_run' hg2
  rw [← o1 rfl] at r1
  rw [← o1' rfl] at r1'
  refine ⟨c3.z.2.1, run_level _ r1 r1' rfl hp, ?_⟩
  have := congrArg (List.map Prod.snd) c3.layers
  simpa only [List.map_map, Function.comp_def] using this

/-! ### the safety range -/

theorem round_range (mode : RoundMode) {r : α} (h : 150 ≤ r ∧ r ≤ 250) : 150 ≤ pyRound mode 1 r ∧ pyRound mode 1 r ≤ 250 := by
  obtain ⟨⟨n, hn⟩, hb⟩ := pyRound_tenth mode r
  rw [abs_le] at hb
  rw [hn] at hb ⊢
  have h1 : (1499 : α) < n := by linarith [hb.1, h.1]
  have h2 : (n : α) < 2501 := by linarith [hb.2, h.2]
  have h1' : (1500 : ℤ) ≤ n := by
    have : (1499 : ℤ) < n := by exact_mod_cast h1
    omega
  have h2' : n ≤ (2500 : ℤ) := by
    have : n < (2501 : ℤ) := by exact_mod_cast h2
    omega
  have h3 : (1500 : α) ≤ n := by exact_mod_cast h1'
  have h4 : (n : α) ≤ 2500 := by exact_mod_cast h2'
  constructor <;> linarith

theorem inserted_range {mode : RoundMode} {temp : TempFn α} {zm zM : α} (hT : ∀ c r, zm ≤ c → c ≤ zM → temp zm zM c = .ok (some r) → 150 ≤ r ∧ r ≤ 250)
    (zs : List (Option (Option α))) : ∀ {last : Option α} {ins : List (Option Str)}, inserted mode temp zm zM last zs = .ok ins → some [] ∉ ins := by
  induction zs with
  | nil =>
    intro last ins h
    simp only [inserted, Except.ok.injEq] at h
    rw [← h]; simp
  | cons z zs ih =>
    intro last ins h
    cases z with
    | none =>
      simp only [inserted] at h
      cases hr : inserted mode temp zm zM last zs with
      | error e => rw [hr] at h; cases h
      | ok ins' =>
        rw [hr] at h
        simp only [Except.map, Except.ok.injEq] at h
        rw [← h]
        simpa using ih hr
    | some cz =>
      simp only [inserted] at h
      cases hs : tempStep mode temp zm zM last cz with
      | error e => rw [hs] at h; cases h
      | ok p =>
        obtain ⟨last', i⟩ := p
        rw [hs] at h
        simp only at h
        cases hr : inserted mode temp zm zM last' zs with
        | error e => rw [hr] at h; cases h
        | ok ins' =>
          rw [hr] at h
          simp only [Except.map, Except.ok.injEq] at h
          rw [← h, List.mem_cons]
          rintro (k | k)
          · subst k
            unfold tempStep at hs
            cases cz with
            | none => simp at hs
            | some c =>
              simp only at hs
              split_ifs at hs with hc
              · cases ht : temp zm zM c with
                | error e => rw [ht] at hs; cases hs
                | ok r =>
                  rw [ht] at hs
                  cases r with
                  | none => simp at hs
                  | some r =>
                    simp only at hs
                    split_ifs at hs
                    · simp only [Except.ok.injEq, Prod.mk.injEq, Option.some.injEq] at hs
                      have := hs.2
                      unfold generateTemperatureGcode absMinTemp absMaxTemp at this
                      rw [if_pos (round_range mode (hT c r hc.2.1 hc.2.2 ht))] at this
                      simp at this
                    · simp at hs
              · simp at hs
          · exact ih hr k

/-- No empty line if the rule asks for temperatures in the safety range only. -/
theorem C138_in_range {env : Env α} {temp : TempFn α} {minZ : α} {text t : Str} {g : GCode α} (hg : GCode.load env (readlines text) = .ok g)
    (hT : ∀ zm zM c r, zm < zM → zm ≤ c → c ≤ zM → temp zm zM c = .ok (some r) → 150 ≤ r ∧ r ≤ 250) (h : towerRun env temp minZ text = .ok t) :
    [] ∉ (writeTemp env.mode temp minZ {} g).1 := by
  obtain ⟨g0, zm, zM, ins, a1, a2, a3, a0, _, a5, _⟩ := towerRun_steps h
  rw [hg] at a1
  obtain rfl := Except.ok.inj a1
  have hlt : zm < zM := by
    unfold parseHeights at a2
    cases hf : g.allLayers.foldl (scanZmin minZ) none with
    | none => rw [hf] at a2; cases a2
    | some b =>
      rw [hf] at a2
      cases hm : g.zmax with
      | none => rw [hm] at a2; cases a2
      | some M =>
        rw [hm] at a2
        simp only at a2
        split_ifs at a2 with hle
        simp only [Except.ok.injEq, Prod.mk.injEq] at a2
        rw [← a2.1, ← a2.2]
        exact lt_of_not_ge hle
  have hi := inserted_range (fun c r => hT zm zM c r hlt) _ a3
  rw [a0, ← program_tower]
  intro k
  obtain ⟨l, hl, hr⟩ := List.mem_map.1 k
  refine mem_tower (P := fun l => l.raw ≠ []) (fun s hs e => hi ?_) ?_ l hl hr
  · have : s = [] := e
    rw [← this]; exact hs
  · have hl : g.lines = g.allLayers.flatMap (·.lines) := by rw [← program_def]; exact (load_indexed hg).flat
    rw [← hl]
    intro l hm e
    have : l.raw ∈ g.lines.map (·.raw) := List.mem_map.2 ⟨l, hm, rfl⟩
    rw [load_raws hg, List.mem_filter] at this
    rw [e] at this
    simp at this

theorem continuous_range {a b : α} (ha : 150 ≤ a ∧ a ≤ 250) (hb : 150 ≤ b ∧ b ≤ 250) :
    ∀ zm zM c r, zm < zM → zm ≤ c → c ≤ zM → continuousTemp a b zm zM c = .ok (some r) → 150 ≤ r ∧ r ≤ 250 := by
  intro zm zM c r hlt h1 h2 h
  have hd : (0 : α) < zM - zm := by linarith
  unfold continuousTemp at h
  rw [if_neg (ne_of_gt hd)] at h
  simp only [Except.ok.injEq, Option.some.injEq] at h
  have e : r = a * ((zM - c) / (zM - zm)) + b * ((c - zm) / (zM - zm)) := by
    rw [← h]; field_simp; ring
  have p : 0 ≤ (zM - c) / (zM - zm) := div_nonneg (by linarith) hd.le
  have q : 0 ≤ (c - zm) / (zM - zm) := div_nonneg (by linarith) hd.le
  have s : (zM - c) / (zM - zm) + (c - zm) / (zM - zm) = 1 := by field_simp; ring
  generalize (zM - c) / (zM - zm) = u at e p s
  generalize (c - zm) / (zM - zm) = v at e q s
  have hv : v = 1 - u := by linarith
  have m1 := mul_le_mul_of_nonneg_right ha.1 p
  have m2 := mul_le_mul_of_nonneg_right ha.2 p
  have m3 := mul_le_mul_of_nonneg_right hb.1 q
  have m4 := mul_le_mul_of_nonneg_right hb.2 q
  rw [e]
  constructor <;> nlinarith

/-- C138 (partial), for the tool's continuous gradient between two temperatures of the safety range: moving and building the tower commute. -/
theorem C138_continuous_partial {env : Env α} {a b minZ : α} {x y : Option α} {text t1 t u1 u : Str} {g : GCode α}
    (hg : GCode.load env (readlines text) = .ok g) (hne : g.lines ≠ []) (h20 : ∀ l ∈ g.lines, ¬ HasCmd l c!"G20")
    (hs : ∀ l ∈ g.lines, IsMove l ∨ HasCmd l c!"G92" → ShortNumbers l)
    (hx : ∃ k : ℤ, x.getD 0 = k / 10 ^ 3) (hy : ∃ k : ℤ, y.getD 0 = k / 10 ^ 3) (ha : 150 ≤ a ∧ a ≤ 250) (hb : 150 ≤ b ∧ b ≤ 250)
    (h1 : towerRun env (continuousTemp a b) minZ text = .ok t1) (h2 : modPipeline env x y false none (readlines t1) = .ok t)
    (k1 : modPipeline env x y false none (readlines text) = .ok u1) (k2 : towerRun env (continuousTemp a b) minZ u1 = .ok u) : u = t :=
  C138_move_partial hg hne h20 hs hx hy (C138_in_range hg (continuous_range ha hb) h1) h1 h2 k1 k2

theorem step_range {a b n : α} (hn : 0 < n) (ha : 150 ≤ a ∧ a ≤ 250) (hb : 150 ≤ b ∧ b ≤ 250) (hbeyond : 150 ≤ b + (b - a) / n) :
    ∀ zm zM c r, zm < zM → zm ≤ c → c ≤ zM → stepTemp a b n zm zM c = .ok (some r) → 150 ≤ r ∧ r ≤ 250 := by
  intro zm zM c r hlt h1 h2 h
  have hd : (0 : α) < zM - zm := by linarith
  have hn' : n + 1 ≠ 0 := by linarith
  unfold stepTemp at h
  rw [if_neg (show ¬ (zM - zm = 0 ∨ n + 1 = 0) by rintro (k | k); exacts [ne_of_gt hd k, hn' k])] at h
  simp only [Except.ok.injEq, Option.some.injEq] at h
  rw [mul_div_assoc, div_self hn', mul_one] at h
  have q : 0 ≤ (c - zm) / (zM - zm) := div_nonneg (by linarith) hd.le
  have q1 : (c - zm) / (zM - zm) ≤ 1 := (div_le_one hd).2 (by linarith)
  generalize (c - zm) / (zM - zm) = v at h q q1
  rw [← h]
  constructor
  · refine le_min (le_trans ha.1 (le_max_right _ _)) ?_
    have m1 := mul_le_mul_of_nonneg_right hbeyond q
    have m2 := mul_le_mul_of_nonneg_right ha.1 (show 0 ≤ 1 - v by linarith)
    nlinarith
  · exact le_trans (min_le_left _ _) (max_le hb.2 ha.2)

/-- C138 (partial), for the tool's stepwise gradient; a falling one goes one step beyond its last temperature, which has to be in the range as well. -/
theorem C138_step_partial {env : Env α} {a b n minZ : α} {x y : Option α} {text t1 t u1 u : Str} {g : GCode α}
    (hg : GCode.load env (readlines text) = .ok g) (hne : g.lines ≠ []) (h20 : ∀ l ∈ g.lines, ¬ HasCmd l c!"G20")
    (hs : ∀ l ∈ g.lines, IsMove l ∨ HasCmd l c!"G92" → ShortNumbers l)
    (hx : ∃ k : ℤ, x.getD 0 = k / 10 ^ 3) (hy : ∃ k : ℤ, y.getD 0 = k / 10 ^ 3) (hn : 0 < n) (ha : 150 ≤ a ∧ a ≤ 250) (hb : 150 ≤ b ∧ b ≤ 250)
    (hbeyond : 150 ≤ b + (b - a) / n)
    (h1 : towerRun env (stepTemp a b n) minZ text = .ok t1) (h2 : modPipeline env x y false none (readlines t1) = .ok t)
    (k1 : modPipeline env x y false none (readlines text) = .ok u1) (k2 : towerRun env (stepTemp a b n) minZ u1 = .ok u) : u = t :=
  C138_move_partial hg hne h20 hs hx hy (C138_in_range hg (step_range hn ha hb hbeyond) h1) h1 h2 k1 k2

/-- Falling from 220 to 200 in ten steps ends at 198. -/
example : (0 : ℚ) < 10 ∧ (150 : ℚ) ≤ 200 + (200 - 220) / 10 ∧ okOr c!"" (towerRun qEnv (stepTemp 220 200 10) 0 optText) =
    c!"G90\nM82\nG92 X0 E0\nM104 S209.0\nG1 Z0.3\nG1 X10 Y10 E1.25 ; draw\nG1 Y20 E2.5\nM104 S198.0\nG1 Z0.6\nG1 X0.125 E4\n" := by decide +kernel

/-- The hypotheses on the program of `C137_one_run_partial` (where its numbers are shown to be short), and what is written. -/
example : optG.lines ≠ [] ∧ [] ∉ (writeTemp qEnv.mode (continuousTemp (220 : ℚ) 200) 0 {} optG).1 ∧ (({} : EModeSt).run optG.lines).isSome = true ∧
    NoReset optG.lines ∧ (∀ l ∈ optG.lines, HasCmd l c!"G92" → l.e = none ∨ l.e = some 0) ∧
    towerRun qEnv (continuousTemp 220 200) 0 optText =
      .ok c!"G90\nM82\nG92 X0 E0\nM104 S210.0\nG1 Z0.3\nG1 X10 Y10 E1.25 ; draw\nG1 Y20 E2.5\nM104 S200.0\nG1 Z0.6\nG1 X0.125 E4\n" ∧
    modPipeline qEnv (some 5) (some (1 / 2)) false none
      (readlines c!"G90\nM82\nG92 X0 E0\nM104 S210.0\nG1 Z0.3\nG1 X10 Y10 E1.25 ; draw\nG1 Y20 E2.5\nM104 S200.0\nG1 Z0.6\nG1 X0.125 E4\n") =
      .ok c!"G90\nM82\nG92 X-5.000 E0.00000\nM104 S210.0\nG1 Z0.3\nG1 X10.000 Y10.500 E1.25000\nG1 Y20.500 E2.50000\nM104 S200.0\nG1 Z0.6\nG1 X0.125 E4\n" ∧
    modPipeline qEnv none none true none
      (readlines c!"G90\nM82\nG92 X0 E0\nM104 S210.0\nG1 Z0.3\nG1 X10 Y10 E1.25 ; draw\nG1 Y20 E2.5\nM104 S200.0\nG1 Z0.6\nG1 X0.125 E4\n") =
      .ok c!"G90\nM83\nG92 X0 E0\nM104 S210.0\nG1 Z0.3\nG1 X10.000 Y10.000 E1.25000\nG1 Y20.000 E1.25000\nM104 S200.0\nG1 Z0.6\nG1 X0.125 E1.50000\n" := by
  refine ⟨by decide +kernel, by decide +kernel, by decide +kernel, ?_, by unfold HasCmd; decide +kernel, by decide +kernel, by decide +kernel, by decide +kernel⟩
  rw [← List.take_append_drop 3 optG.lines]
  exact noReset_of (by decide +kernel) (by unfold RelabelsE HasCmd; decide +kernel)

/-- C138 is false for the conversion of a program that resets the extruder after extruding, as slicers do for each layer: the loader takes
the upper layer for a travel layer, the converted one does not have this problem, and the tower ends at another height. -/
theorem C138_reset_refuted : ∃ text t1 u1 : Str,
    towerRun qEnv (continuousTemp 220 200) 0 text = .ok t1 ∧
    modPipeline qEnv none none true none (readlines t1) = .ok c!"G90\nM83\nM104 S200.0\nG1 Z0.3\nG1 X1.000 E5.00000\nG92 E0\nG1 Z0.6\nG1 X5.000 E4.00000\n" ∧
    modPipeline qEnv none none true none (readlines text) = .ok u1 ∧
    towerRun qEnv (continuousTemp 220 200) 0 u1 =
      .ok c!"G90\nM83\nM104 S210.0\nG1 Z0.3\nG1 X1.000 E5.00000\nG92 E0\nM104 S200.0\nG1 Z0.6\nG1 X5.000 E4.00000\n" :=
  ⟨c!"G90\nM82\nG1 Z0.3\nG1 X1 E5\nG92 E0\nG1 Z0.6\nG1 X5 E4\n", c!"G90\nM82\nM104 S200.0\nG1 Z0.3\nG1 X1 E5\nG92 E0\nG1 Z0.6\nG1 X5 E4\n",
    c!"G90\nM83\nG1 Z0.3\nG1 X1.000 E5.00000\nG92 E0\nG1 Z0.6\nG1 X5.000 E4.00000\n", by decide +kernel⟩

/-- C138 is false for heights with more than three decimals: moving rounds the height, and the temperature is another one. -/
theorem C138_decimals_refuted : ∃ text t1 u1 : Str,
    towerRun qEnv (continuousTemp 250 150) 0 text = .ok t1 ∧
    modPipeline qEnv (some 5) none false none (readlines t1) =
      .ok c!"G90\nM104 S216.7\nG1 Z0.3\nG1 X6.000 E1.00000\nM104 S188.6\nG1 X10.000 Z0.552 E2.00000\nM104 S150.0\nG1 Z0.9\nG1 X14.000 E4.00000\n" ∧
    modPipeline qEnv (some 5) none false none (readlines text) = .ok u1 ∧
    towerRun qEnv (continuousTemp 250 150) 0 u1 =
      .ok c!"G90\nM104 S216.7\nG1 Z0.3\nG1 X6.000 E1.00000\nM104 S188.7\nG1 X10.000 Z0.552 E2.00000\nM104 S150.0\nG1 Z0.9\nG1 X14.000 E4.00000\n" :=
  ⟨c!"G90\nG1 Z0.3\nG1 X1 E1\nG1 X5 Z0.5524 E2\nG1 Z0.9\nG1 X9 E4\n",
    c!"G90\nM104 S216.7\nG1 Z0.3\nG1 X1 E1\nM104 S188.6\nG1 X5 Z0.5524 E2\nM104 S150.0\nG1 Z0.9\nG1 X9 E4\n",
    c!"G90\nG1 Z0.3\nG1 X6.000 E1.00000\nG1 X10.000 Z0.552 E2.00000\nG1 Z0.9\nG1 X14.000 E4.00000\n", by decide +kernel⟩

/-- C138 is false for temperatures outside the safety range: they are written as empty lines, which the second tool drops. -/
theorem C138_range_refuted : ∃ t1 u1 : Str,
    towerRun qEnv (continuousTemp 320 200) 0 optText = .ok t1 ∧
    modPipeline qEnv none none true none (readlines t1) =
      .ok c!"G90\nM83\nG92 X0 E0\nG1 Z0.3\nG1 X10.000 Y10.000 E1.25000\nG1 Y20.000 E1.25000\nM104 S200.0\nG1 Z0.6\nG1 X0.125 E1.50000\n" ∧
    modPipeline qEnv none none true none (readlines optText) = .ok u1 ∧
    towerRun qEnv (continuousTemp 320 200) 0 u1 =
      .ok c!"G90\nM83\nG92 X0 E0\n\nG1 Z0.3\nG1 X10.000 Y10.000 E1.25000\nG1 Y20.000 E1.25000\nM104 S200.0\nG1 Z0.6\nG1 X0.125 E1.50000\n" :=
  ⟨c!"G90\nM82\nG92 X0 E0\n\nG1 Z0.3\nG1 X10 Y10 E1.25 ; draw\nG1 Y20 E2.5\nM104 S200.0\nG1 Z0.6\nG1 X0.125 E4\n",
    c!"G90\nM83\nG92 X0 E0\nG1 Z0.3\nG1 X10.000 Y10.000 E1.25000\nG1 Y20.000 E1.25000\nG1 Z0.6\nG1 X0.125 E1.50000\n", by decide +kernel⟩

/-! ### what layers depend on -/

/-- C138: two programs that agree line by line in commands, Z words and E words (and in X and Y of `G28`, where their presence counts) have
the same layers: the same heights, the same number of lines in each layer, the same top, the same height at each line. -/
theorem C138_layers {env : Env α} {text text' : Str} {g g' : GCode α} (h : GCode.load env (readlines text) = .ok g)
    (h' : GCode.load env (readlines text') = .ok g') (hne : g.lines ≠ [])
    (hl : List.Forall₂ (fun l l' : PyLine α => l'.command = l.command ∧ l'.z = l.z ∧ l'.e = l.e ∧ (HasCmd l c!"G28" → l'.x = l.x ∧ l'.y = l.y)) g.lines g'.lines) :
    g'.allZs = g.allZs ∧ g'.zmax = g.zmax ∧ g'.allLayers.map (·.lines.length) = g.allLayers.map (·.lines.length) ∧
      g'.lines.map (·.currentZ) = g.lines.map (·.currentZ) :=
  load_level h h' hne hl

/-- A drawing and the same heights with other movements, speeds and comments: two heights, layers of 1, 2, 2 and no lines. -/
example : (GCode.load qEnv (readlines c!"G90\nG1 Z0.3\nG1 X1 E1\nG1 Z0.6\nG1 X9 E4\n")).map (fun g => (g.allZs, g.zmax, g.allLayers.map (·.lines.length))) =
      .ok ([some (3 / 10), some (3 / 5)], some (3 / 5), [1, 2, 2, 0]) ∧
    (GCode.load qEnv (readlines c!"G90 ; x\nG1 X7 Z0.3 F99\nG1 X1 Y-5 E1\nG1 Z0.6\nG1 E4\n")).map (fun g => g.lines.map fun l => (l.command, l.z, l.e)) =
      (GCode.load qEnv (readlines c!"G90\nG1 Z0.3\nG1 X1 E1\nG1 Z0.6\nG1 X9 E4\n")).map (fun g => g.lines.map fun l => (l.command, l.z, l.e)) := by
  decide +kernel

end GCodeUtils
