import Verif.Props.OptionTower
import Verif.Spec.SameTower

/-
  C139: what the temperatures of a tower depend on.
-/

set_option linter.unusedSectionVars false

namespace GCodeUtils

open Spec

variable {α : Type} [Field α] [LinearOrder α] [IsStrictOrderedRing α] [FloorRing α]

theorem writeLoop_outcome {mode : RoundMode} {temp : TempFn α} {zm zM : α} (Ls : List (Layer α)) : ∀ {Ls' : List (Layer α)} (last : Option α),
    Ls'.map layerZ = Ls.map layerZ → (writeLoop mode temp zm zM last Ls').2 = (writeLoop mode temp zm zM last Ls).2 := by
  induction Ls with
  | nil =>
    intro Ls' last h
    cases Ls' with
    | nil => rfl
    | cons L Ls' => simp at h
  | cons L Ls ih =>
    intro Ls' last h
    cases Ls' with
    | nil => simp at h
    | cons L' Ls' =>
      simp only [List.map_cons, List.cons.injEq] at h
      simp only [writeLoop, h.1]
      cases layerZ L with
      | none => exact ih last h.2
      | some cz =>
        simp only
        cases tempStep mode temp zm zM last cz with
        | error e => rfl
        | ok p => exact ih p.1 h.2

/-- The inserted texts, for each line of the layers. -/
def perLine : List (Option Str) → List (List Str) → List (Option Str)
  | i :: is, c :: cs => (match c with | [] => [] | _ :: c => i :: c.map fun _ => none) ++ perLine is cs
  | _, _ => []

theorem heated_none (c : List Str) (is : List (Option Str)) (ls : List Str) : heated ((c.map fun _ => none) ++ is) (c ++ ls) = c ++ heated is ls := by
  induction c with
  | nil => rfl
  | cons a c ih => simp only [List.map_cons, List.cons_append, heated, ih, Option.toList, List.nil_append]

/-- Nothing is inserted into empty layers. -/
def Calm : List (Option Str) → List (List Str) → Prop
  | i :: is, c :: cs => (c = [] → i = none) ∧ Calm is cs
  | [], [] => True
  | _, _ => False

theorem heated_perLine (ins : List (Option Str)) : ∀ (cs : List (List Str)), Calm ins cs →
    (List.zipWith (fun i (c : List Str) => i.toList ++ c) ins cs).flatten = heated (perLine ins cs) cs.flatten ∧ (perLine ins cs).length = cs.flatten.length := by
  induction ins with
  | nil =>
    intro cs h
    cases cs with
    | nil => exact ⟨rfl, rfl⟩
    | cons c cs => exact absurd h id
  | cons i ins ih =>
    intro cs h
    cases cs with
    | nil => exact absurd h id
    | cons c cs =>
      obtain ⟨h1, h2⟩ := h
      obtain ⟨e1, e2⟩ := ih cs h2
      cases c with
      | nil =>
        rw [h1 rfl]
        exact ⟨by simpa [perLine] using e1, by simpa [perLine] using e2⟩
      | cons a c =>
        simp only [List.zipWith_cons_cons, List.flatten_cons, perLine, List.cons_append, heated, heated_none, e1]
        refine ⟨by simp, by simp [e2]⟩

theorem calm_of {mode : RoundMode} {temp : TempFn α} {zm zM : α} (Ls : List (Layer α)) : ∀ {last : Option α} {ins : List (Option Str)},
    inserted mode temp zm zM last (Ls.map layerZ) = .ok ins → Calm ins (Ls.map fun L => L.lines.map (·.raw)) := by
  induction Ls with
  | nil =>
    intro last ins h
    cases h
    trivial
  | cons L Ls ih =>
    intro last ins h
    simp only [List.map_cons] at h ⊢
    cases hz : layerZ L with
    | none =>
      rw [hz] at h
      simp only [inserted] at h
      cases hr : inserted mode temp zm zM last (Ls.map layerZ) with
      | error e => rw [hr] at h; cases h
      | ok ins' =>
        rw [hr] at h
        simp only [Except.map, Except.ok.injEq] at h
        rw [← h]
        exact ⟨fun _ => rfl, ih hr⟩
    | some cz =>
      rw [hz] at h
      simp only [inserted] at h
      cases hs : tempStep mode temp zm zM last cz with
      | error e => rw [hs] at h; cases h
      | ok p =>
        obtain ⟨last', i⟩ := p
        rw [hs] at h
        simp only at h
        cases hr : inserted mode temp zm zM last' (Ls.map layerZ) with
        | error e => rw [hr] at h; cases h
        | ok ins' =>
          rw [hr] at h
          simp only [Except.map, Except.ok.injEq] at h
          rw [← h]
          refine ⟨fun k => ?_, ih hr⟩
          have : L.lines = [] := List.map_eq_nil_iff.1 k
          unfold layerZ at hz
          rw [this] at hz
          simp at hz

theorem perLine_congr (ins : List (Option Str)) : ∀ (cs cs' : List (List Str)), cs'.map List.length = cs.map List.length → perLine ins cs' = perLine ins cs := by
  induction ins with
  | nil => intro cs cs' _; cases cs <;> cases cs' <;> rfl
  | cons i ins ih =>
    intro cs cs' h
    cases cs with
    | nil => cases cs' with | nil => rfl | cons c cs' => simp at h
    | cons c cs =>
      cases cs' with
      | nil => simp at h
      | cons c' cs' =>
        simp only [List.map_cons, List.cons.injEq] at h
        simp only [perLine]
        rw [ih cs cs' h.2]
        congr 1
        cases c with
        | nil => rw [List.length_eq_zero_iff.1 h.1]
        | cons a c =>
          cases c' with
          | nil => simp at h
          | cons a' c' =>
            simp only [List.length_cons, Nat.add_right_cancel_iff] at h
            simp [h.1]

theorem perLine_mem {s : Str} (ins : List (Option Str)) : ∀ (cs : List (List Str)), some s ∈ perLine ins cs → some s ∈ ins := by
  induction ins with
  | nil => intro cs hs; cases cs <;> simp [perLine] at hs
  | cons i ins ih =>
    intro cs hs
    cases cs with
    | nil => simp [perLine] at hs
    | cons c cs =>
      simp only [perLine, List.mem_append] at hs
      rcases hs with hs | hs
      · cases c with
        | nil => simp at hs
        | cons a c => simp at hs; simp [hs]
      · exact List.mem_cons_of_mem _ (ih _ hs)

/-- C139: programs that agree line by line in commands, Z words and E words (and X, Y of `G28`) get the same temperature commands in front of the same lines, or
both towers fail in the same way. -/
theorem C139_same_temperatures {env : Env α} {temp : TempFn α} {minZ : α} {text text' : Str} {g g' : GCode α} (h : GCode.load env (readlines text) = .ok g)
    (h' : GCode.load env (readlines text') = .ok g') (hne : g.lines ≠ [])
    (hl : List.Forall₂ (fun l l' : PyLine α => l'.command = l.command ∧ l'.z = l.z ∧ l'.e = l.e ∧ (HasCmd l c!"G28" → l'.x = l.x ∧ l'.y = l.y)) g.lines g'.lines) :
    (∃ e, towerRun env temp minZ text = .error e ∧ towerRun env temp minZ text' = .error e) ∨
      ∃ ins : List (Option Str), ins.length = g.lines.length ∧ (∀ s, some s ∈ ins → ∃ t : α, IsTempLine t s) ∧
        towerRun env temp minZ text = .ok (printed (heated ins (g.lines.map (·.raw)))) ∧
        towerRun env temp minZ text' = .ok (printed (heated ins (g'.lines.map (·.raw)))) := by
  obtain ⟨_, e2, e3, e4⟩ := load_level h h' hne hl
  have f : g.allLayers.flatMap (·.lines) = g.lines := by rw [← program_def]; exact (load_indexed h).flat.symm
  have f' : g'.allLayers.flatMap (·.lines) = g'.lines := by rw [← program_def]; exact (load_indexed h').flat.symm
  have ez : g'.allLayers.map (fun L => L.lines.map (·.currentZ)) = g.allLayers.map (fun L => L.lines.map (·.currentZ)) := by
    refine same_chunks _ ?_ ?_
    · simpa [Function.comp_def] using e3
    · rw [← f, ← f'] at e4
      simpa [List.flatMap, List.map_flatten, Function.comp_def] using e4
  have el : g'.allLayers.map layerZ = g.allLayers.map layerZ := by
    have k : ∀ L : Layer α, layerZ L = (L.lines.map (·.currentZ)).head? := by intro L; unfold layerZ; cases L.lines <;> rfl
    have := congrArg (List.map List.head?) ez
    rw [List.map_map, List.map_map] at this
    rw [show (layerZ : Layer α → _) = List.head? ∘ fun L : Layer α => L.lines.map (·.currentZ) from funext k]
    exact this
  have ep := parseHeights_congr (minZ := minZ) (zM := g.zmax) el
  cases ht : towerRun env temp minZ text with
  | error e =>
    refine .inl ⟨e, rfl, ?_⟩
    unfold towerRun at ht ⊢
    rw [h] at ht
    rw [h']
    simp only [bind, Except.bind] at ht ⊢
    unfold writeTemp at ht ⊢
    rw [e2, ep]
    cases hp : parseHeights minZ g.zmax (({} : TempSt α).zmin) g.allLayers with
    | error e' =>
      rw [hp] at ht
      exact ht
    | ok p =>
      obtain ⟨zm, zM⟩ := p
      rw [hp] at ht
      simp only at ht ⊢
      rw [writeLoop_outcome _ _ el]
      cases hw : (writeLoop env.mode temp zm zM none g.allLayers).2 with
      | error e' => rw [hw] at ht; simpa [Except.map] using ht
      | ok l => rw [hw] at ht; simp [Except.map] at ht
  | ok t =>
    obtain ⟨g0, zm, zM, ins, a1, a2, a3, _, a4, a5, a6⟩ := towerRun_steps ht
    rw [h] at a1
    obtain rfl := Except.ok.inj a1
    have c1 := heated_perLine _ _ (calm_of _ a3)
    have c2 := heated_perLine _ _ (calm_of g'.allLayers (by rw [el]; exact a3))
    have tf : ∀ Ls : List (Layer α), tower ins Ls = (List.zipWith (fun i (c : List Str) => i.toList ++ c) ins (Ls.map fun L => L.lines.map (·.raw))).flatten := by
      intro Ls
      unfold tower
      rw [List.zipWith_map_right]
    have r1 : (g.allLayers.map fun L => L.lines.map (·.raw)).flatten = g.lines.map (·.raw) := by
      rw [← f, List.map_flatMap, List.flatMap]
    have r2 : (g'.allLayers.map fun L => L.lines.map (·.raw)).flatten = g'.lines.map (·.raw) := by
      rw [← f', List.map_flatMap, List.flatMap]
    rw [← tf, r1] at c1
    rw [← tf, r2] at c2
    have pc := perLine_congr ins (g.allLayers.map fun L => L.lines.map (·.raw)) (g'.allLayers.map fun L => L.lines.map (·.raw)) (by simpa [Function.comp_def] using e3)
    refine .inr ⟨perLine ins (g.allLayers.map fun L => L.lines.map (·.raw)), by rw [c1.2, List.length_map], ?_, by rw [a4, c1.1], ?_⟩
    · intro s hs
      exact a6 s (perLine_mem _ _ hs)
    · rw [← pc, ← c2.1]
      unfold towerRun
      rw [h']
      simp only [bind, Except.bind]
      unfold writeTemp
      rw [e2, ep, a2]
      simp only
      have hw : (writeLoop env.mode temp zm zM none g.allLayers).2 = (writeLoop env.mode temp zm zM none g'.allLayers).2 := (writeLoop_outcome _ _ el).symm
      cases hr : (writeLoop env.mode temp zm zM none g'.allLayers).2 with
      | error e =>
        rw [hr] at hw
        unfold towerRun at ht
        rw [h] at ht
        simp only [bind, Except.bind] at ht
        unfold writeTemp at ht
        rw [a2] at ht
        simp only at ht
        rw [hw] at ht
        simp [Except.map] at ht
      | ok l =>
        obtain ⟨ins', i1, i2, _, _⟩ := writeLoop_inserted g'.allLayers (last := none) (l := l) (out := (writeLoop env.mode temp zm zM none g'.allLayers).1) (Prod.ext rfl hr)
        rw [el, a3] at i1
        obtain rfl := Except.ok.inj i1
        simp only [Except.map, Except.ok.injEq]
        rw [i2]

/-- The two programs of the example for `C138_layers`: the lines agree in commands, Z and E words; both are heated in front of the second and the fourth line. -/
example : towerRun qEnv (continuousTemp 220 200) 0 c!"G90\nG1 Z0.3\nG1 X1 E1\nG1 Z0.6\nG1 X9 E4\n" =
      .ok (printed (heated [none, some c!"M104 S210.0", none, some c!"M104 S200.0", none] [c!"G90", c!"G1 Z0.3", c!"G1 X1 E1", c!"G1 Z0.6", c!"G1 X9 E4"])) ∧
    towerRun qEnv (continuousTemp 220 200) 0 c!"G90 ; x\nG1 X7 Z0.3 F99\nG1 X1 Y-5 E1\nG1 Z0.6\nG1 E4\n" =
      .ok c!"G90 ; x\nM104 S210.0\nG1 X7 Z0.3 F99\nG1 X1 Y-5 E1\nM104 S200.0\nG1 Z0.6\nG1 E4\n" ∧
    towerRun qEnv (continuousTemp 220 200) 9 c!"G90\nG1 X1 E1\n" = .error .runtimeError := by
  decide +kernel

end GCodeUtils
