import Verif.Lemmas.PlacedTime
import Verif.Lemmas.Measured
import Verif.Lemmas.KeptLayers
import Verif.Props.OptionTower

/-
  The lines of a file written by `gcode_mod -x -y`, read again, beside the lines of the file it was made of.
-/

set_option linter.unusedSectionVars false

namespace GCodeUtils

open Spec

variable {α : Type} [Field α] [LinearOrder α] [IsStrictOrderedRing α] [FloorRing α] {dx dy : α}

/-- A line and the line the translation makes of it, where the mode is known to be absolute at X/Y moves. -/
structure Carried (dx dy : α) (l l' : PyLine α) : Prop where
  command : l'.command = l.command
  z : l'.z = l.z
  e : l'.e = l.e
  f : l'.f = l.f
  xy : Linear l → l'.x = l.x.map (· + dx) ∧ l'.y = l.y.map (· + dy)
  raw : ¬ IsMove l → l'.raw = l.raw

theorem linear_move {l : PyLine α} (h : Linear l) : IsMove l := by
  rcases h with h | h
  · exact ⟨_, by simp, h⟩
  · exact ⟨_, by simp, h⟩

theorem Carried.copy (a b c : PyLine α) (h : Carried dx dy a b) (k : Copy b c) : Carried dx dy a c := by
  obtain ⟨k0, k1, k2, k3, k4, k5, k6, _⟩ := k
  exact ⟨k1.symm.trans h.command, k4.symm.trans h.z, k5.symm.trans h.e, k6.symm.trans h.f,
    fun q => ⟨k2.symm.trans (h.xy q).1, k3.symm.trans (h.xy q).2⟩, fun q => k0.trans (h.raw q)⟩

theorem transLine_carried {s : TransSt α} {l : PyLine α} (h92 : ¬ HasCmd l c!"G92") (h : XYMove l → s.absMode = some true) :
    Carried s.tx s.ty l (transLine s l).2 := by
  have same : (Linear l → l.x = l.x.map (· + s.tx) ∧ l.y = l.y.map (· + s.ty)) → Carried s.tx s.ty l l :=
    fun k => ⟨rfl, rfl, rfl, rfl, k, fun _ => rfl⟩
  by_cases hm : IsMove l
  · rw [transLine_move hm]
    have hnone : ¬ XYMove l → Linear l → l.x = none ∧ l.y = none := by
      intro hn hL
      constructor
      · by_contra k; exact hn ⟨hL, .inl k⟩
      · by_contra k; exact hn ⟨hL, .inr k⟩
    by_cases hx : XYMove l
    · rw [if_pos (h hx)]
      by_cases ht : Touched s l
      · rw [(translateMove_touched s l).1 ht]
        exact ⟨rfl, rfl, rfl, rfl, fun _ => ⟨rfl, rfl⟩, fun k => absurd hm k⟩
      · rw [(translateMove_touched s l).2 ht]
        refine same fun _ => ?_
        unfold Touched at ht
        push Not at ht
        constructor
        · cases e : l.x with
          | none => rfl
          | some a =>
            have := ht.1 (by rw [e]; simp)
            simp [this]
        · cases e : l.y with
          | none => rfl
          | some a =>
            have := ht.2 (by rw [e]; simp)
            simp [this]
    · split_ifs
      · by_cases ht : Touched s l
        · rw [(translateMove_touched s l).1 ht]
          exact ⟨rfl, rfl, rfl, rfl, fun _ => ⟨rfl, rfl⟩, fun k => absurd hm k⟩
        · rw [(translateMove_touched s l).2 ht]
          refine same fun hL => ?_
          rw [(hnone hx hL).1, (hnone hx hL).2]
          exact ⟨rfl, rfl⟩
      · refine same fun hL => ?_
        rw [(hnone hx hL).1, (hnone hx hL).2]
        exact ⟨rfl, rfl⟩
  · rw [transLine_stay hm h92]
    exact same fun hL => absurd (linear_move hL) hm

theorem scan_carried (ls : List (PyLine α)) : ∀ {s : TransSt α}, (∀ l ∈ ls, ¬ HasCmd l c!"G91") → (∀ l ∈ ls, ¬ HasCmd l c!"G92") →
    (s.absMode = some true ∨ ModeStated ls) → List.Forall₂ (Carried s.tx s.ty) ls (scan transLine s ls).2 := by
  induction ls with
  | nil => intro s _ _ _; exact .nil
  | cons l ls ih =>
    intro s h91 h92 hm
    have n91 := h91 l (by simp)
    have n92 := h92 l (by simp)
    have hx : XYMove l → s.absMode = some true := by
      intro k
      rcases hm with hm | hm
      · exact hm
      · obtain ⟨q, hq, _⟩ := hm [] l ls rfl (linear_move k.1) k.2
        simp at hq
    obtain ⟨t1, t2, _⟩ := transLine_g92free s l n92
    have hn : (transLine s l).1.absMode = some true ∨ ModeStated ls := by
      by_cases m : IsMove l
      · rw [transLine_move m]
        rcases hm with hm | hm
        · exact .inl hm
        · refine .inr fun pre k post e1 e2 e3 => ?_
          obtain ⟨q, hq, hc⟩ := hm (l :: pre) k post (by rw [e1]; rfl) e2 e3
          rcases List.mem_cons.1 hq with rfl | hq
          · exact absurd m (by rcases hc with hc | hc <;> exact not_move_cmd (by decide) hc)
          · exact ⟨q, hq, hc⟩
      · rw [transLine_stay m n92]
        by_cases h90 : HasCmd l c!"G90"
        · left; simp only [if_pos h90]
        · simp only [if_neg h90, if_neg n91]
          rcases hm with hm | hm
          · exact .inl hm
          · refine .inr fun pre k post e1 e2 e3 => ?_
            obtain ⟨q, hq, hc⟩ := hm (l :: pre) k post (by rw [e1]; rfl) e2 e3
            rcases List.mem_cons.1 hq with rfl | hq
            · rcases hc with hc | hc
              · exact absurd hc h90
              · exact absurd hc n91
            · exact ⟨q, hq, hc⟩
    have := ih (s := (transLine s l).1) (fun k hk => h91 k (by simp [hk])) (fun k hk => h92 k (by simp [hk])) hn
    rw [t1, t2] at this
    exact .cons (transLine_carried n92 hx) this

theorem step_modes {home : Home α} {m m' n n' : Machine α} {r r' : Str} {l l' : PyLine α} (hp : processLine home m { raw := r } = .ok (n, l))
    (hp' : processLine home m' { raw := r' } = .ok (n', l')) (hm : m'.relative = m.relative) (he : m'.relativeE = m.relativeE)
    (a : l'.command = l.command) :
    (IsMove l → l'.relative = l.relative ∧ l'.relativeE = l.relativeE) ∧ n'.relative = n.relative ∧ n'.relativeE = n.relativeE := by
  obtain ⟨p1, p2⟩ := process_relative hp
  obtain ⟨q1, q2⟩ := process_relative hp'
  obtain ⟨p3, p4, _⟩ := processLine_E hp
  obtain ⟨q3, q4, _⟩ := processLine_E hp'
  have hc : ∀ c, HasCmd l' c ↔ HasCmd l c := fun c => by unfold HasCmd; rw [a]
  refine ⟨fun k => ?_, ?_, ?_⟩
  · have k' : IsMove l' := (isMove_congr a).2 k
    have i : l.isMove = true := (isMove_iff hp).2 k
    have i' : l'.isMove = true := (isMove_iff hp').2 k'
    rw [p2 k, q2 k', (p4 i).1, (q4 i').1, hm, he]
    exact ⟨rfl, rfl⟩
  · rw [p1, q1, hm]
    simp only [hc]
  · rw [p3, q3, a, he]

/-- Two runs over lines with the same commands read their moves in the same modes. -/
theorem run_modes {home : Home α} (rs : List Str) : ∀ {rs' : List Str} {m m' n n' : Machine α} {ls ls' : List (PyLine α)},
    Run home m (bare rs) n ls → Run home m' (bare rs') n' ls' → m'.relative = m.relative → m'.relativeE = m.relativeE →
    List.Forall₂ (fun l l' : PyLine α => l'.command = l.command) ls ls' →
    List.Forall₂ (fun l l' : PyLine α => IsMove l → l'.relative = l.relative ∧ l'.relativeE = l.relativeE) ls ls' := by
  induction rs with
  | nil =>
    intro rs' m m' n n' ls ls' h h' _ _ hl
    cases h
    cases hl
    exact .nil
  | cons r rs ih =>
    intro rs' m m' n n' ls ls' h h' hm he hl
    cases h with
    | cons hp hr =>
      cases hl with
      | cons a b =>
        cases rs' with
        | nil => cases h'
        | cons r' rs' =>
          cases h' with
          | cons hp' hr' =>
            obtain ⟨k1, k2, k3⟩ := step_modes hp hp' hm he a
            exact .cons k1 (ih hr hr' k2 k3 b)

theorem carried_displaced {l l' : PyLine α} (h : Carried dx dy l l') (hm : IsMove l → l'.relative = l.relative ∧ l'.relativeE = l.relativeE) :
    Displaced dx dy l l' := by
  by_cases hL : Linear l
  · obtain ⟨m1, m2⟩ := hm (linear_move hL)
    exact .linear hL ((linear_congr h.command).2 hL) h.z h.e h.f m1 m2 (h.xy hL).1 (h.xy hL).2
  · refine .other hL (fun k => hL ((linear_congr h.command).1 k)) (dwell_congr h.command fun h4 => h.raw ?_)
    exact not_move_cmd (by decide) h4

theorem forall2_and {β γ : Type} {R S T : β → γ → Prop} (hT : ∀ a b, R a b → S a b → T a b) {as : List β} {bs : List γ} (h : List.Forall₂ R as bs) :
    List.Forall₂ S as bs → List.Forall₂ T as bs := by
  induction h with
  | nil => intro _; exact .nil
  | cons h1 _ ih => intro k; cases k with | cons k1 k2 => exact .cons (hT _ _ h1 k1) (ih k2)

end GCodeUtils
