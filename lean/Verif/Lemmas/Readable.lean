import Verif.Lemmas.MovedTime

/-
  A written program whose feed rates are not negative can be read.
-/

set_option linter.unusedSectionVars false

namespace GCodeUtils

open Spec

variable {α : Type} [Field α] [LinearOrder α] [IsStrictOrderedRing α] [FloorRing α]

/-- No linear move of the line has a negative feed rate. -/
def FeedOk (l : PyLine α) : Prop := Linear l → ∀ f, l.f = some f → 0 ≤ f

theorem moveDuration_feed {a b t : α} (ha : 0 ≤ a) (hb : 0 ≤ b) (e : Err) : moveDuration a b t ≠ .error e := by
  unfold moveDuration
  simp only
  by_cases h1 : b = a
  · rw [if_pos h1]; simp
  rw [if_neg h1]
  have h2 : a + b ≠ 0 := fun k => h1 (by linarith)
  rw [if_neg h2]
  split_ifs <;> simp

theorem stepDur_feed {env : Env α} {d : DurSt α} {l : PyLine α} (hd : 0 ≤ d.lastf) (hl : FeedOk l) :
    stepDur env d l ≠ .error .zeroDivision ∧ ∀ d', stepDur env d l = .ok d' → 0 ≤ d'.lastf := by
  by_cases hL : Linear l
  · have hc : (l.isCmd c!"G0" || l.isCmd c!"G1") = true := by
      rw [Bool.or_eq_true, isCmd_iff, isCmd_iff]
      exact hL
    have hf : 0 ≤ (match l.f with | some f => f / 60 | none => d.lastf) := by
      cases e : l.f with
      | none => exact hd
      | some f =>
        have := hl hL f e
        show 0 ≤ f / 60
        positivity
    unfold stepDur
    rw [if_pos hc]
    simp only
    generalize hm : moveDuration (α := α) _ _ _ = r
    cases r with
    | error e =>
      refine absurd hm (moveDuration_feed ?_ hf e)
      split_ifs
      · exact le_rfl
      · exact hd
    | ok t =>
      refine ⟨by simp, fun d' k => ?_⟩
      simp only [Except.ok.injEq] at k
      rw [← k]
      exact hf
  · refine ⟨fun k => ?_, fun d' k => ?_⟩
    · rcases stepDur_error k with ⟨_, h⟩ | ⟨h, _⟩
      · exact hL h
      · cases h
    · have hc : ¬ (l.isCmd c!"G0" || l.isCmd c!"G1") = true := by
        rw [Bool.or_eq_true, isCmd_iff, isCmd_iff]
        exact hL
      unfold stepDur at k
      rw [if_neg hc] at k
      split_ifs at k
      · split at k
        · cases k
        · obtain rfl := Except.ok.inj k; exact hd
        · obtain rfl := Except.ok.inj k
          split_ifs <;> exact hd
      · obtain rfl := Except.ok.inj k; exact hd

theorem fold_readable {env : Env α} {home : Home α} (ls : List (PyLine α)) (hs : ∀ l ∈ ls, Saves l ∧ ReadsSame l ∧ FeedOk l) :
    ∀ {s : BuildSt α}, s.m.imperial = false → 0 ≤ s.ds.lastf → (bare (ls.map (·.raw))).foldlM (buildStep env false home) s ≠ .error .zeroDivision := by
  induction ls with
  | nil => intro s _ _ h; cases h
  | cons l ls ih =>
    intro s him hd h
    obtain ⟨h1, h2, h3⟩ := hs l (by simp)
    obtain ⟨m', l', hp, he⟩ := h1.reads home s.m him
    obtain ⟨c1, _, _, _, _, c6, _⟩ := h2 home s.m m' l' him hp
    have hF : FeedOk l' := by
      intro k f hf
      exact h3 ((linear_congr c1.symm).1 k) f (c6.trans hf)
    have hstep := stepDur_feed (env := env) hd hF
    simp only [bare, List.map_cons, List.foldlM_cons] at h
    cases hb : buildStep env false home s ({ raw := l.raw } : PyLine α) with
    | error e =>
      rw [hb] at h
      obtain rfl : e = .zeroDivision := by simpa [bind, Except.bind] using h
      rcases buildStep_error hb with k | ⟨m, q, k1, k2⟩
      · rw [hp] at k; cases k
      · rw [hp] at k1
        obtain ⟨rfl, rfl⟩ := Prod.mk.inj (Except.ok.inj k1)
        exact hstep.1 k2
    | ok s' =>
      rw [hb] at h
      refine ih (fun q hq => hs q (by simp [hq])) (s := s') ?_ ?_ h
      · obtain ⟨m, q, k1, k2⟩ := buildStep_ok hb
        rw [hp] at k1
        obtain ⟨rfl, rfl⟩ := Prod.mk.inj (Except.ok.inj k1)
        have := saves_imperial h1 hp he him
        rcases k2 with ⟨_, rfl⟩ | ⟨_, _, _, _, _, rfl⟩ <;> exact this
      · obtain ⟨m, q, k1, k2⟩ := buildStep_ok hb
        rw [hp] at k1
        obtain ⟨rfl, rfl⟩ := Prod.mk.inj (Except.ok.inj k1)
        rcases k2 with ⟨_, rfl⟩ | ⟨_, ds, _, _, k3, rfl⟩
        · exact hd
        · have := hstep.2 ds k3
          simp only
          split_ifs <;> exact this

theorem load_readable (env : Env α) (home : Home α) (ls : List (PyLine α)) (hs : ∀ l ∈ ls, Saves l ∧ ReadsSame l ∧ FeedOk l) :
    ∃ g, GCode.load env (readlines (ls.flatMap (fun l => l.raw ++ ['\n']))) false home = .ok g := by
  rcases load_saves env home ls (fun l hl => (hs l hl).1) with h | ⟨g, h, _⟩
  · obtain ⟨_, hf⟩ := load_error h
    have hw : ls.flatMap (fun l => l.raw ++ ['\n']) = (ls.map (·.raw)).flatMap (fun t => t ++ ['\n']) := by rw [List.flatMap_map]
    have hread : (readLines (readlines (ls.flatMap (fun l => l.raw ++ ['\n']))) : List (PyLine α)) = bare (ls.map (·.raw)) := by
      rw [hw, readLines_readlines]
      · rfl
      · intro t ht
        obtain ⟨l, hl, rfl⟩ := List.mem_map.1 ht
        exact (hs l hl).1.text
    rw [hread] at hf
    exact absurd hf (fold_readable ls hs rfl le_rfl)
  · exact ⟨g, h⟩

end GCodeUtils
