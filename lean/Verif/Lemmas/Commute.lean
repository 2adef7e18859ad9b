import Verif.Props.Filter
import Verif.Props.RelExt

/-
  The two line filters do not look at what the other one changes.
-/

set_option linter.unusedSectionVars false

namespace GCodeUtils

open Spec

variable {α : Type} [Field α] [LinearOrder α] [IsStrictOrderedRing α] [FloorRing α]

theorem not_two_cmds {l : PyLine α} {a b : Str} (h : a ≠ b) (ha : HasCmd l a) : ¬ HasCmd l b := by
  intro hb
  rw [HasCmd] at ha hb
  rw [ha] at hb
  exact h (Option.some.inj hb)

theorem not_move_cmd {l : PyLine α} {a : Str} (h : a ∉ [c!"G0", c!"G1", c!"G2", c!"G3"]) (ha : HasCmd l a) : ¬ IsMove l := by
  rintro ⟨c, hc, hl⟩
  rw [HasCmd, hl] at ha
  rw [Option.some.inj ha] at hc
  exact h hc

/-- The conversion on a move. -/
theorem relLine_move {s : RelSt α} {l : PyLine α} (m : IsMove l) : relLine s l =
    if s.relative = false then
      (match l.e with
      | some e => ({ s with current := e }, unsplit { l with e := some (e - s.current), relativeE := some true })
      | none => (s, l))
    else (s, l) := by
  unfold relLine
  rw [if_neg (fun h => not_move_cmd (by decide) h m), if_neg (fun h => not_move_cmd (by decide) h m),
    if_neg (fun h => not_move_cmd (by decide) h m)]
  by_cases h : s.relative = false
  · rw [if_pos ⟨m, h⟩, if_pos h]; rfl
  · rw [if_neg (fun k => h k.2), if_neg h]

/-- Changing E and changing X and Y of a move commute. -/
theorem translateMove_setE (s : TransSt α) (l : PyLine α) (e : α) :
    translateMove s (unsplit { l with e := some e, relativeE := some true }) =
      unsplit { translateMove s l with e := some e, relativeE := some true } := by
  rcases l with ⟨raw, command, x, y, z, e, f, i, j, im, rel, relE, cx, cy, cz, ce, cf, ct, ex⟩
  unfold translateMove
  by_cases hx : s.tx = 0 <;> by_cases hy : s.ty = 0 <;> cases x <;> cases y <;> simp [hx, hy, unsplit]

/-- One line that is not a `G92` without words: either order of the filters gives the same line, and neither filter
notices that the other one has been there. -/
theorem filters_commute_line (s : TransSt α) (r : RelSt α) (l : PyLine α)
    (h : HasCmd l c!"G92" → ¬ (l.x = none ∧ l.y = none ∧ l.z = none ∧ l.e = none)) :
    (relLine r (transLine s l).2).1 = (relLine r l).1 ∧ (transLine s (relLine r l).2).1 = (transLine s l).1 ∧
    (relLine r (transLine s l).2).2 = (transLine s (relLine r l).2).2 := by
  by_cases m : IsMove l
  · have mt : IsMove (transLine s l).2 := (isMove_congr (transLine_command s l)).2 m
    rw [transLine_move m] at mt ⊢
    rw [relLine_move mt, relLine_move m]
    simp only
    by_cases hr : r.relative = false
    · rw [if_pos hr, if_pos hr]
      have mu : ∀ e : α, IsMove (unsplit { l with e := some e, relativeE := some true }) := fun e => m
      by_cases ha : s.absMode = some true
      · rw [if_pos ha, (translateMove_args s l).2.2.2.1]
        cases he : l.e with
        | none => dsimp only; rw [transLine_move m, if_pos ha]; exact ⟨rfl, rfl, rfl⟩
        | some e =>
          dsimp only
          rw [transLine_move (mu _), if_pos ha, translateMove_setE]
          exact ⟨rfl, rfl, rfl⟩
      · rw [if_neg ha]
        cases he : l.e with
        | none => dsimp only; rw [transLine_move m, if_neg ha]; exact ⟨rfl, rfl, rfl⟩
        | some e => dsimp only; rw [transLine_move (mu _), if_neg ha]; exact ⟨rfl, rfl, rfl⟩
    · rw [if_neg hr, if_neg hr, transLine_move m]; exact ⟨rfl, rfl, rfl⟩
  · by_cases h92 : HasCmd l c!"G92"
    · have hl : ¬ HasCmd l c!"M83" := not_two_cmds (by decide) h92
      have hl2 : ¬ HasCmd l c!"M82" := not_two_cmds (by decide) h92
      have key : ∀ k : PyLine α, HasCmd k c!"G92" → (relLine r k).2 = k := by
        intro k hk
        unfold relLine
        rw [if_neg (not_two_cmds (by decide) hk), if_neg (not_two_cmds (by decide) hk), if_pos hk]
        cases k.e with
        | some e => rfl
        | none => simp only; split <;> rfl
      have ht : HasCmd (transLine s l).2 c!"G92" := (hasCmd_congr (transLine_command s l) _).2 h92
      rw [key l h92, key _ ht]
      refine ⟨?_, rfl, rfl⟩
      have hval : (transLine s l).2 = (translateG92 s l).2 := by
        unfold transLine
        rw [if_neg m, if_neg (not_two_cmds (by decide) h92), if_neg (not_two_cmds (by decide) h92), if_pos h92]
      rw [hval] at ht ⊢
      unfold relLine
      rw [if_neg hl, if_neg hl2, if_pos h92, if_neg (not_two_cmds (by decide) ht), if_neg (not_two_cmds (by decide) ht), if_pos ht]
      by_cases hn : l.x = none ∧ l.y = none ∧ l.z = none
      · have he : (translateG92 s l).2.e = l.e := by unfold translateG92; rw [if_pos hn]; rfl
        rw [he]
        cases hle : l.e with
        | some e => rfl
        | none => exact absurd ⟨hn.1, hn.2.1, hn.2.2, hle⟩ (h h92)
      · obtain ⟨a1, a2, a3, a4, _⟩ := translateG92_args s l hn
        rw [a4]
        cases l.e with
        | some e => rfl
        | none =>
          simp only
          rw [if_neg hn, if_neg]
          rw [a1, a2, a3]
          simpa using hn
    · have stay : transLine s l = ({ s with absMode := if HasCmd l c!"G90" then some true else if HasCmd l c!"G91" then some false else s.absMode }, l) :=
        transLine_stay m h92
      rw [stay]
      refine ⟨rfl, ?_⟩
      simp only
      unfold relLine
      by_cases h83 : HasCmd l c!"M83"
      · rw [if_pos h83]; simp only; rw [stay]; exact ⟨rfl, rfl⟩
      · rw [if_neg h83]
        by_cases h82 : HasCmd l c!"M82"
        · rw [if_pos h82]
          simp only
          have hc : HasCmd (rawToLine c!"M83" : PyLine α) c!"M83" := m83_line
          rw [transLine_stay (not_move_cmd (by decide) hc) (not_two_cmds (by decide) hc),
            if_neg (not_two_cmds (by decide) hc), if_neg (not_two_cmds (by decide) hc),
            if_neg (not_two_cmds (by decide) h82), if_neg (not_two_cmds (by decide) h82)]
          exact ⟨rfl, rfl⟩
        · rw [if_neg h82, if_neg h92, if_neg (fun k => m k.1)]
          simp only; rw [stay]; exact ⟨rfl, rfl⟩

/-- Lists of lines. -/
theorem filters_commute_scan (ls : List (PyLine α)) : ∀ (s : TransSt α) (r : RelSt α),
    (∀ l ∈ ls, HasCmd l c!"G92" → ¬ (l.x = none ∧ l.y = none ∧ l.z = none ∧ l.e = none)) →
    (scan relLine r (scan transLine s ls).2).1 = (scan relLine r ls).1 ∧
    (scan transLine s (scan relLine r ls).2).1 = (scan transLine s ls).1 ∧
    (scan relLine r (scan transLine s ls).2).2 = (scan transLine s (scan relLine r ls).2).2 := by
  induction ls with
  | nil => intro s r _; exact ⟨rfl, rfl, rfl⟩
  | cons l ls ih =>
    intro s r h
    obtain ⟨a1, a2, a3⟩ := filters_commute_line s r l (h l (by simp))
    obtain ⟨i1, i2, i3⟩ := ih (transLine s l).1 (relLine r l).1 (fun k hk => h k (by simp [hk]))
    simp only [scan]
    rw [a1, a2, a3, i1, i2, i3]
    exact ⟨rfl, rfl, rfl⟩

/-- Layers. -/
theorem filters_commute_layers (Ls : List (Layer α)) : ∀ (s : TransSt α) (r : RelSt α),
    (∀ l ∈ Ls.flatMap (·.lines), HasCmd l c!"G92" → ¬ (l.x = none ∧ l.y = none ∧ l.z = none ∧ l.e = none)) →
    (scanLayers relLine r (scanLayers transLine s Ls).2).2 = (scanLayers transLine s (scanLayers relLine r Ls).2).2 := by
  induction Ls with
  | nil => intro s r _; rfl
  | cons L Ls ih =>
    intro s r h
    have hf : ∀ l ∈ L.lines, HasCmd l c!"G92" → ¬ (l.x = none ∧ l.y = none ∧ l.z = none ∧ l.e = none) :=
      fun l hl => h l (by simp only [List.flatMap_cons, List.mem_append]; exact .inl hl)
    obtain ⟨a1, a2, a3⟩ := filters_commute_scan L.lines s r hf
    have i := ih (scan transLine s L.lines).1 (scan relLine r L.lines).1
      (fun l hl => h l (by simp only [List.flatMap_cons, List.mem_append]; exact .inr hl))
    simp only [scanLayers]
    rw [a1, a2, a3, i]

/-! ### what the printer sees of a program that went through both -/

/-- The translation keeps what the conversion depends on. -/
theorem emode_step_trans (t : EModeSt) (s : TransSt α) (l : PyLine α)
    (h : HasCmd l c!"G92" → ¬ (l.x = none ∧ l.y = none ∧ l.z = none ∧ l.e = none)) :
    t.step (transLine s l).2 = t.step l := by
  have hc := transLine_command s l
  by_cases m : IsMove l
  · have mt : IsMove (transLine s l).2 := (isMove_congr hc).2 m
    unfold EModeSt.step
    rw [if_pos mt, if_pos m]
    have he : (transLine s l).2.e = l.e := by
      rw [transLine_move m]
      simp only
      split
      · exact (translateMove_args s l).2.2.2.1
      · rfl
    rw [he]
  · have mt : ¬ IsMove (transLine s l).2 := fun k => m ((isMove_congr hc).1 k)
    by_cases h92 : HasCmd l c!"G92"
    · have ht : HasCmd (transLine s l).2 c!"G92" := (hasCmd_congr hc _).2 h92
      have hval : (transLine s l).2 = (translateG92 s l).2 := by
        unfold transLine
        rw [if_neg m, if_neg (not_two_cmds (by decide) h92), if_neg (not_two_cmds (by decide) h92), if_pos h92]
      have he : (transLine s l).2.e = l.e ∧
          (l.e = none → ((transLine s l).2.x = none ∧ (transLine s l).2.y = none ∧ (transLine s l).2.z = none ↔
            l.x = none ∧ l.y = none ∧ l.z = none)) := by
        rw [hval]
        by_cases hn : l.x = none ∧ l.y = none ∧ l.z = none
        · refine ⟨by unfold translateG92; rw [if_pos hn]; rfl, fun hle => ?_⟩
          exact absurd ⟨hn.1, hn.2.1, hn.2.2, hle⟩ (h h92)
        · obtain ⟨a1, a2, a3, a4, _⟩ := translateG92_args s l hn
          refine ⟨a4, fun _ => ?_⟩
          rw [a1, a2, a3]; simp
      unfold EModeSt.step
      rw [if_neg m, if_neg mt]
      simp only [hasCmd_congr hc]
      rw [he.1]
      by_cases hle : l.e = none
      · simp only [if_pos hle, he.2 hle]
      · simp only [if_neg hle]
    · rw [transLine_stay m h92]

theorem emode_run_trans (ls : List (PyLine α)) : ∀ (t : EModeSt) (s : TransSt α),
    (∀ l ∈ ls, HasCmd l c!"G92" → ¬ (l.x = none ∧ l.y = none ∧ l.z = none ∧ l.e = none)) →
    t.run (scan transLine s ls).2 = t.run ls := by
  induction ls with
  | nil => intro t s _; rfl
  | cons l ls ih =>
    intro t s h
    simp only [scan, EModeSt.run]
    rw [emode_step_trans t s l (h l (by simp))]
    cases t.step l with
    | none => rfl
    | some t' => exact ih t' _ (fun k hk => h k (by simp [hk]))

/-- Programs of the translation's class have no `G92` without words. -/
theorem track_no_bare (ls : List (PyLine α)) : ∀ (t t' : TrackSt), t.run ls = some t' →
    ∀ l ∈ ls, HasCmd l c!"G92" → ¬ (l.x = none ∧ l.y = none ∧ l.z = none ∧ l.e = none) := by
  induction ls with
  | nil => intro t t' _ l hl; simp at hl
  | cons k ls ih =>
    intro t t' h l hl
    rw [TrackSt.run] at h
    cases hs : t.step k with
    | none => rw [hs] at h; simp at h
    | some u =>
      rw [hs] at h
      rcases List.mem_cons.1 hl with rfl | hl
      · intro h92 hn
        unfold TrackSt.step at hs
        rw [if_neg (not_move_cmd (by decide) h92), if_neg (not_two_cmds (by decide) h92), if_neg (not_two_cmds (by decide) h92),
          if_neg (not_two_cmds (by decide) h92), if_pos h92, if_pos ⟨hn.1, hn.2.1, hn.2.2.1⟩] at hs
        simp at hs
      · exact ih u t' h l hl

end GCodeUtils
