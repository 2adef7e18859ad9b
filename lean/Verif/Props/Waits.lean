import Verif.Lemmas.PlacedTime
import Verif.Props.LayerTime
import Verif.Props.Common

/-
  C145: waiting times count in full, wherever they are.
-/

set_option linter.unusedSectionVars false

namespace GCodeUtils

open Spec

variable {α : Type} [Field α] [LinearOrder α] [IsStrictOrderedRing α] [FloorRing α]

/-- Linear moves with the same words, read in the same modes. -/
structure EqualMove (l l' : PyLine α) : Prop where
  xy : l'.x = l.x ∧ l'.y = l.y
  ze : l'.z = l.z ∧ l'.e = l.e
  f : l'.f = l.f
  modes : l'.relative = l.relative ∧ l'.relativeE = l.relativeE

theorem dwell_linear {l : PyLine α} (h : Linear l) : dwell l = 0 := by
  unfold dwell
  rw [if_neg]
  intro k
  rw [HasCmd] at k
  rcases h with h | h <;> rw [HasCmd, k] at h <;> exact absurd h (by decide)

/-- Moving and waiting. -/
theorem times_split (hyp : α → α → α) (ls : List (PyLine α)) :
    ∀ p : Pace α, (lineTimes hyp p ls).sum = (lineTimes hyp p (ls.filter (fun l => decide (Linear l)))).sum + (ls.map dwell).sum := by
  induction ls with
  | nil => intro p; simp [lineTimes]
  | cons l ls ih =>
    intro p
    by_cases hL : Linear l
    · rw [List.filter_cons_of_pos (by simpa using hL), lineTimes, lineTimes, List.map_cons, List.sum_cons, List.sum_cons, List.sum_cons, ih, dwell_linear hL]
      ring
    · have hn : p.next l = p := by unfold Pace.next; rw [if_neg hL]
      have ht : lineTime hyp p l = dwell l := by unfold lineTime; rw [if_neg hL]
      rw [List.filter_cons_of_neg (by simpa using hL), lineTimes, List.map_cons, List.sum_cons, List.sum_cons, ih, hn, ht]
      ring

theorem waits_times_same (hyp : α → α → α) {ls ls' : List (PyLine α)} (h : List.Forall₂ (fun l l' => (Linear l ∧ Linear l') ∧ EqualMove l l') ls ls') :
    ∀ p : Pace α, lineTimes hyp p ls' = lineTimes hyp p ls := by
  induction h with
  | nil => intro p; rfl
  | @cons l l' ls ls' hl _ ih =>
    intro p
    obtain ⟨⟨a, b⟩, hs⟩ := hl
    have hn : p.next l' = p.next l := by
      unfold Pace.next
      rw [if_pos a, if_pos b, hs.xy.1, hs.xy.2, hs.ze.1, hs.ze.2, hs.f]
    have ht : lineTime hyp p l' = lineTime hyp p l := by
      unfold lineTime paceLength
      rw [if_pos a, if_pos b, hn, hs.xy.1, hs.xy.2, hs.ze.1, hs.ze.2, hs.modes.1, hs.modes.2]
    rw [lineTimes, lineTimes, hn, ht, ih]

theorem linear_pairs {ls ls' : List (PyLine α)} (h : List.Forall₂ EqualMove (ls.filter (fun l => decide (Linear l))) (ls'.filter (fun l => decide (Linear l)))) :
    List.Forall₂ (fun l l' => (Linear l ∧ Linear l') ∧ EqualMove l l') (ls.filter (fun l => decide (Linear l))) (ls'.filter (fun l => decide (Linear l))) := by
  have h1 : ∀ l ∈ ls.filter (fun l => decide (Linear l)), Linear l := fun l hl => by simpa using (List.mem_filter.1 hl).2
  have h2 : ∀ l ∈ ls'.filter (fun l => decide (Linear l)), Linear l := fun l hl => by simpa using (List.mem_filter.1 hl).2
  generalize ls.filter (fun l => decide (Linear l)) = A at h h1
  generalize ls'.filter (fun l => decide (Linear l)) = B at h h2
  induction h with
  | nil => exact .nil
  | cons k _ ih => exact .cons ⟨⟨h1 _ (by simp), h2 _ (by simp)⟩, k⟩ (ih (fun l hl => h1 l (by simp [hl])) (fun l hl => h2 l (by simp [hl])))

/-- C145. Two programs have the same linear moves, in the same modes, and any other lines anywhere between them. The estimated times are the same time for the
moves plus what each program waits, in whole seconds: a pause of a given length makes the estimate longer by that length, wherever it is, and
commands other than linear moves and waits have no influence. -/
theorem C145_waits {env : Env α} {home home' : Home α} {data data' : List Str} {g g' : GCode α} (hg : GCode.load env data false home = .ok g)
    (hg' : GCode.load env data' false home' = .ok g') (hd : data ≠ []) (hd' : data' ≠ [])
    (h : List.Forall₂ EqualMove (g.lines.filter (fun l => decide (Linear l))) (g'.lines.filter (fun l => decide (Linear l)))) :
    ∃ a, g.duration = some (pyInt (a + (g.lines.map dwell).sum)) ∧ g'.duration = some (pyInt (a + (g'.lines.map dwell).sum)) := by
  refine ⟨(lineTimes env.hypot .rest (g.lines.filter (fun l => decide (Linear l)))).sum, ?_, ?_⟩
  · rw [C130_total hg hd, times_split]
  · rw [C130_total hg' hd', times_split, waits_times_same env.hypot (linear_pairs h)]

/-- Whole seconds more of waiting are exactly so many seconds more of estimated time, if nothing is negative. -/
theorem C145_seconds {env : Env α} {home home' : Home α} {data data' : List Str} {g g' : GCode α} (hg : GCode.load env data false home = .ok g)
    (hg' : GCode.load env data' false home' = .ok g') (hd : data ≠ []) (hd' : data' ≠ [])
    (h : List.Forall₂ EqualMove (g.lines.filter (fun l => decide (Linear l))) (g'.lines.filter (fun l => decide (Linear l))))
    {n : ℕ} (hn : (g'.lines.map dwell).sum = (g.lines.map dwell).sum + n) {t : ℤ} (ht : g.duration = some t) (h0 : 0 < t) : g'.duration = some (t + n) := by
  obtain ⟨a, h1, h2⟩ := C145_waits hg hg' hd hd' h
  rw [ht, Option.some.injEq] at h1
  rw [h2, hn, ← add_assoc, h1]
  have hp : 0 ≤ a + (g.lines.map dwell).sum := by
    by_contra hc
    rw [h1] at h0
    unfold pyInt at h0
    rw [if_neg hc] at h0
    have : (0 : ℤ) ≤ ⌊-(a + (g.lines.map dwell).sum)⌋ := Int.floor_nonneg.2 (by linarith)
    omega
  have hn0 : (0 : α) ≤ (n : α) := Nat.cast_nonneg n
  unfold pyInt
  rw [if_pos hp, if_pos (by linarith), Int.floor_add_natCast]

/-! ### the hypotheses are met -/

def hasty : List Str := [c!"G90", c!"G1 X10 F600", c!"M106 S255", c!"G1 X20 Y5"]
def patient : List Str := [c!"G4 P500", c!"G90", c!"G1 X10 F600", c!"G4 P1500", c!"G1 X20 Y5 ; slowly", c!"M107"]

example : GCode.load qEnv hasty = .ok (loadQ hasty) ∧ GCode.load qEnv patient = .ok (loadQ patient) ∧
    (loadQ hasty).duration = some 2 ∧ (loadQ patient).duration = some 4 ∧
    ((loadQ patient).lines.map dwell).sum = ((loadQ hasty).lines.map dwell).sum + (2 : ℕ) := by decide +kernel

example : List.Forall₂ EqualMove ((loadQ hasty).lines.filter (fun l => decide (Linear l))) ((loadQ patient).lines.filter (fun l => decide (Linear l))) := by
  have e1 : ((loadQ hasty).lines.filter (fun l => decide (Linear l))) = [(loadQ hasty).lines[1]'(by decide +kernel), (loadQ hasty).lines[3]'(by decide +kernel)] := by decide +kernel
  have e2 : ((loadQ patient).lines.filter (fun l => decide (Linear l))) = [(loadQ patient).lines[2]'(by decide +kernel), (loadQ patient).lines[4]'(by decide +kernel)] := by decide +kernel
  rw [e1, e2]
  exact .cons ⟨by decide +kernel, by decide +kernel, by decide +kernel, by decide +kernel⟩ (.cons ⟨by decide +kernel, by decide +kernel, by decide +kernel, by decide +kernel⟩ .nil)

end GCodeUtils
