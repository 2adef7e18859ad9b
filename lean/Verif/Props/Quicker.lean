import Verif.Lemmas.Quicker
import Verif.Props.PlacedTime

/-
  C141: higher feed rates never make the estimate longer.
-/

set_option linter.unusedSectionVars false

namespace GCodeUtils

open Spec

variable {α : Type} [Field α] [LinearOrder α] [IsStrictOrderedRing α] [FloorRing α]

/-- C141 (partial). Two programs with the same lines, but in the second the feed rates of linear moves may be higher; in the first every linear
move has a feed rate, and none is zero or negative. The layers are the same, no line takes longer in the second, no layer does, and the whole does not. -/
theorem C141_partial {env : Env α} (hh : ∀ a b, 0 ≤ env.hypot a b) {home : Home α} {data data' : List Str} {g g' : GCode α}
    (hg : GCode.load env data false home = .ok g) (hg' : GCode.load env data' false home = .ok g')
    (h : List.Forall₂ Quicker g.lines g'.lines) (hs : SpeedStated g.lines) (hne : g.lines ≠ []) :
    g'.allZs = g.allZs ∧ g'.allLayers.map (·.lines.length) = g.allLayers.map (·.lines.length) ∧
    List.Forall₂ (fun t t' => t' ≤ t) (lineTimes env.hypot .rest g.lines) (lineTimes env.hypot .rest g'.lines) ∧
    (∃ t t', g.duration = some t ∧ g'.duration = some t' ∧ t' ≤ t) ∧
    ∀ {pre post pre' post' : List (Layer α)} {L L' : Layer α}, g.allLayers = pre ++ L :: post → g'.allLayers = pre' ++ L' :: post' → pre'.length = pre.length →
      ∃ t t', L.duration = some t ∧ L'.duration = some t' ∧ t' ≤ t := by
  have ne : ∀ {d : List Str} {q : GCode α}, GCode.load env d false home = .ok q → q.lines ≠ [] → d ≠ [] := by
    intro d q hq hne hd
    rcases load_ok hq with ⟨_, rfl⟩ | ⟨w, _⟩
    · exact hne rfl
    · exact w hd
  have hne' : g'.lines ≠ [] := by
    intro e
    rw [e] at h
    exact hne (by simpa using h.length_eq)
  obtain ⟨z1, _, z2, _⟩ := load_level hg hg' hne
    (h.imp fun _ _ q => ⟨q.command, q.words.2.2.1, q.words.2.2.2, fun _ => ⟨q.words.1, q.words.2.1⟩⟩)
  obtain ⟨out, r1, o1⟩ := load_run' hg
  obtain ⟨out', r1', o1'⟩ := load_run' hg'
  rw [← o1 rfl] at r1
  rw [← o1' rfl] at r1'
  have hm := (run_modes _ r1 r1' rfl rfl (h.imp fun _ _ q => q.command)).imp fun _ _ q (k : Linear _) => q (linear_move k)
  have ht := quick_times hh h hm hs.1 (.inr hs.2) (p := .rest) (p' := .rest) ⟨rfl, ⟨rfl, rfl⟩, le_rfl, le_rfl⟩
  refine ⟨z1, z2, ht, ⟨_, _, C130_total hg (ne hg hne), C130_total hg' (ne hg' hne'), pyInt_mono (sum_le_of_pairs ht)⟩, ?_⟩
  intro pre post pre' post' L L' e e' hl
  refine ⟨_, _, C130_layers hg (ne hg hne) e, C130_layers hg' (ne hg' hne') e', ?_⟩
  have hc : ∀ {A B A' B' : List (Layer α)}, g.allLayers = A ++ B → g'.allLayers = A' ++ B' → A'.length = A.length → lineCount A' = lineCount A := by
    intro A B A' B' hA hA' hl
    rw [hA, hA', List.map_append, List.map_append] at z2
    unfold lineCount
    rw [(List.append_inj z2 (by simpa using hl)).1]
  have c1 : lineCount pre' = lineCount pre := hc e e' hl
  have c2 : lineCount (pre' ++ [L']) = lineCount (pre ++ [L]) :=
    hc (A := pre ++ [L]) (B := post) (A' := pre' ++ [L']) (B' := post') (by rw [e]; simp) (by rw [e']; simp) (by simp [hl])
  unfold overAt timeUpTo
  rw [if_neg (show pre ++ [L] ≠ [] by simp), if_neg (show pre' ++ [L'] ≠ [] by simp), c1, c2]
  by_cases hp : pre = []
  · have hp' : pre' = [] := List.length_eq_zero_iff.1 (by rw [hl, hp]; rfl)
    rw [if_pos hp, if_pos hp', sub_zero, sub_zero]
    exact sum_le_of_pairs (pairs_take ht _)
  · have hp' : pre' ≠ [] := fun k => hp (List.length_eq_zero_iff.1 (by rw [← hl, k]; rfl))
    have hle : lineCount pre + 1 ≤ lineCount (pre ++ [L]) + 1 := by rw [lineCount_append]; omega
    rw [if_neg hp, if_neg hp', sum_take_sub _ hle, sum_take_sub _ hle]
    exact sum_le_of_pairs (pairs_take (pairs_drop ht _) _)

def slowText : List Str := [c!"G28", c!"G1 Z0.3 F600", c!"G1 X10 Y0", c!"G1 X40 Y0 E3 F1200", c!"G1 X40 Y10 E4", c!"G1 Z0.6", c!"G1 X40 Y40 E9 F600", c!"G4 P500"]
def fastText : List Str := [c!"G28", c!"G1 Z0.3 F600", c!"G1 X10 Y0", c!"G1 X40 Y0 E3 F6000", c!"G1 X40 Y10 E4", c!"G1 Z0.6", c!"G1 X40 Y40 E9 F900", c!"G4 P500"]

instance (l l' : PyLine ℚ) : Decidable (Quicker l l') :=
  decidable_of_iff (l'.command = l.command ∧ (l'.x = l.x ∧ l'.y = l.y ∧ l'.z = l.z ∧ l'.e = l.e) ∧
    (Linear l → l.f = none ∧ l'.f = none ∨ (l.f.isSome = true ∧ l'.f.isSome = true ∧ l.f.getD 0 ≤ l'.f.getD 0)) ∧ (¬ Linear l → l'.raw = l.raw)) <| by
    have key : ∀ o o' : Option ℚ, (o.isSome = true ∧ o'.isSome = true ∧ o.getD 0 ≤ o'.getD 0) ↔ ∃ a b, o = some a ∧ o' = some b ∧ a ≤ b := by
      intro o o'
      cases o <;> cases o' <;> simp
    constructor
    · rintro ⟨h1, h2, h3, h4⟩
      exact ⟨h1, h2, fun k => (h3 k).imp id (key _ _).1, h4⟩
    · rintro ⟨h1, h2, h3, h4⟩
      exact ⟨h1, h2, fun k => (h3 k).imp id (key _ _).2, h4⟩

/-- The hypotheses are met by two programs that differ in two feed rates. -/
example : GCode.load qEnv slowText = .ok (loadQ slowText) ∧ GCode.load qEnv fastText = .ok (loadQ fastText) ∧
    List.Forall₂ Quicker (loadQ slowText).lines (loadQ fastText).lines ∧ (loadQ slowText).lines ≠ [] ∧
    (loadQ slowText).duration = some 6 ∧ (loadQ fastText).duration = some 4 := by
  decide +kernel

example : SpeedStated (loadQ slowText).lines := by
  refine ⟨by decide +kernel, ?_⟩
  intro pre l post e hL
  have h1 : ∀ k ∈ (loadQ slowText).lines.take 1, ¬ Linear k := by decide +kernel
  have h2 : (loadQ slowText).lines = (loadQ slowText).lines.take 1 ++ (loadQ slowText).lines[1]'(by decide +kernel) :: (loadQ slowText).lines.drop 2 := by decide +kernel
  have h3 : Linear ((loadQ slowText).lines[1]'(by decide +kernel)) ∧ ((loadQ slowText).lines[1]'(by decide +kernel)).f ≠ none := by decide +kernel
  have h2 := e.symm.trans h2
  refine ⟨_, ?_, h3⟩
  rcases List.append_eq_append_iff.1 h2 with ⟨c, c1, c2⟩ | ⟨c, c1, c2⟩
  · cases c with
    | nil => rw [← (List.cons.inj c2).1]; simp
    | cons q c => exact absurd hL (h1 l (by rw [c1, (List.cons.inj c2).1]; simp))
  · cases c with
    | nil => rw [(List.cons.inj c2).1]; simp
    | cons q c => rw [c1, (List.cons.inj c2).1]; simp

/-- C141 is false for moves before the first feed rate: without one they take no time. -/
theorem C141_unstated_refuted : GCode.load qEnv [c!"G1 X100 F0", c!"G1 X200"] = .ok (loadQ [c!"G1 X100 F0", c!"G1 X200"]) ∧
    GCode.load qEnv [c!"G1 X100 F600", c!"G1 X200"] = .ok (loadQ [c!"G1 X100 F600", c!"G1 X200"]) ∧
    GCode.load qEnv [c!"G1 X100", c!"G1 X200"] = .ok (loadQ [c!"G1 X100", c!"G1 X200"]) ∧
    List.Forall₂ Quicker (loadQ [c!"G1 X100 F0", c!"G1 X200"]).lines (loadQ [c!"G1 X100 F600", c!"G1 X200"]).lines ∧
    (loadQ [c!"G1 X100 F0", c!"G1 X200"]).duration = some 0 ∧ (loadQ [c!"G1 X100 F600", c!"G1 X200"]).duration = some 20 ∧
    (loadQ [c!"G1 X100", c!"G1 X200"]).duration = some 0 := by decide +kernel

end GCodeUtils
