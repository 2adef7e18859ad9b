import Verif.Lemmas.ArcRelative
import Verif.Props.ArcPath
import Verif.Props.Chain

/-
  C53, C107: the filament of arcs with relative extrusion, and arc optimisation after conversion to relative extrusion.
-/

set_option linter.unusedSectionVars false

namespace GCodeUtils

open Spec

/-- What an arc with relative extrusion pushes: at least what the replaced moves push together and at most π/2 times as much; at most
four per cent more if no move turns by more than 50 degrees, in particular if all of them turn counter-clockwise and together not
more than once. -/
def Spec.ArcPushes (mode : RoundMode) (start : PyLine ℝ) (w gen : List (PyLine ℝ)) : Prop :=
  ∃ pts c arc rest e, gen = arc :: rest ∧ arc.e = some e ∧ List.Forall₂ At (start :: w) pts ∧
    (∃ p, pts.head? = some p ∧ arc.i = some (pyRound mode 3 (c.1 - p.1)) ∧ arc.j = some (pyRound mode 3 (c.2 - p.2))) ∧
    0 < (w.map (fun l => l.e.getD 0)).sum ∧ (w.map (fun l => l.e.getD 0)).sum ≤ e ∧ e ≤ Real.pi / 2 * (w.map (fun l => l.e.getD 0)).sum ∧
    ((∀ a ∈ angles (realTrig mode) c pts, |a| ≤ 5 * Real.pi / 18) → e ≤ 104 / 100 * (w.map (fun l => l.e.getD 0)).sum) ∧
    ((∀ s ∈ steps pts, 0 < cross c s.1 s.2) → (angles (realTrig mode) c pts).sum ≤ 2 * Real.pi → e ≤ 104 / 100 * (w.map (fun l => l.e.getD 0)).sum)

theorem arcPushes_of {mode : RoundMode} {start : PyLine ℝ} {w gen : List (PyLine ℝ)} (h : ArcReplacement (realTrig mode) start w gen) (hE : ∀ l ∈ w, l.e ≠ none)
    (hrel : ∀ l ∈ w, l.relativeE = some true) : ArcPushes mode start w gen := by
  obtain ⟨pts, c, arc, rest, e, h1, h2, h3, h4, h5, h6, h7, h8, h9, h10, h11⟩ := window_filament h hE hrel
  refine ⟨pts, c, arc, rest, e, h1, h2, h3, h7, h8, h9, h10, h11, ?_⟩
  intro hs hsum
  refine h11 fun a ha => ?_
  have hpos : 0 < a := by
    obtain ⟨s, hs', rfl⟩ := List.mem_map.1 ha
    exact (turn_cross c s.1 s.2).1 (hs s hs')
  rw [abs_of_pos hpos]
  have k1 := h5 a ha
  have k2 : mean (angles (realTrig mode) c pts) ≤ 2 * Real.pi / 8 := by
    unfold mean
    rw [h6]
    have h8 : (8 : ℝ) ≤ (w.length : ℝ) := by exact_mod_cast h4
    rw [div_le_div_iff₀ (by linarith) (by norm_num)]
    have := Real.pi_pos
    nlinarith
  linarith

/-- C53, relative extrusion, how much more than the replaced moves the arc may push. -/
theorem C53_excess_partial (env : Env ℝ) (data : List Str) (home : Home ℝ) (g g' : GCode ℝ) (h : GCode.load env data false home = .ok g)
    (mode : RoundMode) (hr : g.optimizeArcs (realTrig mode) = .ok g') :
    Rewrites (fun start w gen => (∀ l ∈ w, l.relativeE = some true) → ArcPushes mode start w gen) (program g) (program g') := by
  refine rewrites_mono ?_ (C51_extruding_moves env data home g g' h (realTrig mode) hr)
  rintro start w gen ⟨h1, h2⟩ hrel
  exact arcPushes_of h1 h2 hrel

/-- Nine clockwise moves of 0.2611 mm each (2.3499 mm): the arc pushes 2.35662 mm. -/
example : GCode.load qEnv arcRel = .ok (loadQ arcRel) ∧ (loadQ arcRel).optimizeArcs qTrig = .ok (arcsQ arcRel) ∧
    (∀ l ∈ program (loadQ arcRel), IsMove l → l.relativeE = some true) ∧
    (((program (loadQ arcRel)).drop 2).map (fun l => l.e.getD 0)).sum = 23499 / 10000 ∧
    texts (arcsQ arcRel) = [c!"M83", c!"G1 X50.000 Y60.000 E0.2611 F1800",
      c!"G2 X57.071 Y42.929 E2.35662 F1800.000 I0.000 J-10.000; generated from 9 segments", c!"M107"] := by
  refine ⟨by decide +kernel, by decide +kernel, ?_, by decide +kernel, by decide +kernel⟩
  intro l hl hm
  have h : ∀ l ∈ program (loadQ arcRel), l.inMoves = true → l.relativeE = some true := by decide +kernel
  exact h l hl ((inMoves_iff l).2 hm)

theorem forall₂_kept_mem {α : Type} {w w' : List (PyLine α)} (h : List.Forall₂ Kept w w') : ∀ l' ∈ w', ∃ l ∈ w, Kept l l' := by
  induction h with
  | nil => simp
  | cons h _ ih =>
    intro x hx
    rcases List.mem_cons.1 hx with rfl | hx
    · exact ⟨_, by simp, h⟩
    · obtain ⟨l, h1, h2⟩ := ih x hx
      exact ⟨l, List.mem_cons_of_mem _ h1, h2⟩

theorem rewrites_window_mem {α : Type} {R S : PyLine α → List (PyLine α) → List (PyLine α) → Prop} {P : PyLine α → Prop} (hk : ∀ l l', Kept l l' → P l → P l')
    (h : ∀ a w g, (∀ l ∈ w, P l) → R a w g → S a w g) {x y : List (PyLine α)} (hx : ∀ l ∈ x, P l) (hr : Rewrites R x y) : Rewrites S x y := by
  induction hr with
  | done => exact .done
  | keep h1 _ ih => exact .keep h1 (ih fun l hl => hx l (List.mem_cons_of_mem _ hl))
  | arc h1 h2 h3 _ ih =>
    refine .arc h1 h2 (h _ _ _ ?_ h3) (ih fun l hl => hx l (by simp [hl]))
    intro l' hl'
    obtain ⟨l, k1, k2⟩ := forall₂_kept_mem h2 l' hl'
    exact hk l l' k2 (hx l (by simp [k1]))

/-- **C107 (partial)**, arc optimisation after conversion to relative extrusion.  For every program without `M83`, the optimiser replaces
windows of extruding moves of the converted program by arcs (as it does on a program that has just been loaded), and every arc,
clockwise or counter-clockwise, pushes forward, at least as much as the moves it replaces and not much more. -/
theorem C107_relative_first_partial (env : Env ℝ) (data : List Str) (home : Home ℝ) (g c o : GCode ℝ) (h : GCode.load env data false home = .ok g)
    (h83 : ∀ l ∈ program g, ¬ HasCmd l c!"M83") (mode : RoundMode) (hc : g.toRelativeE = .ok c) (ho : c.optimizeArcs (realTrig mode) = .ok o) :
    Rewrites (fun start w gen => ArcReplacement (realTrig mode) start w gen ∧ (∀ l ∈ w, l.e ≠ none) ∧ ArcPushes mode start w gen) (program c) (program o) := by
  obtain ⟨s, hs⟩ := optimizeArcs_run ho
  obtain ⟨htr, hne⟩ := converted_etrace h hc
  have hrw := arcRun_extruding_of htr hne hs
  obtain ⟨c', k1, _, k3⟩ := toRelativeE_program g
  rw [hc] at k1
  obtain rfl := Except.ok.inj k1
  have hrel : ∀ l ∈ program c, IsMove l → l.e ≠ none → l.relativeE = some true := by
    rw [k3]; exact converted_relative _ rfl h83
  have hcom := etrace_commentE htr
  refine rewrites_window_mem (P := fun l => (l.command = none → l.e = none) ∧ (IsMove l → l.e ≠ none → l.relativeE = some true)) ?_ ?_ (fun l hl => ⟨hcom l hl, hrel l hl⟩) hrw
  · rintro l l' (rfl | ⟨_, x, y, z, e, f, rfl⟩) hl
    · exact hl
    · exact hl
  · rintro start w gen hw ⟨h1, h2⟩
    refine ⟨h1, h2, arcPushes_of h1 h2 ?_⟩
    intro l hl
    refine (hw l hl).2 ?_ (h2 l hl)
    rcases h1.1.2.1 l hl with hm | hm
    · exact hm
    · exact absurd ((hw l hl).1 hm) (h2 l hl)

/-- Clockwise moves with absolute extrusion: optimised directly, the arc pulls filament back (C53_refuted); converted first, it pushes. -/
example : GCode.load qEnv arcCw = .ok (loadQ arcCw) ∧ (∀ l ∈ program (loadQ arcCw), ¬ HasCmd l c!"M83") ∧
    (loadQ arcCw).toRelativeE = .ok (relQ (loadQ arcCw)) ∧
    ((relQ (loadQ arcCw)).optimizeArcs qTrig).map texts = .ok [c!"G1 X50.000 Y60.000 E1.00000 F1800.000",
      c!"G2 X57.071 Y42.929 E2.35622 F1800.000 I0.000 J-10.000; generated from 9 segments", c!"M107"] := by
  decide +kernel

end GCodeUtils
