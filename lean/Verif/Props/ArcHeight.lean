import Verif.Props.KeptLayers

/-
  C55 for programs with Z words in extruding moves.
-/

set_option linter.unusedSectionVars false

namespace GCodeUtils

open Spec

variable {α : Type} [Field α] [LinearOrder α] [IsStrictOrderedRing α] [FloorRing α]

theorem sameZ_level (home : Pos3 α) (w : List (PyLine α)) : ∀ p : Printer α, (∀ l ∈ w, IsMove l) →
    (∀ u l v, w = u ++ l :: v → ((p.run home u).exec home l).pos.z = (p.run home u).pos.z) → SameZ p (p.run home w) := by
  induction w with
  | nil => intro p _ _; exact ⟨rfl, rfl, rfl⟩
  | cons l w ih =>
    intro p hm hz
    have h1 : SameZ p (p.exec home l) := by
      refine ⟨(hz [] l w rfl).symm, ?_, ?_⟩
      · rw [exec_moves (hm l (by simp))]; rfl
      · rw [exec_moves (hm l (by simp))]; rfl
    rw [run_cons]
    exact h1.trans (ih _ (fun k hk => hm k (by simp [hk])) (fun u k v e => by
      have := hz (l :: u) k v (by rw [e]; rfl)
      rwa [run_cons] at this))

/-- C55, for programs in which runs of extruding moves on an arc stay at their height: a printer executing the output is at the same
height as one executing the input, after every retained line and after every replaced window. -/
theorem C55_level_partial (env : Env α) (data : List Str) (home : Home α) (g g' : GCode α) (h : GCode.load env data false home = .ok g)
    (t : Trig α) (hr : g.optimizeArcs t = .ok g') (hp : Pos3 α) (p : Printer α)
    (hz : ∀ a w b u l v, ArcRun t (program g) a w b → w = u ++ l :: v → ((p.run hp (a ++ u)).exec hp l).pos.z = (p.run hp (a ++ u)).pos.z) :
    Tracks hp (fun start w gen => ArcReplacement t start w gen ∧ ∀ l ∈ w, l.e ≠ none)
      (fun a b => a.pos.z = b.pos.z ∧ a.org.z = b.org.z ∧ a.rel = b.rel) p p (program g) (program g') := by
  refine rewrites_tracks (Q := SameZ) (x0 := program g) (p0 := p) ?_ ?_ (C51_extruding_moves env data home g g' h t hr) [] p rfl ⟨rfl, rfl, rfl⟩
  · intro pre l l' post q _ hq hk
    rw [exec_kept hp q hk]
    exact sameZ_exec hp hq l
  · intro pre w w' gen l' post q he hq hk hR
    obtain ⟨rfl, hm⟩ := window_same (load_comment h) (fun l hl => by rw [he]; simp [hl]) hk hR.1.1.2.1 hR.2
    obtain ⟨hf, pts, c, r, paths, fils, _, _, hon, _⟩ := hR.1
    refine ((sameZ_level hp w' _ hm ?_).symm.trans hq).trans (sameZ_gen hp hR.1 q)
    intro u l v e
    have := hz pre w' post u l v ⟨he, hf.1, fun l hl => ⟨hm l hl, hR.2 l hl⟩, l', pts, c, r, paths, fils, hon⟩ e
    rwa [run_append'] at this

/-- An arc whose moves all name the height. -/
def arcNamed : List Str := [c!"G1 Z0.2", c!"G1 X60.000 Y50.000 Z0.2 E1.0000 F1800", c!"G1 X59.659 Y52.588 Z0.2 E1.2611", c!"G1 X58.660 Y55.000 Z0.2 E1.5221",
  c!"G1 X57.071 Y57.071 Z0.2 E1.7832", c!"G1 X55.000 Y58.660 Z0.2 E2.0442", c!"G1 X52.588 Y59.659 Z0.2 E2.3053", c!"G1 X50.000 Y60.000 Z0.2 E2.5663",
  c!"G1 X47.412 Y59.659 Z0.2 E2.8274", c!"G1 X45.000 Y58.660 Z0.2 E3.0884", c!"G1 X42.929 Y57.071 Z0.2 E3.3495", c!"M107"]

/-- The hypotheses are met by this program, in which the arc is found. -/
example : GCode.load qEnv arcNamed = .ok (loadQ arcNamed) ∧ (loadQ arcNamed).optimizeArcs qTrig = .ok (arcsQ arcNamed) ∧ (program (arcsQ arcNamed)).length = 4 ∧
    ∀ a w b u l v, ArcRun qTrig (program (loadQ arcNamed)) a w b → w = u ++ l :: v →
      (((Printer.start : Printer ℚ).run ⟨0, 0, 0⟩ (a ++ u)).exec ⟨0, 0, 0⟩ l).pos.z = ((Printer.start : Printer ℚ).run ⟨0, 0, 0⟩ (a ++ u)).pos.z := by
  refine ⟨by decide +kernel, by decide +kernel, by decide +kernel, ?_⟩
  intro a w b u l v ⟨e, _, hm, _⟩ ew
  have hall : ∀ i : Fin 12, ((program (loadQ arcNamed))[i.val]?).all (fun l => decide (l.e = none ∨
      (((Printer.start : Printer ℚ).run ⟨0, 0, 0⟩ ((program (loadQ arcNamed)).take i.val)).exec ⟨0, 0, 0⟩ l).pos.z =
        ((Printer.start : Printer ℚ).run ⟨0, 0, 0⟩ ((program (loadQ arcNamed)).take i.val)).pos.z)) = true := by decide +kernel
  have hlen : (program (loadQ arcNamed)).length = 12 := by decide +kernel
  have e' : program (loadQ arcNamed) = (a ++ u) ++ l :: (v ++ b) := by rw [e, ew]; simp
  have hlt : (a ++ u).length < 12 := by
    rw [← hlen, e']; simp
  have := hall ⟨(a ++ u).length, hlt⟩
  simp only [e'] at this
  rw [List.getElem?_append_right (le_refl _), Nat.sub_self, List.take_left' rfl] at this
  simp only [List.getElem?_cons_zero, Option.all_some, decide_eq_true_eq] at this
  rcases this with h | h
  · exact absurd h (hm l (by rw [ew]; simp)).2
  · exact h

end GCodeUtils
