import Verif.Lemmas.Repeat
import Verif.Props.TempCal

/-
  C106: writing the same tower twice.
-/

set_option linter.unusedSectionVars false

namespace GCodeUtils

open Spec

variable {α : Type} [Field α] [LinearOrder α] [IsStrictOrderedRing α] [FloorRing α]

/-- C106 is false: with the same start and end temperature, the second output has no temperature command at all. -/
theorem C106_refuted : ∃ (data : List Str) (g : GCode ℚ), GCode.load qEnv data = .ok g ∧ ∃ st st',
    (writeContinuous .halfEven 220 220 (1 / 10) g).2 = .ok st ∧ c!"M104 S220.0" ∈ (writeContinuous .halfEven 220 220 (1 / 10) g).1 ∧
    (writeTemp .halfEven (continuousTemp 220 220) (1 / 10) st g).2 = .ok st' ∧
    (writeTemp .halfEven (continuousTemp 220 220) (1 / 10) st g).1 = g.lines.map (·.raw) :=
  ⟨spire, loadQ spire, spire_loads, { zmin := some (1 / 5), lastTarget := some 220 }, { zmin := some (1 / 5), lastTarget := some 220 },
    by decide +kernel, by decide +kernel, by decide +kernel, by decide +kernel⟩

/-- C106.  A second `write` on the same object (with any temperature function) succeeds, leaves the object as it was, and prints the same
lines, except that one line may be missing: a command for the temperature that the first `write` set last.  (With the same object state, the
third and all later outputs equal the second.)  Missing: that line. -/
theorem C106_repeat_partial (mode : RoundMode) (temp : TempFn α) (minZ : α) (g : GCode α) (out : List Str) (st : TempSt α)
    (h : writeTemp mode temp minZ {} g = (out, .ok st)) :
    ∃ out', writeTemp mode temp minZ st g = (out', .ok st) ∧
      (out' = out ∨ ∃ u x s y, st.lastTarget = some u ∧ IsTempLine u s ∧ out = x ++ s :: y ∧ out' = x ++ y) := by
  unfold writeTemp at h ⊢
  cases hp : parseHeights minZ g.zmax ({} : TempSt α).zmin g.allLayers with
  | error er => rw [hp] at h; cases h
  | ok q =>
    obtain ⟨b, top⟩ := q
    rw [hp] at h
    cases hw : writeLoop mode temp b top ({} : TempSt α).lastTarget g.allLayers with
    | mk o r =>
      simp only [hw, Prod.mk.injEq] at h
      obtain ⟨rfl, hr⟩ := h
      cases r with
      | error er => cases hr
      | ok last =>
        obtain rfl := Except.ok.inj hr
        simp only [parseHeights_again hp]
        cases last with
        | none =>
          refine ⟨o, ?_, Or.inl rfl⟩
          rw [show (none : Option α) = ({} : TempSt α).lastTarget from rfl, hw]; rfl
        | some u =>
          obtain ⟨out', last', e1, e2, e3⟩ := writeLoop_again mode temp b top g.allLayers u o (some u) hw
          rw [e1, e2 (Option.some_ne_none _)]
          refine ⟨out', rfl, ?_⟩
          rcases e3 with e3 | ⟨x, s, y, h1, h2, h3⟩
          · exact Or.inl e3
          · exact Or.inr ⟨u, x, s, y, rfl, h1, h2, h3⟩

/-- The hypothesis is met by a tower, whose second output is the same as the first. -/
example : ∃ st, writeContinuous .halfEven 220 200 (1 / 10) (loadQ spire) = ((writeContinuous .halfEven 220 200 (1 / 10) (loadQ spire)).1, .ok st) ∧
    (writeTemp .halfEven (continuousTemp 220 200) (1 / 10) st (loadQ spire)).1 = (writeContinuous .halfEven 220 200 (1 / 10) (loadQ spire)).1 ∧
    c!"M104 S220.0" ∈ (writeContinuous .halfEven 220 200 (1 / 10) (loadQ spire)).1 :=
  ⟨{ zmin := some (1 / 5), lastTarget := some (2133 / 10) }, by decide +kernel, by decide +kernel, by decide +kernel⟩

end GCodeUtils
