import Verif.Lemmas.ElsewhereLoad
import Verif.Props.Stretch

/-
  C101: stretching does not depend on where on the bed the object lies.
-/

set_option linter.unusedSectionVars false

namespace GCodeUtils

open Spec

variable {α : Type} [Field α] [LinearOrder α] [IsStrictOrderedRing α] [FloorRing α]

/-- **C101 (partial).**  Two programs are loaded; the second is the first at another place of the bed: its X/Y moves are
shifted by `(dx, dy)`, its other lines are the same.  Every X/Y move names both X and Y.  Then, for any square root and any
settings, stretching either fails on both with the same error or gives two programs which again are the same at two places,
up to the thousandth of a millimetre to which coordinates are written: the same lines with the same Z, E and F, and X and Y
shifted by `(dx, dy)`.  The order and the number of lines are the same.  Not for moves that leave X or Y out
(`C101_one_axis_refuted`). -/
theorem C101_elsewhere_partial (env : Env α) (home : Home α) (sqrt : α → α) (fuel : ℕ) (slicer : Slicer) (repo : StretchRepo α)
    (profile : ProfileOracle α) (dx dy : α) {data data' : List Str} {g g' : GCode α} (hg : GCode.load env data false home = .ok g)
    (hg' : GCode.load env data' false home = .ok g')
    (h : List.Forall₂ (Elsewhere dx dy) (g.lines.map (·.raw)) (g'.lines.map (·.raw))) :
    (∃ e, g.stretch sqrt fuel slicer repo profile = .error e ∧ g'.stretch sqrt fuel slicer repo profile = .error e) ∨
    ∃ k k', g.stretch sqrt fuel slicer repo profile = .ok k ∧ g'.stretch sqrt fuel slicer repo profile = .ok k' ∧
      List.Forall₂ (ElsewhereUpTo (1 / 1000) dx dy) (program k) (program k') := by
  rcases (stretch_shift sqrt fuel slicer repo profile (load_shift hg hg' h)).outcomes with h | ⟨k, k', h1, h2, h3⟩
  · exact .inl h
  · refine .inr ⟨k, k', h1, h2, ?_⟩
    unfold program layerLines
    generalize k.allLayers = A at h3
    generalize k'.allLayers = B at h3
    induction h3 with
    | nil => exact .nil
    | cons h4 _ ih => exact List.rel_append h4 ih

/-! ### an example -/

/-- A Cura program with an outer wall and a filling. -/
def wallHere : List Str :=
  [c!"G1 Z0.3 F7800", c!"G0 X0 Y0 F7800", c!";TYPE:WALL-OUTER", c!"G1 F1200 X1 Y0 E1", c!"G1 X1 Y1 E2", c!"G1 X0 Y1 E3",
   c!"G1 X0 Y0 E4", c!";TYPE:FILL", c!"G0 F7800 X2 Y2", c!"G1 F1200 X8 Y2 E5 ; last"]

/-- The same program 10.5 mm to the right and 2 mm to the front. -/
def wallThere : List Str :=
  [c!"G1 Z0.3 F7800", c!"G0 X10.5 Y-2 F7800", c!";TYPE:WALL-OUTER", c!"G1 F1200 X11.5 Y-2 E1", c!"G1 X11.5 Y-1 E2", c!"G1 X10.5 Y-1 E3",
   c!"G1 X10.5 Y-2 E4", c!";TYPE:FILL", c!"G0 F7800 X12.5 Y0", c!"G1 F1200 X18.5 Y0 E5 ; last"]

theorem placeless_here {r : Str} (h : commandOf r (findall (lower r)) ≠ some c!"G20")
    (h' : ¬ (commandOf r (findall (lower r)) = some c!"G0" ∨ commandOf r (findall (lower r)) = some c!"G1") ∨
      ∀ t ∈ findall (lower r), (t.map Prod.fst ≠ some 'x') ∧ (t.map Prod.fst ≠ some 'y')) : Placeless r := by
  intro ws hws
  rw [← (findall_reads (lower r) ws).2 hws]
  refine ⟨h, fun hc n => ?_⟩
  rcases h' with h' | h'
  · exact absurd hc h'
  · exact ⟨fun k => (h' _ k).1 rfl, fun k => (h' _ k).2 rfl⟩

theorem kept_here {dx dy : α} {r : Str} (h : commandOf r (findall (lower r)) ≠ some c!"G20")
    (h' : ¬ (commandOf r (findall (lower r)) = some c!"G0" ∨ commandOf r (findall (lower r)) = some c!"G1") ∨
      ∀ t ∈ findall (lower r), (t.map Prod.fst ≠ some 'x') ∧ (t.map Prod.fst ≠ some 'y'))
    (hh : r.head? ≠ some '(') (hn : '\n' ∉ r) : Elsewhere dx dy r r :=
  .inr ⟨rfl, placeless_here h h', fun k => hh k.1, hn⟩

theorem wordX {dx dy a : ℚ} {n n' : Str} (h : parseFloat n = some a) (h' : parseFloat n' = some (a + dx)) : MovedWord dx dy ('X' :: n) ('X' :: n') :=
  .x n n' a ((parseFloat_iff n a).1 h) ((parseFloat_iff n' _).1 h')

theorem wordY {dx dy a : ℚ} {n n' : Str} (h : parseFloat n = some a) (h' : parseFloat n' = some (a + dy)) : MovedWord dx dy ('Y' :: n) ('Y' :: n') :=
  .y n n' a ((parseFloat_iff n a).1 h) ((parseFloat_iff n' _).1 h')

/-- The hypotheses of `C101_elsewhere_partial` are met, and the stretched programs are those of the theorem. -/
example : GCode.load qEnv wallHere = .ok (loadQ wallHere) ∧ GCode.load qEnv wallThere = .ok (loadQ wallThere) ∧
    List.Forall₂ (Elsewhere (21 / 2 : ℚ) (-2)) ((loadQ wallHere).lines.map (·.raw)) ((loadQ wallThere).lines.map (·.raw)) ∧
    (program (stretchQ .cura 1 wallHere)).map (·.raw) =
      [c!"G1 Z0.3 F7800", c!"G0 X0 Y0 F7800", c!";TYPE:WALL-OUTER", c!"G1 X1.024 Y-0.024 E0.96606 F1200.000",
       c!"G1 X1.024 Y1.024 E1.93212 F1200.000", c!"G1 X-0.024 Y1.024 E2.89818 F1200.000", c!"G1 X-0.024 Y-0.024 E3.86424 F1200.000",
       c!";TYPE:FILL ; stretch-loop-stop", c!"G0 F7800 X2 Y2", c!"G1 F1200 X8 Y2 E5 ; last"] ∧
    (program (stretchQ .cura 1 wallThere)).map (·.raw) =
      [c!"G1 Z0.3 F7800", c!"G0 X10.5 Y-2 F7800", c!";TYPE:WALL-OUTER", c!"G1 X11.524 Y-2.024 E0.96606 F1200.000",
       c!"G1 X11.524 Y-0.976 E1.93212 F1200.000", c!"G1 X10.476 Y-0.976 E2.89818 F1200.000", c!"G1 X10.476 Y-2.024 E3.86424 F1200.000",
       c!";TYPE:FILL ; stretch-loop-stop", c!"G0 F7800 X12.5 Y0", c!"G1 F1200 X18.5 Y0 E5 ; last"] := by
  refine ⟨by decide +kernel, by decide +kernel, ?_, by decide +kernel, by decide +kernel⟩
  have e1 : (loadQ wallHere).lines.map (·.raw) = wallHere := by decide +kernel
  have e2 : (loadQ wallThere).lines.map (·.raw) = wallThere := by decide +kernel
  rw [e1, e2]
  have mv : ∀ (n : Str) (gs gs' : List (Str × Str)) (t : Str), (n = ['0'] ∨ n = ['1']) → (∀ g ∈ gs, ∀ b ∈ g.1, b = ' ') →
      List.Forall₂ (fun g g' => g'.1 = g.1 ∧ MovedWord (21 / 2 : ℚ) (-2) g.2 g'.2) gs gs' →
      (∃ g ∈ gs, g.2.head? = some 'X') → (∃ g ∈ gs, g.2.head? = some 'Y') → CommentTail t →
      ∀ r r', r = written ('G' :: n) gs ++ t → r' = written ('G' :: n) gs' ++ t → Elsewhere (21 / 2 : ℚ) (-2) r r' :=
    fun n gs gs' t h1 h2 h3 h4 h5 h6 r r' h7 h8 => .inl ⟨n, gs, gs', t, h1, h2, h3, h4, h5, h6, h7, h8⟩
  have sm : ∀ (c : Char) (n : Str), c ∈ c!"ZEFIJ" → (∀ d ∈ n, d ∈ c!"0123456789.+-") → MovedWord (21 / 2 : ℚ) (-2) (c :: n) (c :: n) :=
    fun c n h1 h2 => .same c n h1 h2
  unfold wallHere wallThere
  refine .cons (kept_here (by decide) (by decide) (by decide) (by decide)) (.cons ?_ (.cons (kept_here (by decide) (by decide) (by decide) (by decide))
    (.cons ?_ (.cons ?_ (.cons ?_ (.cons ?_ (.cons (kept_here (by decide) (by decide) (by decide) (by decide)) (.cons ?_ (.cons ?_ .nil)))))))))
  · exact mv c!"0" [(c!" ", c!"X0"), (c!" ", c!"Y0"), (c!" ", c!"F7800")] [(c!" ", c!"X10.5"), (c!" ", c!"Y-2"), (c!" ", c!"F7800")] []
      (by decide) (by decide) (.cons ⟨rfl, wordX (a := 0) (by decide +kernel) (by decide +kernel)⟩ (.cons ⟨rfl, wordY (a := 0) (by decide +kernel) (by decide +kernel)⟩ (.cons ⟨rfl, sm _ _ (by decide) (by decide)⟩ .nil))) (by decide) (by decide) (.inl rfl) _ _ (by decide) (by decide)
  · exact mv c!"1" [(c!" ", c!"F1200"), (c!" ", c!"X1"), (c!" ", c!"Y0"), (c!" ", c!"E1")] [(c!" ", c!"F1200"), (c!" ", c!"X11.5"), (c!" ", c!"Y-2"), (c!" ", c!"E1")] []
      (by decide) (by decide) (.cons ⟨rfl, sm _ _ (by decide) (by decide)⟩ (.cons ⟨rfl, wordX (a := 1) (by decide +kernel) (by decide +kernel)⟩ (.cons ⟨rfl, wordY (a := 0) (by decide +kernel) (by decide +kernel)⟩ (.cons ⟨rfl, sm _ _ (by decide) (by decide)⟩ .nil)))) (by decide) (by decide) (.inl rfl) _ _ (by decide) (by decide)
  · exact mv c!"1" [(c!" ", c!"X1"), (c!" ", c!"Y1"), (c!" ", c!"E2")] [(c!" ", c!"X11.5"), (c!" ", c!"Y-1"), (c!" ", c!"E2")] []
      (by decide) (by decide) (.cons ⟨rfl, wordX (a := 1) (by decide +kernel) (by decide +kernel)⟩ (.cons ⟨rfl, wordY (a := 1) (by decide +kernel) (by decide +kernel)⟩ (.cons ⟨rfl, sm _ _ (by decide) (by decide)⟩ .nil))) (by decide) (by decide) (.inl rfl) _ _ (by decide) (by decide)
  · exact mv c!"1" [(c!" ", c!"X0"), (c!" ", c!"Y1"), (c!" ", c!"E3")] [(c!" ", c!"X10.5"), (c!" ", c!"Y-1"), (c!" ", c!"E3")] []
      (by decide) (by decide) (.cons ⟨rfl, wordX (a := 0) (by decide +kernel) (by decide +kernel)⟩ (.cons ⟨rfl, wordY (a := 1) (by decide +kernel) (by decide +kernel)⟩ (.cons ⟨rfl, sm _ _ (by decide) (by decide)⟩ .nil))) (by decide) (by decide) (.inl rfl) _ _ (by decide) (by decide)
  · exact mv c!"1" [(c!" ", c!"X0"), (c!" ", c!"Y0"), (c!" ", c!"E4")] [(c!" ", c!"X10.5"), (c!" ", c!"Y-2"), (c!" ", c!"E4")] []
      (by decide) (by decide) (.cons ⟨rfl, wordX (a := 0) (by decide +kernel) (by decide +kernel)⟩ (.cons ⟨rfl, wordY (a := 0) (by decide +kernel) (by decide +kernel)⟩ (.cons ⟨rfl, sm _ _ (by decide) (by decide)⟩ .nil))) (by decide) (by decide) (.inl rfl) _ _ (by decide) (by decide)
  · exact mv c!"0" [(c!" ", c!"F7800"), (c!" ", c!"X2"), (c!" ", c!"Y2")] [(c!" ", c!"F7800"), (c!" ", c!"X12.5"), (c!" ", c!"Y0")] []
      (by decide) (by decide) (.cons ⟨rfl, sm _ _ (by decide) (by decide)⟩ (.cons ⟨rfl, wordX (a := 2) (by decide +kernel) (by decide +kernel)⟩ (.cons ⟨rfl, wordY (a := 2) (by decide +kernel) (by decide +kernel)⟩ .nil))) (by decide) (by decide) (.inl rfl) _ _ (by decide) (by decide)
  · exact mv c!"1" [(c!" ", c!"F1200"), (c!" ", c!"X8"), (c!" ", c!"Y2"), (c!" ", c!"E5")] [(c!" ", c!"F1200"), (c!" ", c!"X18.5"), (c!" ", c!"Y0"), (c!" ", c!"E5")] c!" ; last"
      (by decide) (by decide) (.cons ⟨rfl, sm _ _ (by decide) (by decide)⟩ (.cons ⟨rfl, wordX (a := 8) (by decide +kernel) (by decide +kernel)⟩ (.cons ⟨rfl, wordY (a := 2) (by decide +kernel) (by decide +kernel)⟩ (.cons ⟨rfl, sm _ _ (by decide) (by decide)⟩ .nil)))) (by decide) (by decide) (.inr ⟨c!" ", c!" last", rfl, by decide, by decide⟩) _ _ (by decide) (by decide)

/-! ### moves that leave an axis out -/

/-- A wall whose first move goes along X only. -/
def axisHere : List Str :=
  [c!"G1 Z0.3 F7800", c!"G0 X0 Y0 F7800", c!";TYPE:WALL-OUTER", c!"G1 F1200 X1 E1", c!"G1 X1 Y1 E2", c!"G1 X0 Y1 E3", c!"G1 X0 Y0 E4",
   c!";TYPE:FILL", c!"G0 F7800 X2 Y2"]

/-- The same wall 10 mm further back. -/
def axisThere : List Str :=
  [c!"G1 Z0.3 F7800", c!"G0 X0 Y10 F7800", c!";TYPE:WALL-OUTER", c!"G1 F1200 X1 E1", c!"G1 X1 Y11 E2", c!"G1 X0 Y11 E3", c!"G1 X0 Y10 E4",
   c!";TYPE:FILL", c!"G0 F7800 X2 Y12"]

/-- **C101, refuted** for moves that leave X or Y out: if the first move of the first wall names only X, the stretched move
goes to the Y of the origin, wherever the wall is.  Ten millimetres further back the corner at `(1, 10)` is printed at
`(1.004, -0.040)`. -/
theorem C101_one_axis_refuted :
    (∀ p ∈ axisHere.zip axisThere, MovedText (0 : ℚ) 10 p.1 p.2 ∨ p.2 = p.1 ∧ Placeless p.1) ∧
    (loadQ axisHere).lines.map (·.raw) = axisHere ∧ (loadQ axisThere).lines.map (·.raw) = axisThere ∧
    (∃ l ∈ program (stretchQ .cura 1 axisHere), l.raw = c!"G1 X1.024 Y-0.024 E0.96606 F1200.000" ∧ (program (stretchQ .cura 1 axisHere))[3]? = some l) ∧
    (∃ l ∈ program (stretchQ .cura 1 axisThere), l.raw = c!"G1 X1.004 Y-0.040 E0.96000 F1200.000" ∧ (program (stretchQ .cura 1 axisThere))[3]? = some l) ∧
    ¬ List.Forall₂ (ElsewhereUpTo (9 : ℚ) 0 10) (program (stretchQ .cura 1 axisHere)) (program (stretchQ .cura 1 axisThere)) := by
  refine ⟨?_, by decide +kernel, by decide +kernel, by decide +kernel, by decide +kernel, ?_⟩
  · intro p hp
    have sm : ∀ (c : Char) (n : Str), c ∈ c!"ZEFIJ" → (∀ d ∈ n, d ∈ c!"0123456789.+-") → MovedWord (0 : ℚ) 10 (c :: n) (c :: n) :=
      fun c n h1 h2 => .same c n h1 h2
    simp only [axisHere, axisThere, List.zip_cons_cons, List.zip_nil_right, List.mem_cons, List.not_mem_nil, or_false] at hp
    rcases hp with rfl | rfl | rfl | rfl | rfl | rfl | rfl | rfl | rfl
    · exact .inr ⟨rfl, placeless_here (by decide) (by decide)⟩
    · exact .inl ⟨c!"0", [(c!" ", c!"X0"), (c!" ", c!"Y0"), (c!" ", c!"F7800")], [(c!" ", c!"X0"), (c!" ", c!"Y10"), (c!" ", c!"F7800")], [], by decide, by decide,
        .cons ⟨rfl, wordX (a := 0) (by decide +kernel) (by decide +kernel)⟩ (.cons ⟨rfl, wordY (a := 0) (by decide +kernel) (by decide +kernel)⟩ (.cons ⟨rfl, sm _ _ (by decide) (by decide)⟩ .nil)), .inl rfl, by decide, by decide⟩
    · exact .inr ⟨rfl, placeless_here (by decide) (by decide)⟩
    · exact .inl ⟨c!"1", [(c!" ", c!"F1200"), (c!" ", c!"X1"), (c!" ", c!"E1")], [(c!" ", c!"F1200"), (c!" ", c!"X1"), (c!" ", c!"E1")], [], by decide, by decide,
        .cons ⟨rfl, sm _ _ (by decide) (by decide)⟩ (.cons ⟨rfl, wordX (a := 1) (by decide +kernel) (by decide +kernel)⟩ (.cons ⟨rfl, sm _ _ (by decide) (by decide)⟩ .nil)), .inl rfl, by decide, by decide⟩
    · exact .inl ⟨c!"1", [(c!" ", c!"X1"), (c!" ", c!"Y1"), (c!" ", c!"E2")], [(c!" ", c!"X1"), (c!" ", c!"Y11"), (c!" ", c!"E2")], [], by decide, by decide,
        .cons ⟨rfl, wordX (a := 1) (by decide +kernel) (by decide +kernel)⟩ (.cons ⟨rfl, wordY (a := 1) (by decide +kernel) (by decide +kernel)⟩ (.cons ⟨rfl, sm _ _ (by decide) (by decide)⟩ .nil)), .inl rfl, by decide, by decide⟩
    · exact .inl ⟨c!"1", [(c!" ", c!"X0"), (c!" ", c!"Y1"), (c!" ", c!"E3")], [(c!" ", c!"X0"), (c!" ", c!"Y11"), (c!" ", c!"E3")], [], by decide, by decide,
        .cons ⟨rfl, wordX (a := 0) (by decide +kernel) (by decide +kernel)⟩ (.cons ⟨rfl, wordY (a := 1) (by decide +kernel) (by decide +kernel)⟩ (.cons ⟨rfl, sm _ _ (by decide) (by decide)⟩ .nil)), .inl rfl, by decide, by decide⟩
    · exact .inl ⟨c!"1", [(c!" ", c!"X0"), (c!" ", c!"Y0"), (c!" ", c!"E4")], [(c!" ", c!"X0"), (c!" ", c!"Y10"), (c!" ", c!"E4")], [], by decide, by decide,
        .cons ⟨rfl, wordX (a := 0) (by decide +kernel) (by decide +kernel)⟩ (.cons ⟨rfl, wordY (a := 0) (by decide +kernel) (by decide +kernel)⟩ (.cons ⟨rfl, sm _ _ (by decide) (by decide)⟩ .nil)), .inl rfl, by decide, by decide⟩
    · exact .inr ⟨rfl, placeless_here (by decide) (by decide)⟩
    · exact .inl ⟨c!"0", [(c!" ", c!"F7800"), (c!" ", c!"X2"), (c!" ", c!"Y2")], [(c!" ", c!"F7800"), (c!" ", c!"X2"), (c!" ", c!"Y12")], [], by decide, by decide,
        .cons ⟨rfl, sm _ _ (by decide) (by decide)⟩ (.cons ⟨rfl, wordX (a := 2) (by decide +kernel) (by decide +kernel)⟩ (.cons ⟨rfl, wordY (a := 2) (by decide +kernel) (by decide +kernel)⟩ .nil)), .inl rfl, by decide, by decide⟩
  · intro h
    have y1 : ∀ hl : 3 < (program (stretchQ .cura 1 axisHere)).length, ((program (stretchQ .cura 1 axisHere)).get ⟨3, hl⟩).y = some (-24 / 1000) ∧
        XYMove ((program (stretchQ .cura 1 axisHere)).get ⟨3, hl⟩) := by decide +kernel
    have y2 : ∀ hl : 3 < (program (stretchQ .cura 1 axisThere)).length, ((program (stretchQ .cura 1 axisThere)).get ⟨3, hl⟩).y = some (-40 / 1000) := by
      decide +kernel
    have hl : 3 < (program (stretchQ .cura 1 axisHere)).length := by decide +kernel
    have hl' : 3 < (program (stretchQ .cura 1 axisThere)).length := by decide +kernel
    have h3 := h.get hl hl'
    rcases h3 with ⟨_, h4⟩ | ⟨_, _, _, _, _, x, y, x', y', _, hy, _, hy', _, h5⟩
    · exact h4 (y1 hl).2
    · rw [(y1 hl).1] at hy
      rw [y2 hl'] at hy'
      cases hy
      cases hy'
      rw [abs_le] at h5
      linarith [h5.1]

end GCodeUtils
