import Verif.Props.Turned
import Verif.Props.Stretch
import Verif.Props.ArcTurned
import Verif.Lemmas.StretchTurned

/-
  C134: stretching treats all directions alike.
-/

set_option linter.unusedSectionVars false

namespace GCodeUtils

open Spec

variable {α : Type} [Field α] [LinearOrder α] [IsStrictOrderedRing α] [FloorRing α]

theorem commentTail_trailing {t : Str} (h : CommentTail t) : t = [] ∨ Trailing t := by
  rcases h with h | ⟨sp, c, rfl, h1, h2⟩
  · exact .inl h
  · refine .inr ⟨⟨sp, c, rfl, fun b hb => by rcases h1 b hb with rfl | rfl <;> decide⟩, ?_⟩
    intro d hd
    rcases List.mem_append.1 hd with hd | hd
    · rcases h1 d hd with rfl | rfl <;> decide
    · rcases List.mem_cons.1 hd with rfl | hd
      · decide
      · exact h2 d hd

theorem turnMarked_of {T : Turn} {l l' : PyLine α} (ht : TurnedLine T l l') (h : TurnSeen T α l.raw l'.raw) : TurnMarked T l l' := by
  obtain ⟨⟨ws, vs, h1, h2, h3, h4, _⟩, ⟨hd, hd', t, n, n', ts, ts', e1, e2, hb, hc, k1, k2, hcmd, hw⟩ | ⟨e, hn, hnl⟩⟩ := h
  · have tk : ∀ {q : Str} {m : Str} {us : List Tok}, Reads letters true (lower q) (some ('g', m) :: us) → toksOf q = some ('g', m) :: us ∧ q ≠ [] := by
      intro q m us hq
      have f := (findall_reads _ _).2 hq
      refine ⟨?_, ?_⟩
      · unfold toksOf; rw [f]; rfl
      · rintro rfl; cases f
    exact .moved hd hd' t n n' ts ts' e1 e2 (tk k1).2 (tk k2).2 (fun c h => hb c (List.mem_append_left _ h)) (fun c h => hb c (List.mem_append_right _ h))
      (commentTail_trailing hc) (tk k1).1 (tk k2).1 hcmd hw ht
  · rw [e] at h2 h4
    have f1 := (findall_reads _ _).2 h1
    have f2 := (findall_reads _ _).2 h2
    rw [f1] at f2
    subst f2
    refine .kept l.raw [] (by simp) (by rw [e]; simp) .nil hn hnl ?_ ?_ ht
    · unfold toksOf; rw [f1]; exact dropN_turn T h3
    · intro w us hk
      unfold toksOf at hk
      rw [f1, afterNumber_eq] at hk
      unfold commandOf at h4
      rw [hk] at h4
      simpa using h4.symm

theorem seen_text {T : Turn} {rs ss : List Str} (h : List.Forall₂ (TurnSeenText T α) rs ss) : List.Forall₂ (TurnText T α) rs ss :=
  h.imp fun _ _ k => k.imp id fun k => ⟨k.1, k.2.1, k.2.2.1⟩

theorem raws_seen {T : Turn} {rs ss : List Str} (h : List.Forall₂ (TurnSeenText T α) rs ss) :
    List.Forall₂ (TurnSeen T α) ((rs.map strip).filter (fun s => !s.isEmpty)) ((ss.map strip).filter (fun s => !s.isEmpty)) := by
  induction h with
  | nil => exact .nil
  | cons h _ ih =>
    simp only [List.map_cons]
    rcases h with ⟨h1, h2⟩ | ⟨h1, h2, h3⟩
    · rw [h1, h2]
      exact ih
    · rw [List.filter_cons_of_pos (by simpa using h1), List.filter_cons_of_pos (by simpa using h2)]
      exact .cons h3 ih

theorem layers_seen {T : Turn} {Ls Ls' : List (Layer α)} (h : List.Forall₂ (fun L L' => L'.z = L.z ∧ List.Forall₂ (TurnedLine T) L.lines L'.lines) Ls Ls') :
    List.Forall₂ (TurnSeen T α) ((Ls.flatMap (·.lines)).map (·.raw)) ((Ls'.flatMap (·.lines)).map (·.raw)) → LinesAlike (TurnMarked T) Ls Ls' := by
  have part : ∀ {a b : List (PyLine α)}, List.Forall₂ (TurnedLine T) a b → ∀ {u v : List (PyLine α)},
      List.Forall₂ (TurnSeen T α) ((a ++ u).map (·.raw)) ((b ++ v).map (·.raw)) →
      List.Forall₂ (TurnMarked T) a b ∧ List.Forall₂ (TurnSeen T α) (u.map (·.raw)) (v.map (·.raw)) := by
    intro a b hab
    induction hab with
    | nil => intro u v h; exact ⟨.nil, h⟩
    | cons h1 _ ih =>
      intro u v h
      simp only [List.cons_append, List.map_cons] at h
      cases h with
      | cons h2 h =>
        obtain ⟨k1, k2⟩ := ih h
        exact ⟨.cons (turnMarked_of h1 h2) k1, k2⟩
  unfold LinesAlike
  induction h with
  | nil => intro _; exact .nil
  | cons h1 _ ih =>
    intro hs
    simp only [List.flatMap_cons] at hs
    obtain ⟨k1, k2⟩ := part h1.2 hs
    exact .cons k1 (ih k2)

/-- **C134**.  A program and the same program turned by a multiple of a right angle or mirrored, with the same comments: reading and
stretching either fail with the same exception or give programs of which the second is the first one, turned in the same way.  Every
line of the second has the X and Y of the first, turned, exactly as they are written, and the same Z, E and F; moves that leave an axis out
are included. -/
theorem C134_turned (T : Turn) (env : Env α) (hh : EvenHypot env.hypot) (home : Home α) (sqrt : α → α) (fuel : ℕ) (slicer : Slicer)
    (repo : StretchRepo α) (profile : ProfileOracle α) {rs ss : List Str} (h : List.Forall₂ (TurnSeenText T α) rs ss) :
    (∃ e, GCode.load env rs false home = .error e ∧ GCode.load env ss false (T.home home) = .error e) ∨
    ∃ g g', GCode.load env rs false home = .ok g ∧ GCode.load env ss false (T.home home) = .ok g' ∧
      ((∃ e, g.stretch sqrt fuel slicer repo profile = .error e ∧ g'.stretch sqrt fuel slicer repo profile = .error e) ∨
        ∃ k k', g.stretch sqrt fuel slicer repo profile = .ok k ∧ g'.stretch sqrt fuel slicer repo profile = .ok k' ∧
          List.Forall₂ (fun L L' => List.Forall₂ (TurnedLine T) L.lines L'.lines) k.allLayers k'.allLayers) := by
  rcases C132_turned T env hh false home (seen_text h) with ⟨e, a, b⟩ | ⟨g, g', a, b, _, _, _, _, _, _, _, _, _, hl, _⟩
  · exact .inl ⟨e, a, b⟩
  refine .inr ⟨g, g', a, b, ?_⟩
  have e1 : ∀ k : GCode α, program k = k.allLayers.flatMap (·.lines) := fun k => by unfold program layerLines; rw [List.flatMap_def]
  have r1 : (program g).map (·.raw) = (rs.map strip).filter (fun s => !s.isEmpty) := by rw [← load_raws a, (load_indexed a).flat]; rfl
  have r2 : (program g').map (·.raw) = (ss.map strip).filter (fun s => !s.isEmpty) := by rw [← load_raws b, (load_indexed b).flat]; rfl
  have hraw := raws_seen h
  rw [← r1, ← r2, e1, e1] at hraw
  rcases (stretch_turned sqrt fuel slicer repo profile (layers_seen hl hraw)).outcomes with k | ⟨k, k', h1, h2, h3⟩
  · exact .inl k
  · exact .inr ⟨k, k', h1, h2, h3⟩

/-! ### an example -/

/-- A test for `TurnSeenText`, for examples. -/
def turnSeenB (T : Turn) (t u : Str) : Bool :=
  let r := strip t; let s := strip u
  let hd := r.takeWhile (· ≠ ';'); let hd' := s.takeWhile (· ≠ ';'); let tl := r.dropWhile (· ≠ ';')
  turnTextB T t u && ((r == [] && s == []) ||
    (r == s && r.head? != some '(' && !r.contains '\n') ||
    (s.dropWhile (· ≠ ';') == tl && (hd ++ hd').all (fun c => c!"GMXYZEFIJ 0123456789.+-".contains c) &&
      tl.all (fun d => d != '(' && d != ')' && d != '\n') &&
      match findall (lower hd), findall (lower hd') with
      | some ('g', n) :: ws, some ('g', n') :: vs =>
        ('G' :: n') == T.cmd ('G' :: n) && ws.length == vs.length && (ws.zip vs).all (fun p => turnWordB T p.1 p.2)
      | _, _ => false))

theorem turnSeenB_sound {T : Turn} {t u : Str} (h : turnSeenB T t u = true) : TurnSeenText T ℚ t u := by
  unfold turnSeenB at h
  simp only [Bool.and_eq_true, Bool.or_eq_true] at h
  obtain ⟨h0, h⟩ := h
  rcases turnTextB_sound h0 with h1 | ⟨h1, h2, h3⟩
  · exact .inl h1
  refine .inr ⟨h1, h2, h3, ?_⟩
  rcases h with (h | ⟨⟨h4, h5⟩, h6⟩) | ⟨⟨⟨h4, h5⟩, h6⟩, h7⟩
  · simp only [beq_iff_eq] at h
    exact absurd h.1 h1
  · simp only [beq_iff_eq, bne_iff_ne, Bool.not_eq_true', List.contains_eq_mem, decide_eq_false_iff_not] at h4 h5 h6
    exact .inr ⟨h4.symm, fun k => h5 k.1, h6⟩
  · left
    split at h7
    · rename_i n ws n' vs e1 e2
      simp only [Bool.and_eq_true, beq_iff_eq] at h7
      simp only [beq_iff_eq] at h4
      refine ⟨(strip t).takeWhile (· ≠ ';'), (strip u).takeWhile (· ≠ ';'), (strip t).dropWhile (· ≠ ';'), n, n', ws, vs,
        List.takeWhile_append_dropWhile.symm, ?_, ?_, ?_, (findall_reads _ _).1 e1, (findall_reads _ _).1 e2, h7.1.1, ?_⟩
      · rw [← h4]; exact List.takeWhile_append_dropWhile.symm
      · intro c hc
        have := List.all_eq_true.1 h5 c hc
        simpa using this
      · unfold CommentTail
        cases hk : (strip t).dropWhile (· ≠ ';') with
        | nil => exact .inl rfl
        | cons d c =>
          right
          have hd : d = ';' := by
            have hne : (strip t).dropWhile (· ≠ ';') ≠ [] := by rw [hk]; simp
            have := List.head_dropWhile_not (fun x : Char => decide (x ≠ ';')) (l := strip t) hne
            simp only [hk, List.head_cons] at this
            simpa using this
          subst hd
          refine ⟨[], c, rfl, by simp, ?_⟩
          intro d hd
          have := List.all_eq_true.1 h6 d (by rw [hk]; exact List.mem_cons_of_mem _ hd)
          simpa [and_assoc] using this
      · refine List.forall₂_iff_zip.2 ⟨h7.1.2, fun {a b} hab => turnWordB_sound ?_⟩
        exact List.all_eq_true.1 h7.2 _ hab
    · cases h7

theorem turnSeens_sound {T : Turn} {a b : List Str} (h1 : a.length = b.length) (h : ∀ p ∈ a.zip b, turnSeenB T p.1 p.2 = true) :
    List.Forall₂ (TurnSeenText T ℚ) a b := List.forall₂_iff_zip.2 ⟨h1, fun {x y} hab => turnSeenB_sound (h (x, y) hab)⟩

/-- A wall, some of its moves along one axis only; then a clockwise arc. -/
def wallNorth : List Str :=
  [c!"G1 Z0.3 F7800", c!"G0 X3 Y1 F7800", c!";TYPE:WALL-OUTER", c!"G1 F1200 X4 E1", c!"G1 Y2 E2", c!"G1 X3 Y2.5 E3 ; far", c!"",
   c!"G1 X3 Y1 E4", c!";TYPE:FILL", c!"G0 F7800 X5 Y2", c!"G2 X7 Y4 I2 J0 E5"]
/-- The same, turned by a right angle. -/
def wallWest : List Str :=
  [c!"G1 Z0.3 F7800", c!"G0 Y3 X-1 F7800", c!";TYPE:WALL-OUTER", c!"G1 F1200 Y4 E1", c!"G1 X-2 E2", c!"G1 Y3 X-2.5 E3 ; far", c!"",
   c!"G1 Y3.0 X-1 E4", c!";TYPE:FILL", c!"G0 F7800 Y5 X-2", c!"G2 Y7 X-4 J2 I0 E5"]
/-- The mirror image. -/
def wallSouth : List Str :=
  [c!"G1 Z0.3 F7800", c!"G0 X3 Y-1 F7800", c!";TYPE:WALL-OUTER", c!"G1 F1200 X4 E1", c!"G1 Y-2 E2", c!"G1 X3 Y-2.5 E3 ; far", c!"",
   c!"G1 X3 Y-1 E4", c!";TYPE:FILL", c!"G0 F7800 X5 Y-2", c!"G3 X7 Y-4 I2 J0 E5"]

/-- The hypotheses of `C134_turned` are met, and the walls are stretched. -/
example : List.Forall₂ (TurnSeenText quarter ℚ) wallNorth wallWest ∧ List.Forall₂ (TurnSeenText mirrorY ℚ) wallNorth wallSouth ∧
    ((program (stretchQ .cura 1 wallNorth)).map (·.raw))[4]? = some c!"G1 X4.040 Y1.999 E1.92000 F1200.000" ∧
    ((program (stretchQ .cura 1 wallWest)).map (·.raw))[4]? = some c!"G1 X-1.999 Y4.040 E1.92000 F1200.000" ∧
    ((program (stretchQ .cura 1 wallSouth)).map (·.raw))[4]? = some c!"G1 X4.040 Y-1.999 E1.92000 F1200.000" :=
  ⟨turnSeens_sound rfl (by decide +kernel), turnSeens_sound rfl (by decide +kernel), by decide +kernel, by decide +kernel, by decide +kernel⟩

end GCodeUtils
