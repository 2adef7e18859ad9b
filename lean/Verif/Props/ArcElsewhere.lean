import Verif.Props.Placed
import Verif.Props.ArcGeometry
import Verif.Lemmas.ArcElsewhere
import Verif.Lemmas.ArcGuard

/-
  C108: arc optimisation finds the same arcs at another place of the bed.
-/

set_option linter.unusedSectionVars false

namespace GCodeUtils

open Spec

variable {α : Type} [Field α] [LinearOrder α] [IsStrictOrderedRing α] [FloorRing α]

/-! ### before the move to the place -/

theorem before_run (home : Home α) {pre : List Str} (hpre : ∀ r ∈ pre, Preamble r) : ∀ {m n : Machine α} {ls : List (PyLine α)},
    MachRel m m → m.relative = false → Run home m (bare pre) n ls →
    MachRel n n ∧ n.relative = false ∧ (∀ l ∈ ls, MoveOrComment l → l.e = none) ∧ ls.map (·.raw) = pre ∧
      ∀ l r, ls.getLast? = some l → pre.getLast? = some r → l.command = commandOf r (findall (lower r)) := by
  induction pre with
  | nil =>
    intro m n ls h1 h2 h
    cases h
    exact ⟨h1, h2, by simp, rfl, by simp⟩
  | cons r pre ih =>
    intro m n ls h1 h2 h
    cases h with
    | cons hp h =>
      rename_i m1 l ls
      obtain ⟨hpl, hne, hnl, hq⟩ := hpre r (by simp)
      obtain ⟨h91, hq⟩ := hq _ ((findall_reads (lower r) _).1 rfl)
      obtain ⟨hraw, hcm, harg, _⟩ := C76_line home hp _ ((findall_reads (lower r) _).1 rfl)
      have hs := processLine_shift (dx := (0 : α)) (dy := 0) home h1 (r := r) (r' := r) (.inr ⟨rfl, hpl, hne, hnl⟩)
      rw [hp] at hs
      obtain ⟨k1, k2, k3, k4, k5⟩ := ih (fun r hr => hpre r (List.mem_cons_of_mem _ hr)) hs.1 ((processLine_place hp).2.2 (by rw [hcm]; exact h91) h2) h
      refine ⟨k1, k2, ?_, by rw [List.map_cons, hraw, k4], ?_⟩
      · intro k hk
        rcases List.mem_cons.1 hk with rfl | hk
        · rintro (hc | hc)
          · refine no_word hp (k := 'e') (by decide) (hq ?_)
            obtain ⟨c, hc, hc'⟩ := hc
            exact ⟨c, hc, by rw [← hcm, hc']⟩
          · refine harg ?_ 'e' (by decide)
            rw [← hcm, hc]; simp
        · exact k3 k hk
      · intro k r' hk hr'
        cases pre with
        | nil =>
          cases h
          simp only [List.getLast?_singleton, Option.some.injEq] at hk hr'
          rw [← hk, ← hr', hcm]
        | cons r2 pre =>
          cases h with
          | cons hp2 h =>
            rw [List.getLast?_cons_cons] at hk hr'
            exact k5 k r' hk hr'

/-- No arc is found among lines without filament: the optimiser writes them back, or keeps them pending. -/
theorem nothing_found {R : PyLine α → List (PyLine α) → List (PyLine α) → Prop} {x y : List (PyLine α)} (h : Rewrites R x y)
    (hR : ∀ a w g, R a w g → ArcForWindow a w g ∧ ∀ l ∈ w, l.e ≠ none) : (∀ l ∈ x, MoveOrComment l → l.e = none) → y.map (·.raw) = x.map (·.raw) := by
  have hkr : ∀ {l l' : PyLine α}, Kept l l' → l'.raw = l.raw := by
    intro l l' h
    rcases h with rfl | ⟨_, _, _, _, _, _, rfl⟩ <;> rfl
  induction h with
  | done => intro _; rfl
  | keep h _ ih =>
    intro hx
    rw [List.map_cons, List.map_cons, hkr h, ih (fun l hl => hx l (List.mem_cons_of_mem _ hl))]
  | arc h hw hr _ ih =>
    intro hx
    rename_i l l' w w' gen a b _
    obtain ⟨⟨h8, hm, _⟩, he⟩ := hR _ _ _ hr
    cases hw with
    | nil => simp at h8
    | cons h1 _ =>
      rename_i k k' w w' _
      exfalso
      have hk : k'.e = k.e ∧ k'.command = k.command := by
        rcases h1 with rfl | ⟨_, _, _, _, _, _, rfl⟩ <;> exact ⟨rfl, rfl⟩
      apply he k' (by simp)
      rw [hk.1]
      apply hx k (by simp)
      have := hm k' (by simp)
      unfold MoveOrComment IsMove at this ⊢
      rwa [hk.2] at this

/-- After a command that is no move nothing is pending. -/
theorem pending_none {t : Trig α} {s s' : ArcSt α} {l : PyLine α} {r : FResult α} (hc : l.command ≠ none) (hm : l.inMoves = false)
    (h : arcFilter (arcOps t) s l = .ok (s', r)) : s'.queue = [] := by
  unfold arcFilter at h
  have hi : inheritPos s.queue l = l := by
    unfold inheritPos
    cases hl : l.command with
    | none => exact absurd hl hc
    | some c => rfl
  simp only [hi, hm, Bool.not_false, if_true, Bool.false_or, decide_eq_true_eq, if_neg hc] at h
  split_ifs at h
  · cases he : (arcOps t).emit s.queue l with
    | error e => rw [he] at h; cases h
    | ok r => rw [he] at h; cases h; rfl
  · cases h; rfl
  · cases h; rfl

theorem pending_after {t : Trig α} {ls out : List (PyLine α)} {s' : ArcSt α} (h : filterLines (arcFilter (arcOps t)) {} ls = .ok (s', out))
    (hl : ∀ l, ls.getLast? = some l → l.command ≠ none ∧ l.inMoves = false) : s'.queue = [] := by
  rcases List.eq_nil_or_concat ls with rfl | ⟨a, l, rfl⟩
  · simp only [filterLines, Except.ok.injEq, Prod.mk.injEq] at h
    rw [← h.1]
  · rw [List.concat_eq_append] at h hl
    rw [filterLines_append] at h
    obtain ⟨h1, h2⟩ := hl l (by simp)
    cases ha : filterLines (arcFilter (arcOps t)) {} a with
    | error e => rw [ha] at h; cases h
    | ok p =>
      obtain ⟨s1, o1⟩ := p
      rw [ha] at h
      simp only [filterLines] at h
      cases hb : arcFilter (arcOps t) s1 l with
      | error e => rw [hb] at h; cases h
      | ok q =>
        obtain ⟨s2, o2⟩ := q
        rw [hb] at h
        simp only [Except.ok.injEq, Prod.mk.injEq] at h
        rw [← h.1]
        exact pending_none h1 h2 hb

/-- **C108.**  Take a program, and the same program with all X and Y of its moves shifted; before the move to the place only
lines that name no place and push no filament, the last of them a command that is no move.  Arc optimisation of the two
either fails with the same error or gives programs that correspond line by line: the same lines are retained, the same
windows are replaced, and each arc has the same text but for its end point, which is shifted up to 0.001 mm.
Missing: programs that home or set coordinates on the way, relative moves, moves with one of X and Y before the first with
both; and that the second program loads whenever the first does. -/
theorem C108_elsewhere_partial (env : Env α) (home : Home α) (data data' : List Str) (dx dy : α) (g g' : GCode α)
    (h : GCode.load env data false home = .ok g) (h' : GCode.load env data' false home = .ok g')
    (hel : SetElsewhere dx dy (g.lines.map (·.raw)) (g'.lines.map (·.raw))) (t : Trig α) :
    (∃ e, g.optimizeArcs t = .error e ∧ g'.optimizeArcs t = .error e) ∨
      ∃ o o', g.optimizeArcs t = .ok o ∧ g'.optimizeArcs t = .ok o' ∧
        List.Forall₂ (OptimisedElsewhere dx dy) ((program o).map (·.raw)) ((program o').map (·.raw)) := by
  obtain ⟨pre, mv, mv', post, post', e1, e2, hpre, hlast, hmv, hpost, hput⟩ := hel
  obtain ⟨ls, hrun, hl⟩ := load_run' h
  obtain ⟨ls', hrun', hl'⟩ := load_run' h'
  have hb : ∀ a b : List Str, (bare (a ++ b) : List (PyLine α)) = bare a ++ bare b := by
    intro a b; unfold bare; rw [List.map_append]
  rw [e1, hb] at hrun
  rw [e2, hb] at hrun'
  obtain ⟨m1, oa, ob, hls, r1, r2⟩ := hrun.split
  obtain ⟨m1', oa', ob', hls', r1', r2'⟩ := hrun'.split
  obtain ⟨rfl, rfl⟩ := r1.det r1'
  have hp1 : program g = oa ++ ob := (load_indexed h).flat.symm.trans ((hl rfl).trans hls)
  have hp2 : program g' = oa ++ ob' := (load_indexed h').flat.symm.trans ((hl' rfl).trans hls')
  obtain ⟨b1, b2, b3, b4, b5⟩ := before_run home hpre (m := Machine.init) ⟨rfl, rfl, rfl, rfl, rfl, rfl, rfl, rfl, rfl, rfl, rfl, rfl⟩ rfl r1
  have htw : List.Forall₂ (Twin dx dy) ob ob' := by
    cases r2 with
    | cons p r2 =>
      cases r2' with
      | cons p' r2' =>
        obtain ⟨k1, ⟨k2, k3⟩, k4⟩ := twin_step home (m := m1) (m' := m1) ⟨b1, b2, rfl, rfl⟩ (.inl hmv) (.inl hmv) p p'
        exact .cons k4 (twin_run home hpost hput k1 k2 k3 r2 r2')
  have f1 := optimizeArcs_flat t g (load_layers_ne h)
  have f2 := optimizeArcs_flat t g' (load_layers_ne h')
  rw [hp1, filterLines_append] at f1
  rw [hp2, filterLines_append] at f2
  cases hf : filterLines (arcFilter (arcOps t)) {} oa with
  | error e =>
    left
    rw [hf] at f1 f2
    refine ⟨e, ?_⟩
    rcases f1.outcomes with ⟨e1, k1, k2⟩ | ⟨_, _, _, k2, _⟩
    · rcases f2.outcomes with ⟨e2, k3, k4⟩ | ⟨_, _, _, k4, _⟩
      · cases k2; cases k4; exact ⟨k1, k3⟩
      · cases k4
    · cases k2
  | ok p =>
    obtain ⟨s1, o1⟩ := p
    rw [hf] at f1 f2
    simp only at f1 f2
    have hq : s1.queue = [] := by
      refine pending_after hf ?_
      intro l hll
      have hpn : pre ≠ [] := by
        rintro rfl
        cases r1
        simp at hll
      obtain ⟨r, hr⟩ : ∃ r, pre.getLast? = some r := ⟨_, List.getLast?_eq_getLast_of_ne_nil hpn⟩
      obtain ⟨k, hk1, hk2⟩ := hlast r hr _ ((findall_reads (lower r) _).1 rfl)
      have hc := b5 l r hll hr
      rw [hk1] at hc
      refine ⟨by rw [hc]; simp, ?_⟩
      unfold PyLine.inMoves
      rw [hc]
      simpa [moveGcodes] using hk2
    have hout : o1.map (·.raw) = pre := by
      have hg := arcFilter_guard (arcOps_last (t := t)) oa {} ⟨List.IsChain.nil, _, run_etrace r1, by simp⟩
      rw [hf] at hg
      have hrw := arcFilter_rewrites (ops := guardOps (arcOps t) (List.IsChain EStep)) (R := fun start w gen => ArcReplacement t start w gen ∧ ∀ l ∈ w, l.e ≠ none)
        guard_replaces oa (queueInv_fresh _) List.Forall₂.nil hg
      rw [hq, List.append_nil, List.nil_append] at hrw
      rw [nothing_found hrw.2 (fun a w g k => ⟨k.1.1, k.2⟩) b3, b4]
    have hself : List.Forall₂ (OptimisedElsewhere dx dy) pre pre := by
      rw [List.forall₂_same]
      intro r hr
      obtain ⟨x1, x2, x3, _⟩ := hpre r hr
      exact .inl (.inr ⟨rfl, x1, x2, x3⟩)
    have hoe : ∀ {a b : List (PyLine α)}, List.Forall₂ (OutTwin dx dy) a b → List.Forall₂ (OptimisedElsewhere dx dy) (a.map (·.raw)) (b.map (·.raw)) := by
      intro a b hab
      rw [List.forall₂_map_left_iff, List.forall₂_map_right_iff]
      refine hab.imp ?_
      rintro l l' (k | k | k)
      · exact .inl k.text
      · exact .inr (.inl k)
      · exact .inr (.inr k)
    have hqt : QueueTwin dx dy s1 s1 := by
      refine ⟨?_, rfl⟩
      rw [hq]; exact .nil
    rcases (filterLines_twin t htw hqt).outcomes with ⟨e, k1, k2⟩ | ⟨⟨s2, o2⟩, ⟨s2', o2'⟩, k1, k2, k3, k4⟩
    · left
      rw [k1] at f1
      rw [k2] at f2
      refine ⟨e, ?_⟩
      rcases f1.outcomes with ⟨e1, k1, k2⟩ | ⟨_, _, _, k2, _⟩
      · rcases f2.outcomes with ⟨e2, k3, k4⟩ | ⟨_, _, _, k4, _⟩
        · cases k2; cases k4; exact ⟨k1, k3⟩
        · cases k4
      · cases k2
    · right
      rw [k1] at f1
      rw [k2] at f2
      rcases f1.outcomes with ⟨_, _, k⟩ | ⟨o, p, c1, c2, c3⟩
      · cases k
      rcases f2.outcomes with ⟨_, _, k⟩ | ⟨o', p', c4, c5, c6⟩
      · cases k
      cases c2
      cases c5
      refine ⟨o, o', c1, c4, ?_⟩
      rw [c3, c6]
      simp only [List.map_append, hout, List.append_assoc]
      exact List.rel_append hself (List.rel_append (hoe k4) (hoe (forall₂_left k3.1)))

/-! ### an example -/

/-- An arc after homing. -/
def bowHere : List Str :=
  [c!"G28", c!"G92 E0", c!"G1 X60.000 Y50.000 E1.0000 F1800", c!"G1 X59.659 Y52.588 E1.2611",
   c!"G1 X58.660 Y55.000 E1.5221", c!"G1 X57.071 Y57.071 E1.7832", c!"G1 X55.000 Y58.660 E2.0442", c!"G1 X52.588 Y59.659 E2.3053",
   c!"G1 X50.000 Y60.000 E2.5663", c!"G1 X47.412 Y59.659 E2.8274", c!"G1 X45.000 Y58.660 E3.0884", c!"G1 X42.929 Y57.071 E3.3495",
   c!"M107"]

/-- The same 20 mm to the right and 12.5 mm to the front. -/
def bowThere : List Str :=
  [c!"G28", c!"G92 E0", c!"G1 X80.000 Y37.500 E1.0000 F1800", c!"G1 X79.659 Y40.088 E1.2611",
   c!"G1 X78.660 Y42.500 E1.5221", c!"G1 X77.071 Y44.571 E1.7832", c!"G1 X75.000 Y46.160 E2.0442", c!"G1 X72.588 Y47.159 E2.3053",
   c!"G1 X70.000 Y47.500 E2.5663", c!"G1 X67.412 Y47.159 E2.8274", c!"G1 X65.000 Y46.160 E3.0884", c!"G1 X62.929 Y44.571 E3.3495",
   c!"M107"]

/-- The hypotheses of `C108_elsewhere_partial` are met, and an arc is found at both places. -/
theorem bow_elsewhere : GCode.load qEnv bowHere = .ok (loadQ bowHere) ∧ GCode.load qEnv bowThere = .ok (loadQ bowThere) ∧
    SetElsewhere (20 : ℚ) (-25 / 2) ((loadQ bowHere).lines.map (·.raw)) ((loadQ bowThere).lines.map (·.raw)) ∧
    (loadQ bowHere).optimizeArcs qTrig = .ok (arcsQ bowHere) ∧ (loadQ bowThere).optimizeArcs qTrig = .ok (arcsQ bowThere) ∧
    (program (arcsQ bowHere)).map (·.raw) = [c!"G28", c!"G92 E0", c!"G1 X60.000 Y50.000 E1.0000 F1800",
      c!"G3 X42.929 Y57.071 E3.35622 F1800.000 I-10.000 J0.000; generated from 9 segments", c!"M107"] ∧
    (program (arcsQ bowThere)).map (·.raw) = [c!"G28", c!"G92 E0", c!"G1 X80.000 Y37.500 E1.0000 F1800",
      c!"G3 X62.929 Y44.571 E3.35622 F1800.000 I-10.000 J0.000; generated from 9 segments", c!"M107"] := by
  have e1 : (loadQ bowHere).lines.map (·.raw) = bowHere := by decide +kernel
  have e2 : (loadQ bowThere).lines.map (·.raw) = bowThere := by decide +kernel
  refine ⟨by decide +kernel, by decide +kernel, ?_, by decide +kernel, by decide +kernel, by decide +kernel, by decide +kernel⟩
  rw [e1, e2]
  have sm : ∀ (c : Char) (n : Str), c ∈ c!"ZEFIJ" → (∀ d ∈ n, d ∈ c!"0123456789.+-") → MovedWord (20 : ℚ) (-25 / 2) (c :: n) (c :: n) :=
    fun c n h1 h2 => .same c n h1 h2
  refine ⟨[c!"G28", c!"G92 E0"], _, _, _, _, rfl, rfl, ?_, ?_, ?_, ?_, ?_⟩
  · intro r hr
    simp only [List.mem_cons, List.not_mem_nil, or_false] at hr
    rcases hr with rfl | rfl
    · exact preamble_here (by decide) (by decide) (by decide) (by decide)
    · refine ⟨placeless_here (by decide) (by decide), fun k => absurd k.1 (by decide), by decide, ?_⟩
      intro ws hws
      rw [← (findall_reads _ ws).2 hws]
      exact ⟨by decide, fun k => absurd k (by decide)⟩
  · intro r hr
    simp only [List.getLast?_cons_cons, List.getLast?_singleton, Option.some.injEq] at hr
    subst hr
    intro ws hws
    rw [← (findall_reads _ ws).2 hws]
    exact ⟨c!"G92", by decide, by decide⟩
  · exact ⟨c!"1", [(c!" ", c!"X60.000"), (c!" ", c!"Y50.000"), (c!" ", c!"E1.0000"), (c!" ", c!"F1800")],
        [(c!" ", c!"X80.000"), (c!" ", c!"Y37.500"), (c!" ", c!"E1.0000"), (c!" ", c!"F1800")], [], by decide, by decide,
        .cons ⟨rfl, wordX (a := 60) (by decide +kernel) (by decide +kernel)⟩ (.cons ⟨rfl, wordY (a := 50) (by decide +kernel) (by decide +kernel)⟩ (.cons ⟨rfl, sm _ _ (by decide) (by decide)⟩ (.cons ⟨rfl, sm _ _ (by decide) (by decide)⟩ .nil))),
        by decide, by decide, .inl rfl, by decide, by decide⟩
  · refine .cons (.inl ?_) (.cons (.inl ?_) (.cons (.inl ?_) (.cons (.inl ?_) (.cons (.inl ?_) (.cons (.inl ?_) (.cons (.inl ?_) (.cons (.inl ?_) (.cons (.inl ?_) (.cons (kept_here (by decide) (by decide) (by decide) (by decide)) .nil)))))))))
    · exact ⟨c!"1", [(c!" ", c!"X59.659"), (c!" ", c!"Y52.588"), (c!" ", c!"E1.2611")],
        [(c!" ", c!"X79.659"), (c!" ", c!"Y40.088"), (c!" ", c!"E1.2611")], [], by decide, by decide,
        .cons ⟨rfl, wordX (a := (59659 / 1000)) (by decide +kernel) (by decide +kernel)⟩ (.cons ⟨rfl, wordY (a := (13147 / 250)) (by decide +kernel) (by decide +kernel)⟩ (.cons ⟨rfl, sm _ _ (by decide) (by decide)⟩ .nil)),
        by decide, by decide, .inl rfl, by decide, by decide⟩
    · exact ⟨c!"1", [(c!" ", c!"X58.660"), (c!" ", c!"Y55.000"), (c!" ", c!"E1.5221")],
        [(c!" ", c!"X78.660"), (c!" ", c!"Y42.500"), (c!" ", c!"E1.5221")], [], by decide, by decide,
        .cons ⟨rfl, wordX (a := (2933 / 50)) (by decide +kernel) (by decide +kernel)⟩ (.cons ⟨rfl, wordY (a := 55) (by decide +kernel) (by decide +kernel)⟩ (.cons ⟨rfl, sm _ _ (by decide) (by decide)⟩ .nil)),
        by decide, by decide, .inl rfl, by decide, by decide⟩
    · exact ⟨c!"1", [(c!" ", c!"X57.071"), (c!" ", c!"Y57.071"), (c!" ", c!"E1.7832")],
        [(c!" ", c!"X77.071"), (c!" ", c!"Y44.571"), (c!" ", c!"E1.7832")], [], by decide, by decide,
        .cons ⟨rfl, wordX (a := (57071 / 1000)) (by decide +kernel) (by decide +kernel)⟩ (.cons ⟨rfl, wordY (a := (57071 / 1000)) (by decide +kernel) (by decide +kernel)⟩ (.cons ⟨rfl, sm _ _ (by decide) (by decide)⟩ .nil)),
        by decide, by decide, .inl rfl, by decide, by decide⟩
    · exact ⟨c!"1", [(c!" ", c!"X55.000"), (c!" ", c!"Y58.660"), (c!" ", c!"E2.0442")],
        [(c!" ", c!"X75.000"), (c!" ", c!"Y46.160"), (c!" ", c!"E2.0442")], [], by decide, by decide,
        .cons ⟨rfl, wordX (a := 55) (by decide +kernel) (by decide +kernel)⟩ (.cons ⟨rfl, wordY (a := (2933 / 50)) (by decide +kernel) (by decide +kernel)⟩ (.cons ⟨rfl, sm _ _ (by decide) (by decide)⟩ .nil)),
        by decide, by decide, .inl rfl, by decide, by decide⟩
    · exact ⟨c!"1", [(c!" ", c!"X52.588"), (c!" ", c!"Y59.659"), (c!" ", c!"E2.3053")],
        [(c!" ", c!"X72.588"), (c!" ", c!"Y47.159"), (c!" ", c!"E2.3053")], [], by decide, by decide,
        .cons ⟨rfl, wordX (a := (13147 / 250)) (by decide +kernel) (by decide +kernel)⟩ (.cons ⟨rfl, wordY (a := (59659 / 1000)) (by decide +kernel) (by decide +kernel)⟩ (.cons ⟨rfl, sm _ _ (by decide) (by decide)⟩ .nil)),
        by decide, by decide, .inl rfl, by decide, by decide⟩
    · exact ⟨c!"1", [(c!" ", c!"X50.000"), (c!" ", c!"Y60.000"), (c!" ", c!"E2.5663")],
        [(c!" ", c!"X70.000"), (c!" ", c!"Y47.500"), (c!" ", c!"E2.5663")], [], by decide, by decide,
        .cons ⟨rfl, wordX (a := 50) (by decide +kernel) (by decide +kernel)⟩ (.cons ⟨rfl, wordY (a := 60) (by decide +kernel) (by decide +kernel)⟩ (.cons ⟨rfl, sm _ _ (by decide) (by decide)⟩ .nil)),
        by decide, by decide, .inl rfl, by decide, by decide⟩
    · exact ⟨c!"1", [(c!" ", c!"X47.412"), (c!" ", c!"Y59.659"), (c!" ", c!"E2.8274")],
        [(c!" ", c!"X67.412"), (c!" ", c!"Y47.159"), (c!" ", c!"E2.8274")], [], by decide, by decide,
        .cons ⟨rfl, wordX (a := (11853 / 250)) (by decide +kernel) (by decide +kernel)⟩ (.cons ⟨rfl, wordY (a := (59659 / 1000)) (by decide +kernel) (by decide +kernel)⟩ (.cons ⟨rfl, sm _ _ (by decide) (by decide)⟩ .nil)),
        by decide, by decide, .inl rfl, by decide, by decide⟩
    · exact ⟨c!"1", [(c!" ", c!"X45.000"), (c!" ", c!"Y58.660"), (c!" ", c!"E3.0884")],
        [(c!" ", c!"X65.000"), (c!" ", c!"Y46.160"), (c!" ", c!"E3.0884")], [], by decide, by decide,
        .cons ⟨rfl, wordX (a := 45) (by decide +kernel) (by decide +kernel)⟩ (.cons ⟨rfl, wordY (a := (2933 / 50)) (by decide +kernel) (by decide +kernel)⟩ (.cons ⟨rfl, sm _ _ (by decide) (by decide)⟩ .nil)),
        by decide, by decide, .inl rfl, by decide, by decide⟩
    · exact ⟨c!"1", [(c!" ", c!"X42.929"), (c!" ", c!"Y57.071"), (c!" ", c!"E3.3495")],
        [(c!" ", c!"X62.929"), (c!" ", c!"Y44.571"), (c!" ", c!"E3.3495")], [], by decide, by decide,
        .cons ⟨rfl, wordX (a := (42929 / 1000)) (by decide +kernel) (by decide +kernel)⟩ (.cons ⟨rfl, wordY (a := (57071 / 1000)) (by decide +kernel) (by decide +kernel)⟩ (.cons ⟨rfl, sm _ _ (by decide) (by decide)⟩ .nil)),
        by decide, by decide, .inl rfl, by decide, by decide⟩
  · intro r hr
    simp only [List.mem_cons, List.not_mem_nil, or_false] at hr
    rcases hr with rfl | rfl | rfl | rfl | rfl | rfl | rfl | rfl | rfl | rfl <;> exact put_here (by decide) (by decide)

/-- An arc that begins in the origin of the bed. -/
def cornerHere : List Str :=
  [c!"G1 Z0.3 F1800", c!"G1 X2.588 Y0.341 E0.2611", c!"G1 X5.000 Y1.340 E0.5221", c!"G1 X7.071 Y2.929 E0.7832",
   c!"G1 X8.660 Y5.000 E1.0442", c!"G1 X9.659 Y7.412 E1.3053", c!"G1 X10.000 Y10.000 E1.5663", c!"G1 X9.659 Y12.588 E1.8274",
   c!"G1 X8.660 Y15.000 E2.0884", c!"M107"]

/-- The same text 50 mm to the right. -/
def cornerThere : List Str :=
  [c!"G1 Z0.3 F1800", c!"G1 X52.588 Y0.341 E0.2611", c!"G1 X55.000 Y1.340 E0.5221", c!"G1 X57.071 Y2.929 E0.7832",
   c!"G1 X58.660 Y5.000 E1.0442", c!"G1 X59.659 Y7.412 E1.3053", c!"G1 X60.000 Y10.000 E1.5663", c!"G1 X59.659 Y12.588 E1.8274",
   c!"G1 X58.660 Y15.000 E2.0884", c!"M107"]

/-- **C108, refuted** without the command before the move to the place: the optimiser takes the position of the last move
before it, the origin, for the start of an arc. -/
theorem C108_refuted : PlacedElsewhere (50 : ℚ) 0 cornerHere cornerThere ∧
    (program (arcsQ cornerHere)).map (·.raw) = [c!"G1 Z0.3 F1800", c!"G3 X8.660 Y15.000 E2.09438 F1800.000 I0.000 J10.000; generated from 8 segments", c!"M107"] ∧
    (program (arcsQ cornerThere)).map (·.raw) = cornerThere := by
  refine ⟨?_, by decide +kernel, by decide +kernel⟩
  have sm : ∀ (c : Char) (n : Str), c ∈ c!"ZEFIJ" → (∀ d ∈ n, d ∈ c!"0123456789.+-") → MovedWord (50 : ℚ) 0 (c :: n) (c :: n) :=
    fun c n h1 h2 => .same c n h1 h2
  refine ⟨[c!"G1 Z0.3 F1800"], _, _, _, _, rfl, rfl, ?_, ?_, ?_, ?_⟩
  · intro r hr
    rw [List.mem_singleton] at hr
    subst hr
    exact preamble_here (by decide) (by decide) (by decide) (by decide)
  · exact ⟨c!"1", [(c!" ", c!"X2.588"), (c!" ", c!"Y0.341"), (c!" ", c!"E0.2611")],
        [(c!" ", c!"X52.588"), (c!" ", c!"Y0.341"), (c!" ", c!"E0.2611")], [], by decide, by decide,
        .cons ⟨rfl, wordX (a := (647 / 250)) (by decide +kernel) (by decide +kernel)⟩ (.cons ⟨rfl, wordY (a := (341 / 1000)) (by decide +kernel) (by decide +kernel)⟩ (.cons ⟨rfl, sm _ _ (by decide) (by decide)⟩ .nil)),
        by decide, by decide, .inl rfl, by decide, by decide⟩
  · refine .cons (.inl ?_) (.cons (.inl ?_) (.cons (.inl ?_) (.cons (.inl ?_) (.cons (.inl ?_) (.cons (.inl ?_) (.cons (.inl ?_) (.cons (kept_here (by decide) (by decide) (by decide) (by decide)) .nil)))))))
    · exact ⟨c!"1", [(c!" ", c!"X5.000"), (c!" ", c!"Y1.340"), (c!" ", c!"E0.5221")],
        [(c!" ", c!"X55.000"), (c!" ", c!"Y1.340"), (c!" ", c!"E0.5221")], [], by decide, by decide,
        .cons ⟨rfl, wordX (a := 5) (by decide +kernel) (by decide +kernel)⟩ (.cons ⟨rfl, wordY (a := (67 / 50)) (by decide +kernel) (by decide +kernel)⟩ (.cons ⟨rfl, sm _ _ (by decide) (by decide)⟩ .nil)),
        by decide, by decide, .inl rfl, by decide, by decide⟩
    · exact ⟨c!"1", [(c!" ", c!"X7.071"), (c!" ", c!"Y2.929"), (c!" ", c!"E0.7832")],
        [(c!" ", c!"X57.071"), (c!" ", c!"Y2.929"), (c!" ", c!"E0.7832")], [], by decide, by decide,
        .cons ⟨rfl, wordX (a := (7071 / 1000)) (by decide +kernel) (by decide +kernel)⟩ (.cons ⟨rfl, wordY (a := (2929 / 1000)) (by decide +kernel) (by decide +kernel)⟩ (.cons ⟨rfl, sm _ _ (by decide) (by decide)⟩ .nil)),
        by decide, by decide, .inl rfl, by decide, by decide⟩
    · exact ⟨c!"1", [(c!" ", c!"X8.660"), (c!" ", c!"Y5.000"), (c!" ", c!"E1.0442")],
        [(c!" ", c!"X58.660"), (c!" ", c!"Y5.000"), (c!" ", c!"E1.0442")], [], by decide, by decide,
        .cons ⟨rfl, wordX (a := (433 / 50)) (by decide +kernel) (by decide +kernel)⟩ (.cons ⟨rfl, wordY (a := 5) (by decide +kernel) (by decide +kernel)⟩ (.cons ⟨rfl, sm _ _ (by decide) (by decide)⟩ .nil)),
        by decide, by decide, .inl rfl, by decide, by decide⟩
    · exact ⟨c!"1", [(c!" ", c!"X9.659"), (c!" ", c!"Y7.412"), (c!" ", c!"E1.3053")],
        [(c!" ", c!"X59.659"), (c!" ", c!"Y7.412"), (c!" ", c!"E1.3053")], [], by decide, by decide,
        .cons ⟨rfl, wordX (a := (9659 / 1000)) (by decide +kernel) (by decide +kernel)⟩ (.cons ⟨rfl, wordY (a := (1853 / 250)) (by decide +kernel) (by decide +kernel)⟩ (.cons ⟨rfl, sm _ _ (by decide) (by decide)⟩ .nil)),
        by decide, by decide, .inl rfl, by decide, by decide⟩
    · exact ⟨c!"1", [(c!" ", c!"X10.000"), (c!" ", c!"Y10.000"), (c!" ", c!"E1.5663")],
        [(c!" ", c!"X60.000"), (c!" ", c!"Y10.000"), (c!" ", c!"E1.5663")], [], by decide, by decide,
        .cons ⟨rfl, wordX (a := 10) (by decide +kernel) (by decide +kernel)⟩ (.cons ⟨rfl, wordY (a := 10) (by decide +kernel) (by decide +kernel)⟩ (.cons ⟨rfl, sm _ _ (by decide) (by decide)⟩ .nil)),
        by decide, by decide, .inl rfl, by decide, by decide⟩
    · exact ⟨c!"1", [(c!" ", c!"X9.659"), (c!" ", c!"Y12.588"), (c!" ", c!"E1.8274")],
        [(c!" ", c!"X59.659"), (c!" ", c!"Y12.588"), (c!" ", c!"E1.8274")], [], by decide, by decide,
        .cons ⟨rfl, wordX (a := (9659 / 1000)) (by decide +kernel) (by decide +kernel)⟩ (.cons ⟨rfl, wordY (a := (3147 / 250)) (by decide +kernel) (by decide +kernel)⟩ (.cons ⟨rfl, sm _ _ (by decide) (by decide)⟩ .nil)),
        by decide, by decide, .inl rfl, by decide, by decide⟩
    · exact ⟨c!"1", [(c!" ", c!"X8.660"), (c!" ", c!"Y15.000"), (c!" ", c!"E2.0884")],
        [(c!" ", c!"X58.660"), (c!" ", c!"Y15.000"), (c!" ", c!"E2.0884")], [], by decide, by decide,
        .cons ⟨rfl, wordX (a := (433 / 50)) (by decide +kernel) (by decide +kernel)⟩ (.cons ⟨rfl, wordY (a := 15) (by decide +kernel) (by decide +kernel)⟩ (.cons ⟨rfl, sm _ _ (by decide) (by decide)⟩ .nil)),
        by decide, by decide, .inl rfl, by decide, by decide⟩
  · intro r hr
    simp only [List.mem_cons, List.not_mem_nil, or_false] at hr
    rcases hr with rfl | rfl | rfl | rfl | rfl | rfl | rfl | rfl <;> exact put_here (by decide) (by decide)

end GCodeUtils
