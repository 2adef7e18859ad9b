import Verif.Lemmas.Placed
import Verif.Props.Elsewhere

/-
  C103: an object at another place of the bed has the same analysis, with its bounding box at that place.
-/

set_option linter.unusedSectionVars false

namespace GCodeUtils

open Spec

variable {α : Type} [Field α] [LinearOrder α] [IsStrictOrderedRing α] [FloorRing α]

/-- **C103 (partial).**  Two programs are loaded; the second is the first at another place of the bed.  Both go to their
place by an absolute X/Y move before they extrude, and stay in absolute coordinates without homing, arcs and re-labelling X
or Y.  Then layer heights, estimated layer height, filament length and Z range are the same, the layers have the same heights
and numbers of lines, and, if filament is used, the bounding box of the second program is that of the first, shifted, so
that width and depth are the same.  Not for programs that extrude before they go to their place (`C103_prime_refuted`), and
not for the duration (`C103_duration_refuted`). -/
theorem C103_placed_partial (env : Env α) (home : Home α) (dx dy : α) {data data' : List Str} {g g' : GCode α}
    (hg : GCode.load env data false home = .ok g) (hg' : GCode.load env data' false home = .ok g')
    (h : PlacedElsewhere dx dy (g.lines.map (·.raw)) (g'.lines.map (·.raw))) :
    g'.allZs = g.allZs ∧ g'.est = g.est ∧ g'.filamentLength = g.filamentLength ∧ g'.zmin = g.zmin ∧ g'.zmax = g.zmax ∧ g'.height = g.height ∧
    List.Forall₂ (fun L L' => L'.z = L.z ∧ L'.lines.length = L.lines.length) g.allLayers g'.allLayers ∧
    ∀ fl, g.filamentLength = some fl → 0 < fl →
      g'.xmin = g.xmin.map (· + dx) ∧ g'.xmax = g.xmax.map (· + dx) ∧ g'.ymin = g.ymin.map (· + dy) ∧ g'.ymax = g.ymax.map (· + dy) ∧
      g'.width = g.width ∧ g'.depth = g.depth := by
  obtain ⟨pre, mv, mv', post, post', e1, e2, hpre, hmv, hpost, hput⟩ := h
  have e : ∀ d : List Str, readLines (α := α) d = ((readLines (α := α) d).map (·.raw)).map (fun r => { raw := r }) := by
    intro d
    unfold readLines
    simp [Function.comp_def]
  rcases load_ok hg with ⟨_, rfl⟩ | ⟨_, s, hs, rfl⟩
  · simp [GCode.blank] at e1
  rcases load_ok hg' with ⟨_, rfl⟩ | ⟨_, s', hs', rfl⟩
  · simp [GCode.blank] at e2
  have r1 := fold_raws hs
  have r2 := fold_raws hs'
  have e1' : s.done.map (·.raw) = pre ++ mv :: post := e1
  have e2' : s'.done.map (·.raw) = pre ++ mv' :: post' := e2
  rw [r1] at e1'
  rw [r2] at e2'
  have d1 : (readLines (α := α) data).map (·.raw) = pre ++ mv :: post := e1'
  have d2 : (readLines (α := α) data').map (·.raw) = pre ++ mv' :: post' := e2'
  rw [e data, d1, List.map_append, List.foldlM_append] at hs
  rw [e data', d2, List.map_append, List.foldlM_append] at hs'
  simp only [bind, Except.bind] at hs hs'
  cases hb : (pre.map fun r => ({ raw := r } : PyLine α)).foldlM (buildStep env false home) (BuildSt.start (GCode.blank false home)) with
  | error er => rw [hb] at hs; cases hs
  | ok b =>
    rw [hb] at hs hs'
    simp only [List.map_cons, List.foldlM_cons, bind, Except.bind] at hs hs'
    have hpr := pre_fold env home pre hpre (s := BuildSt.start (GCode.blank false home)) ⟨rfl, le_refl _, rfl, rfl, rfl, rfl, rfl⟩ hb
    have hpe : List.Forall₂ (Elsewhere dx dy) pre pre := by
      refine List.forall₂_same.2 fun r hr => .inr ⟨rfl, (hpre r hr).1, (hpre r hr).2.1, (hpre r hr).2.2.1⟩
    have hbr := build_shift env home hpe (s := BuildSt.start (GCode.blank false home)) (s' := BuildSt.start (GCode.blank false home))
        ⟨⟨rfl, rfl, rfl, rfl, rfl, rfl, rfl, rfl, rfl, rfl, rfl, rfl⟩, ⟨.nil, rfl, rfl, rfl, rfl, .nil, rfl⟩⟩ hb hb
    have hpl : PlaceRel dx dy b b := by
      obtain ⟨n1, n2, n3, n4⟩ := hpr.bb
      refine ⟨hbr, rfl, rfl, hpr.abs, ?_, rfl, rfl, hpr.total, fun k => ?_⟩
      · unfold BoxShift; rw [n1, n2, n3, n4]; exact ⟨rfl, rfl, rfl, rfl⟩
      · rw [hpr.max] at k; exact absurd k (lt_irrefl _)
    split at hs
    · cases hs
    split at hs'
    · cases hs'
    rename_i _ v hv _ v' hv'
    obtain ⟨k1, k2⟩ := place_step env home hpl (.inl hmv) (.inl hmv) hv hv'
    have hf := place_fold env home hpost hput k1 k2 hs hs'
    have hcl := closeLast_shift hf.build.2 s.ds.total s.ds.layerBegin s'.ds.total s'.ds.layerBegin
    have hlen := hf.build.2.cur.length_eq
    have hne : (s.ls.curLines.isEmpty = s'.ls.curLines.isEmpty) := by
      cases h1 : s.ls.curLines <;> cases h2 : s'.ls.curLines <;> rw [h1, h2] at hlen <;> first | rfl | cases hlen
    have cl : ∀ (t : LayerSt α) (x y : α), (closeLast t x y).allZs = (if t.curLines.isEmpty then t.allZs else addZ t.hasExtrusion t.allZs t.prevZ) ∧
        (closeLast t x y).est = t.est := by
      intro t x y
      unfold closeLast
      by_cases ht : t.curLines.isEmpty = true
      · rw [if_pos ht, if_pos ht]; exact ⟨rfl, rfl⟩
      · rw [if_neg ht, if_neg ht]; exact ⟨rfl, rfl⟩
    have hz : (closeLast s'.ls s'.ds.total s'.ds.layerBegin).allZs = (closeLast s.ls s.ds.total s.ds.layerBegin).allZs := by
      rw [(cl _ _ _).1, (cl _ _ _).1, ← hne, hf.zs, hf.ext, hf.build.2.prevZ]
    have hest : (closeLast s'.ls s'.ds.total s'.ds.layerBegin).est = (closeLast s.ls s.ds.total s.ds.layerBegin).est := by
      rw [(cl _ _ _).2, (cl _ _ _).2, hf.build.2.est]
    have hmax := hf.build.1.max
    refine ⟨hz, hest, ?_, ?_, ?_, ?_, ?_, ?_⟩
    · simp only [finalize, hmax]
    · simp only [finalize, hz]
    · simp only [finalize, hz]
    · simp only [finalize, hz]
    · have hall : ∀ (q : GCode α) (t : BuildSt α), (finalize q t).allLayers = (closeLast t.ls t.ds.total t.ds.layerBegin).allLayers ++ [⟨[], none, some 0⟩] := fun _ _ => rfl
      rw [hall, hall]
      refine List.rel_append (hcl.imp fun L L' k => ⟨k.1, k.2.length_eq.symm⟩) (.cons ?_ .nil)
      exact ⟨rfl, rfl⟩
    · intro fl hfl hpos
      have hfl' : s.m.maxE = fl := by
        have : (finalize (GCode.blank false home) s).filamentLength = some s.m.maxE := rfl
        rw [this] at hfl
        exact Option.some.inj hfl
      have hp1 : 0 < s.m.maxE := by rw [hfl']; exact hpos
      have hp2 : 0 < s'.m.maxE := by rw [hmax]; exact hp1
      obtain ⟨f1, f2, f3, f4⟩ := hf.found hp1
      obtain ⟨b1, b2, b3, b4⟩ := hf.box
      have gx : ∀ (o : Option α) (d : α), o ≠ none → (o.map (· + d)).getD 0 = o.getD 0 + d := by
        intro o d ho
        cases o with
        | none => exact absurd rfl ho
        | some v => rfl
      simp only [finalize, hp1, hp2, if_true, b1, b2, b3, b4, gx _ _ f1, gx _ _ f2, gx _ _ f3, gx _ _ f4, Option.map_some, true_and, Option.some.injEq]
      constructor <;> ring

/-! ### an example -/

theorem preamble_here {r : Str} (h : commandOf r (findall (lower r)) ≠ some c!"G20" ∧ commandOf r (findall (lower r)) ≠ some c!"G91")
    (h' : ∀ t ∈ findall (lower r), t.map Prod.fst ≠ some 'x' ∧ t.map Prod.fst ≠ some 'y' ∧ t.map Prod.fst ≠ some 'e')
    (hh : r.head? ≠ some '(') (hn : '\n' ∉ r) : Preamble r := by
  refine ⟨placeless_here h.1 (.inr fun t ht => ⟨(h' t ht).1, (h' t ht).2.1⟩), fun k => hh k.1, hn, ?_⟩
  intro ws hws
  rw [← (findall_reads (lower r) ws).2 hws]
  exact ⟨h.2, fun _ n k => (h' _ k).2.2 rfl⟩

theorem put_here {r : Str} (h : ∀ c ∈ [c!"G91", c!"G28", c!"G2", c!"G3"], commandOf r (findall (lower r)) ≠ some c)
    (h' : commandOf r (findall (lower r)) ≠ some c!"G92" ∨ ∀ t ∈ findall (lower r), t.map Prod.fst ≠ some 'x' ∧ t.map Prod.fst ≠ some 'y') : StaysPut r := by
  intro ws hws
  rw [← (findall_reads (lower r) ws).2 hws]
  refine ⟨h, fun k n => ?_⟩
  rcases h' with h' | h'
  · exact absurd k h'
  · exact ⟨fun w => (h' _ w).1 rfl, fun w => (h' _ w).2 rfl⟩

/-- A small program. -/
def lineHere : List Str :=
  [c!"G28", c!"G1 Z0.3 F7800", c!"G0 X1 Y2", c!"G92 E0", c!"G1 X4 Y2 E1", c!"G1 E0.5", c!"G1 E1", c!"G1 X4 Y8 E3 F1200", c!"M104 S0"]

/-- The same program 10.5 mm to the right and 2 mm to the front. -/
def lineThere : List Str :=
  [c!"G28", c!"G1 Z0.3 F7800", c!"G0 X11.5 Y0", c!"G92 E0", c!"G1 X14.5 Y0 E1", c!"G1 E0.5", c!"G1 E1", c!"G1 X14.5 Y6 E3 F1200", c!"M104 S0"]

/-- The hypotheses of `C103_placed_partial` are met, and filament is used. -/
theorem line_placed : GCode.load qEnv lineHere = .ok (loadQ lineHere) ∧ GCode.load qEnv lineThere = .ok (loadQ lineThere) ∧
    PlacedElsewhere (21 / 2 : ℚ) (-2) ((loadQ lineHere).lines.map (·.raw)) ((loadQ lineThere).lines.map (·.raw)) ∧
    (loadQ lineHere).filamentLength = some 3 ∧ (loadQ lineHere).xmin = some 4 ∧ (loadQ lineThere).xmin = some (29 / 2) ∧
    (loadQ lineHere).depth = some 6 := by
  have e1 : (loadQ lineHere).lines.map (·.raw) = lineHere := by decide +kernel
  have e2 : (loadQ lineThere).lines.map (·.raw) = lineThere := by decide +kernel
  refine ⟨by decide +kernel, by decide +kernel, ?_, by decide +kernel, by decide +kernel, by decide +kernel, by decide +kernel⟩
  rw [e1, e2]
  have sm : ∀ (c : Char) (n : Str), c ∈ c!"ZEFIJ" → (∀ d ∈ n, d ∈ c!"0123456789.+-") → MovedWord (21 / 2 : ℚ) (-2) (c :: n) (c :: n) :=
    fun c n h1 h2 => .same c n h1 h2
  refine ⟨[c!"G28", c!"G1 Z0.3 F7800"], c!"G0 X1 Y2", c!"G0 X11.5 Y0",
    [c!"G92 E0", c!"G1 X4 Y2 E1", c!"G1 E0.5", c!"G1 E1", c!"G1 X4 Y8 E3 F1200", c!"M104 S0"],
    [c!"G92 E0", c!"G1 X14.5 Y0 E1", c!"G1 E0.5", c!"G1 E1", c!"G1 X14.5 Y6 E3 F1200", c!"M104 S0"], rfl, rfl, ?_, ?_, ?_, ?_⟩
  · intro r hr
    simp only [List.mem_cons, List.not_mem_nil, or_false] at hr
    rcases hr with rfl | rfl <;> exact preamble_here (by decide) (by decide) (by decide) (by decide)
  · exact ⟨c!"0", [(c!" ", c!"X1"), (c!" ", c!"Y2")], [(c!" ", c!"X11.5"), (c!" ", c!"Y0")], [], by decide, by decide,
      .cons ⟨rfl, wordX (a := 1) (by decide +kernel) (by decide +kernel)⟩ (.cons ⟨rfl, wordY (a := 2) (by decide +kernel) (by decide +kernel)⟩ .nil),
      by decide, by decide, .inl rfl, by decide, by decide⟩
  · refine .cons (kept_here (by decide) (by decide) (by decide) (by decide)) (.cons (.inl ?_) (.cons (kept_here (by decide) (by decide) (by decide) (by decide))
      (.cons (kept_here (by decide) (by decide) (by decide) (by decide)) (.cons (.inl ?_) (.cons (kept_here (by decide) (by decide) (by decide) (by decide)) .nil)))))
    · exact ⟨c!"1", [(c!" ", c!"X4"), (c!" ", c!"Y2"), (c!" ", c!"E1")], [(c!" ", c!"X14.5"), (c!" ", c!"Y0"), (c!" ", c!"E1")], [], by decide, by decide,
        .cons ⟨rfl, wordX (a := 4) (by decide +kernel) (by decide +kernel)⟩ (.cons ⟨rfl, wordY (a := 2) (by decide +kernel) (by decide +kernel)⟩
          (.cons ⟨rfl, sm _ _ (by decide) (by decide)⟩ .nil)),
        by decide, by decide, .inl rfl, by decide, by decide⟩
    · exact ⟨c!"1", [(c!" ", c!"X4"), (c!" ", c!"Y8"), (c!" ", c!"E3"), (c!" ", c!"F1200")], [(c!" ", c!"X14.5"), (c!" ", c!"Y6"), (c!" ", c!"E3"), (c!" ", c!"F1200")], [],
        by decide, by decide,
        .cons ⟨rfl, wordX (a := 4) (by decide +kernel) (by decide +kernel)⟩ (.cons ⟨rfl, wordY (a := 8) (by decide +kernel) (by decide +kernel)⟩
          (.cons ⟨rfl, sm _ _ (by decide) (by decide)⟩ (.cons ⟨rfl, sm _ _ (by decide) (by decide)⟩ .nil))),
        by decide, by decide, .inl rfl, by decide, by decide⟩
  · intro r hr
    simp only [List.mem_cons, List.not_mem_nil, or_false] at hr
    rcases hr with rfl | rfl | rfl | rfl | rfl | rfl <;> exact put_here (by decide) (by decide)

/-- **C103, refuted** for programs that extrude before they go to their place: the nozzle is primed where it is, and the
bounding box begins at the origin of the bed, wherever the object is. -/
theorem C103_prime_refuted : ∃ data data' : List Str,
    (∀ p ∈ data.zip data', Elsewhere (10 : ℚ) 0 p.1 p.2) ∧ data.length = data'.length ∧
    (loadQ data).xmin = some 0 ∧ (loadQ data').xmin = some 0 ∧ (loadQ data).width = some 5 ∧ (loadQ data').width = some 15 := by
  refine ⟨[c!"G28", c!"G1 Z0.3 F7800", c!"G1 E5", c!"G0 X1 Y2", c!"G1 X5 Y2 E6"], [c!"G28", c!"G1 Z0.3 F7800", c!"G1 E5", c!"G0 X11 Y2", c!"G1 X15 Y2 E6"],
    ?_, rfl, by decide +kernel, by decide +kernel, by decide +kernel, by decide +kernel⟩
  have sm : ∀ (c : Char) (n : Str), c ∈ c!"ZEFIJ" → (∀ d ∈ n, d ∈ c!"0123456789.+-") → MovedWord (10 : ℚ) 0 (c :: n) (c :: n) :=
    fun c n h1 h2 => .same c n h1 h2
  intro p hp
  simp only [List.zip_cons_cons, List.zip_nil_right, List.mem_cons, List.not_mem_nil, or_false] at hp
  rcases hp with rfl | rfl | rfl | rfl | rfl
  · exact kept_here (by decide) (by decide) (by decide) (by decide)
  · exact kept_here (by decide) (by decide) (by decide) (by decide)
  · exact kept_here (by decide) (by decide) (by decide) (by decide)
  · exact .inl ⟨c!"0", [(c!" ", c!"X1"), (c!" ", c!"Y2")], [(c!" ", c!"X11"), (c!" ", c!"Y2")], [], by decide, by decide,
      .cons ⟨rfl, wordX (a := 1) (by decide +kernel) (by decide +kernel)⟩ (.cons ⟨rfl, wordY (a := 2) (by decide +kernel) (by decide +kernel)⟩ .nil),
      by decide, by decide, .inl rfl, by decide, by decide⟩
  · exact .inl ⟨c!"1", [(c!" ", c!"X5"), (c!" ", c!"Y2"), (c!" ", c!"E6")], [(c!" ", c!"X15"), (c!" ", c!"Y2"), (c!" ", c!"E6")], [], by decide, by decide,
      .cons ⟨rfl, wordX (a := 5) (by decide +kernel) (by decide +kernel)⟩ (.cons ⟨rfl, wordY (a := 2) (by decide +kernel) (by decide +kernel)⟩
        (.cons ⟨rfl, sm _ _ (by decide) (by decide)⟩ .nil)),
      by decide, by decide, .inl rfl, by decide, by decide⟩

/-- **C103, refuted** for the duration: the way from the origin to the object counts. -/
theorem C103_duration_refuted : PlacedElsewhere (100 : ℚ) 0 [c!"G1 X10 Y0 E1 F600"] [c!"G1 X110 Y0 E1 F600"] ∧
    (loadQ [c!"G1 X10 Y0 E1 F600"]).duration = some 1 ∧ (loadQ [c!"G1 X110 Y0 E1 F600"]).duration = some 11 := by
  have sm : ∀ (c : Char) (n : Str), c ∈ c!"ZEFIJ" → (∀ d ∈ n, d ∈ c!"0123456789.+-") → MovedWord (100 : ℚ) 0 (c :: n) (c :: n) :=
    fun c n h1 h2 => .same c n h1 h2
  refine ⟨⟨[], _, _, [], [], rfl, rfl, by simp, ?_, .nil, by simp⟩, by decide +kernel, by decide +kernel⟩
  exact ⟨c!"1", [(c!" ", c!"X10"), (c!" ", c!"Y0"), (c!" ", c!"E1"), (c!" ", c!"F600")], [(c!" ", c!"X110"), (c!" ", c!"Y0"), (c!" ", c!"E1"), (c!" ", c!"F600")], [],
    by decide, by decide,
    .cons ⟨rfl, wordX (a := 10) (by decide +kernel) (by decide +kernel)⟩ (.cons ⟨rfl, wordY (a := 0) (by decide +kernel) (by decide +kernel)⟩
      (.cons ⟨rfl, sm _ _ (by decide) (by decide)⟩ (.cons ⟨rfl, sm _ _ (by decide) (by decide)⟩ .nil))),
    by decide, by decide, .inl rfl, by decide, by decide⟩

end GCodeUtils
