import Verif.Lemmas.Simulate
import Verif.Props.Common

/-
  C19-C22: the head, the coordinate systems, units and the filament, against the reference printer of Spec.Printer.
-/

set_option linter.unusedSectionVars false

namespace GCodeUtils

open Spec

variable {α : Type} [Field α] [LinearOrder α] [IsStrictOrderedRing α] [FloorRing α]

/-- **C19** (head position, partial).  After loading, modes, tool, feed rate, machine position and coordinate offsets
are those of the reference printer run over the same lines, and every line with an instruction carries the position
and feed rate of the reference printer after that line (normal, not light, objects).  Missing: lines whose command
comes after a comment, and `G28` lines that name an axis without a number or with only zeros; for both the claim is
false, see `C19_homing_refuted` and `C19_comment_refuted`. -/
theorem C19_position_partial {env : Env α} {data : List Str} {light : Bool} {home : Home α} {g : GCode α}
    (h : GCode.load env data light home = .ok g)
    (hc : ∀ l ∈ g.lines, CommandFirst l.raw ∧ HomingClear (α := α) l.raw) :
    let q := Printer.start.final ⟨home.x, home.y, home.z⟩ (g.lines.map (·.raw))
    (⟨g.m.currentX, g.m.currentY, g.m.currentZ⟩ : Pos3 α) = q.pos ∧
    (⟨g.m.offsetX, g.m.offsetY, g.m.offsetZ⟩ : Pos3 α) = q.org ∧
    g.m.currentF = q.feed ∧ g.m.imperial = q.inch ∧ g.m.relative = q.rel ∧ g.m.relativeE = q.relE ∧
    g.m.currentTool = q.tool ∧
    (light = false → ∀ pre l post, g.lines = pre ++ l :: post → instr l.raw ≠ none →
      let q := (Printer.start.final ⟨home.x, home.y, home.z⟩ (pre.map (·.raw))).line ⟨home.x, home.y, home.z⟩ l.raw
      l.currentX = some q.pos.x ∧ l.currentY = some q.pos.y ∧ l.currentZ = some q.pos.z ∧ l.currentF = some q.feed) := by
  intro q
  obtain ⟨out, hr, hl⟩ := load_run' h
  have hc' : ∀ r ∈ g.lines.map (·.raw), CommandFirst r ∧ HomingClear (α := α) r := by
    intro r hr
    obtain ⟨l, hl, rfl⟩ := List.mem_map.1 hr
    exact hc l hl
  obtain ⟨g1, g2⟩ := run_sim _ hr init_geo hc'
  refine ⟨?_, ?_, g1.feed, g1.inch, g1.rel, g1.relE, g1.tool, ?_⟩
  · rw [g1.px, g1.py, g1.pz]; rfl
  · rw [g1.ox, g1.oy, g1.oz]; rfl
  · intro hlt pre l post he hi
    have := g2 pre l post (by rw [← hl hlt]; exact he)
    cases hin : instr l.raw with
    | none => exact absurd hin hi
    | some p =>
      obtain ⟨cmd, ws⟩ := p
      exact this.pos cmd ws hin

example : ∀ l ∈ sampleG.lines, CommandFirst l.raw ∧ HomingClear (α := ℚ) l.raw := by decide +kernel
example : sampleG.m.currentX = 20 ∧ sampleG.m.currentY = 20 ∧ sampleG.m.currentZ = 6 / 10 := by decide +kernel

/-- **C19**, homing: `G28 X0` homes all axes instead of the one it names. -/
theorem C19_homing_refuted : ∃ g : GCode ℚ, GCode.load qEnv [c!"G1 X5 Y6", c!"G28 X0"] = .ok g ∧
    (∀ l ∈ g.lines, CommandFirst l.raw) ∧ g.m.currentY = 0 ∧
    (Printer.start.final ⟨0, 0, 0⟩ (g.lines.map (·.raw)) : Printer ℚ).pos.y = 6 :=
  ⟨okOr (GCode.blank false Home.init) (GCode.load qEnv [c!"G1 X5 Y6", c!"G28 X0"]), by decide +kernel⟩

/-- **C19**, comments: a command after a comment is not executed. -/
theorem C19_comment_refuted : ∃ g : GCode ℚ, GCode.load qEnv [c!"(fast) G1 X5"] = .ok g ∧
    (∀ l ∈ g.lines, HomingClear (α := ℚ) l.raw) ∧ g.m.currentX = 0 ∧
    (Printer.start.final ⟨0, 0, 0⟩ (g.lines.map (·.raw)) : Printer ℚ).pos.x = 5 :=
  ⟨okOr (GCode.blank false Home.init) (GCode.load qEnv [c!"(fast) G1 X5"]), by decide +kernel⟩

/-- **C20** (G92).  Feeding a `G92` line to any object leaves the machine position alone and makes each named
coordinate the given value; the coordinates not named keep their value. -/
theorem C20_set_position {g g' : GCode α} {c : Str} {l : PyLine α} {ws : List (Char × Str)}
    (h : g.append c = .ok (g', some l)) (hc : CommandFirst (strip c)) (hi : instr (strip c) = some (c!"G92", ws)) :
    let u : α := if g.m.imperial then 254 / 10 else 1
    g'.m.currentX = g.m.currentX ∧ g'.m.currentY = g.m.currentY ∧ g'.m.currentZ = g.m.currentZ ∧
    g'.m.absX = (value u ws 'x').getD g.m.absX ∧ g'.m.absY = (value u ws 'y').getD g.m.absY ∧
    g'.m.absZ = (value u ws 'z').getD g.m.absZ := by
  intro u
  obtain ⟨l', hp⟩ := append_process h
  have hh : HomingClear (α := α) (strip c) := by
    unfold HomingClear; rw [hi]; intro h; exact absurd h (by decide)
  obtain ⟨g1, -⟩ := process_sim hp g.m.printer_geo hc hh
  have hs : g.m.printer.line g.home.pos (strip c) = g.m.printer.setPosition ws := by
    unfold Printer.line; rw [hi]; simp [Printer.step]
  rw [hs] at g1
  have hu : g.m.printer.unit = u := rfl
  refine ⟨g1.px, g1.py, g1.pz, ?_, ?_, ?_⟩
  · unfold Machine.absX
    rw [g1.px, g1.ox]
    simp only [Printer.setPosition, hu]
    cases value u ws 'x' <;> simp [relabel, Machine.printer]
  · unfold Machine.absY
    rw [g1.py, g1.oy]
    simp only [Printer.setPosition, hu]
    cases value u ws 'y' <;> simp [relabel, Machine.printer]
  · unfold Machine.absZ
    rw [g1.pz, g1.oz]
    simp only [Printer.setPosition, hu]
    cases value u ws 'z' <;> simp [relabel, Machine.printer]

/-- **C20** (absolute moves).  In absolute mode a move makes each named coordinate the given value and keeps the
others. -/
theorem C20_absolute_move {g g' : GCode α} {c : Str} {l : PyLine α} {cmd : Str} {ws : List (Char × Str)}
    (h : g.append c = .ok (g', some l)) (hc : CommandFirst (strip c)) (hi : instr (strip c) = some (cmd, ws))
    (hm : cmd ∈ [c!"G0", c!"G1", c!"G2", c!"G3"]) (hr : g.m.relative = false) :
    let u : α := if g.m.imperial then 254 / 10 else 1
    g'.m.absX = (value u ws 'x').getD g.m.absX ∧ g'.m.absY = (value u ws 'y').getD g.m.absY ∧
    g'.m.absZ = (value u ws 'z').getD g.m.absZ := by
  intro u
  obtain ⟨l', hp⟩ := append_process h
  have hh : HomingClear (α := α) (strip c) := by
    unfold HomingClear; rw [hi]; intro h
    subst h; exact absurd hm (by decide)
  obtain ⟨g1, -⟩ := process_sim hp g.m.printer_geo hc hh
  have hs : g.m.printer.line g.home.pos (strip c) = g.m.printer.move ws := by
    unfold Printer.line; rw [hi]; simp only [Printer.step]; rw [if_pos hm]
  rw [hs] at g1
  have hu : g.m.printer.unit = u := rfl
  refine ⟨?_, ?_, ?_⟩
  · unfold Machine.absX
    rw [g1.px, g1.ox]
    simp only [Printer.move, hu]
    cases value u ws 'x' <;> simp [axis, Machine.printer, hr]
  · unfold Machine.absY
    rw [g1.py, g1.oy]
    simp only [Printer.move, hu]
    cases value u ws 'y' <;> simp [axis, Machine.printer, hr]
  · unfold Machine.absZ
    rw [g1.pz, g1.oz]
    simp only [Printer.move, hu]
    cases value u ws 'z' <;> simp [axis, Machine.printer, hr]

example : CommandFirst (strip c!"G92 X5 Y7") ∧
    instr (strip c!"G92 X5 Y7") = some (c!"G92", [('g', c!"92"), ('x', c!"5"), ('y', c!"7")]) ∧
    sampleG.append c!"G92 X5 Y7" = .ok (appendQ sampleG c!"G92 X5 Y7") ∧ (appendQ sampleG c!"G92 X5 Y7").2.isSome ∧
    (let m := (appendQ sampleG c!"G92 X5 Y7").1.m; (m.absX, m.absY, m.absZ, m.currentX) = (5, 7, 6 / 10, 20)) := by
  decide +kernel
example : sampleG.m.relative = false ∧ instr (strip c!"G1 X3") = some (c!"G1", [('g', c!"1"), ('x', c!"3")]) ∧
    sampleG.append c!"G1 X3" = .ok (appendQ sampleG c!"G1 X3") ∧ (appendQ sampleG c!"G1 X3").2.isSome ∧
    (let m := (appendQ sampleG c!"G1 X3").1.m; (m.absX, m.absY) = (3, 20)) := by decide +kernel

/-- **C21** (units).  In a loaded program every argument of a line whose command is a `G` code is the last number
written for its letter, times 25.4 if the last unit command up to that line was `G20`, times 1 otherwise. -/
theorem C21_units {env : Env α} {data : List Str} {home : Home α} {g : GCode α}
    (h : GCode.load env data false home = .ok g) {pre post : List (PyLine α)} {l : PyLine α}
    (hg : g.lines = pre ++ l :: post) {cmd : Str} (hc : l.command = some cmd) (hG : cmd.head? = some 'G') :
    let u : α := unitAfter ((pre ++ [l]).map (·.command))
    l.x = value u (words l.raw) 'x' ∧ l.y = value u (words l.raw) 'y' ∧ l.z = value u (words l.raw) 'z' ∧
    l.e = value u (words l.raw) 'e' ∧ l.f = value u (words l.raw) 'f' ∧ l.i = value u (words l.raw) 'i' ∧
    l.j = value u (words l.raw) 'j' := by
  obtain ⟨out, hr, hl⟩ := load_run' h
  have key := run_units _ hr pre l post (by rw [← hl rfl]; exact hg) cmd hc hG
  exact ⟨key 'x' (by decide), key 'y' (by decide), key 'z' (by decide), key 'e' (by decide), key 'f' (by decide),
    key 'i' (by decide), key 'j' (by decide)⟩

/-- A program that switches units. -/
def uSample : List Str := [c!"G1 X10", c!"G20", c!"G1 X10 F2", c!"G21", c!"G1 X7"]

example : GCode.load qEnv uSample = .ok (loadQ uSample) ∧ (loadQ uSample).lines.map (fun l => (l.x, l.f)) =
    [(some 10, none), (none, none), (some 254, some (254 / 5)), (none, none), (some 7, none)] := by decide +kernel

/-- **C21** (a program in inches).  If one program starts with `G20` and another with `G21`, and line by line the
second says the same with 25.4 times the numbers, both end at the same machine position, with the same offsets and
feed rate. -/
theorem C21_inch_program {env env' : Env α} {rs ss : List Str} {light light' : Bool} {home : Home α} {g g' : GCode α}
    (h : GCode.load env (c!"G20" :: rs) light home = .ok g) (h' : GCode.load env' (c!"G21" :: ss) light' home = .ok g')
    {rs' ss' : List Str} (hr : g.lines.map (·.raw) = c!"G20" :: rs') (hs : g'.lines.map (·.raw) = c!"G21" :: ss')
    (hc : ∀ r ∈ rs' ++ ss', CommandFirst r ∧ HomingClear (α := α) r) (hsame : List.Forall₂ (InchMm α) rs' ss') :
    g.m.currentX = g'.m.currentX ∧ g.m.currentY = g'.m.currentY ∧ g.m.currentZ = g'.m.currentZ ∧
    g.m.offsetX = g'.m.offsetX ∧ g.m.offsetY = g'.m.offsetY ∧ g.m.offsetZ = g'.m.offsetZ ∧
    g.m.currentF = g'.m.currentF := by
  obtain ⟨out, hr1, -⟩ := load_run' h
  obtain ⟨out', hr2, -⟩ := load_run' h'
  have c20 : CommandFirst c!"G20" ∧ HomingClear (α := α) c!"G20" :=
    ⟨by decide, by unfold HomingClear; rw [show instr c!"G20" = some (c!"G20", [('g', c!"20")]) by decide]; simp⟩
  have c21 : CommandFirst c!"G21" ∧ HomingClear (α := α) c!"G21" :=
    ⟨by decide, by unfold HomingClear; rw [show instr c!"G21" = some (c!"G21", [('g', c!"21")]) by decide]; simp⟩
  rw [hr] at hr1
  rw [hs] at hr2
  obtain ⟨g1, -⟩ := run_sim _ hr1 init_geo (by
    intro r hr
    rcases List.mem_cons.1 hr with rfl | hr
    · exact c20
    · exact hc r (by simp [hr]))
  obtain ⟨g2, -⟩ := run_sim _ hr2 init_geo (by
    intro r hr
    rcases List.mem_cons.1 hr with rfl | hr
    · exact c21
    · exact hc r (by simp [hr]))
  have e1 : (Printer.start : Printer α).final home.pos (c!"G20" :: rs') =
      (Printer.withInch true Printer.start).final home.pos rs' := by
    simp only [Printer.final, List.foldl_cons]
    congr 1
  have e2 : (Printer.start : Printer α).final home.pos (c!"G21" :: ss') = Printer.start.final home.pos ss' := by
    simp only [Printer.final, List.foldl_cons]
    congr 1
  rw [e1, inchMm_final home.pos hsame _ rfl] at g1
  rw [e2] at g2
  exact ⟨by rw [g1.px, g2.px]; rfl, by rw [g1.py, g2.py]; rfl, by rw [g1.pz, g2.pz]; rfl, by rw [g1.ox, g2.ox]; rfl,
    by rw [g1.oy, g2.oy]; rfl, by rw [g1.oz, g2.oz]; rfl, by rw [g1.feed, g2.feed]; rfl⟩

example : List.Forall₂ (InchMm ℚ) [c!"G1 X10 Y-2", c!"; c"] [c!"G1 X254 Y-50.8", c!"; c"] := by
  refine .cons (Or.inr ⟨c!"G1", [('g', c!"1"), ('x', c!"10"), ('y', c!"-2")],
    [('g', c!"1"), ('x', c!"254"), ('y', c!"-50.8")], by decide +kernel, by decide +kernel, by decide, by decide,
    by decide, by decide +kernel⟩) (.cons (Or.inl (by decide +kernel)) .nil)

/-- **C22** (filament accounting, partial).  `total_e` is the net filament pushed by the reference printer, `max_e`
the largest amount pushed after any prefix of the program, `filament_length` equals `max_e`, and a line is flagged
extruding exactly if it pushes filament forward.  Missing: programs with an absolute `E` move while the last `G92 E`
word is not half of the true filament position; there the claim is false, see `C22_refuted`. -/
theorem C22_filament_partial {env : Env α} {data : List Str} {light : Bool} {home : Home α} {g : GCode α}
    (h : GCode.load env data light home = .ok g)
    (hc : ∀ l ∈ g.lines, CommandFirst l.raw ∧ HomingClear (α := α) l.raw)
    (he : Printer.EClear ⟨home.x, home.y, home.z⟩ true (Printer.start : Printer α) (g.lines.map (·.raw))) :
    let run (rs : List Str) : Printer α := Printer.start.final ⟨home.x, home.y, home.z⟩ rs
    let texts := g.lines.map (·.raw)
    g.m.totalE = (run texts).pushed ∧
    IsGreatest {a | ∃ pre, pre <+: texts ∧ a = (run pre).pushed} g.m.maxE ∧
    (data ≠ [] → g.filamentLength = some g.m.maxE) ∧
    (light = false → ∀ pre l post, g.lines = pre ++ l :: post →
      (l.extruding = some true ↔ (run (pre.map (·.raw))).pushed < (run ((pre ++ [l]).map (·.raw))).pushed)) := by
  intro run texts
  obtain ⟨out, hr, hl⟩ := load_run' h
  have hc' : ∀ r ∈ g.lines.map (·.raw), CommandFirst r ∧ HomingClear (α := α) r := by
    intro r hr
    obtain ⟨l, hl, rfl⟩ := List.mem_map.1 hr
    exact hc l hl
  obtain ⟨⟨ok', g1⟩, g2⟩ := run_esim _ hr init_geo init_esim hc' he
  have hmx := final_max home.pos texts Printer.start (le_refl _)
  refine ⟨g1.tot, ?_, ?_, ?_⟩
  · rw [g1.mx]
    refine ⟨?_, ?_⟩
    · rcases hmx.2.2 with h0 | ⟨pre, hp, hpe⟩
      · refine ⟨[], List.nil_prefix, ?_⟩
        exact h0
      · exact ⟨pre, hp, hpe.symm⟩
    · rintro a ⟨pre, hp, rfl⟩
      exact hmx.2.1 pre hp
  · intro hd
    rcases load_ok h with ⟨rfl, _⟩ | ⟨_, s, _, rfl⟩
    · exact absurd rfl hd
    · rfl
  · intro hlt pre l post he
    have key := g2 pre l post (by rw [← hl hlt]; exact he)
    have h1 : (run ((pre ++ [l]).map (·.raw))) = (run (pre.map (·.raw))).line home.pos l.raw := by
      simp only [run, List.map_append, List.map_cons, List.map_nil]
      simp [Printer.final, Home.pos]
    rw [h1, ← sub_pos]
    refine Iff.trans ?_ key
    cases l.extruding with
    | none => simp
    | some b => simp

/-- A program with absolute extrusion, a retraction and `G92 E0` before anything is pushed. -/
def eSample : List Str := [c!"G92 E0", c!"G1 X1 E2", c!"G1 X2 E5", c!"G1 E4", c!"M83", c!"G92 E0", c!"G1 X3 E1.5"]

example : GCode.load qEnv eSample = .ok (loadQ eSample) ∧
    (∀ l ∈ (loadQ eSample).lines, CommandFirst l.raw ∧ HomingClear (α := ℚ) l.raw) ∧
    Printer.EClear ⟨0, 0, 0⟩ true (Printer.start : Printer ℚ) ((loadQ eSample).lines.map (·.raw)) ∧
    (loadQ eSample).m.totalE = 11 / 2 ∧ (loadQ eSample).m.maxE = 11 / 2 ∧
    (loadQ eSample).lines.map (·.extruding) = [none, some true, some true, some false, none, none, some true] := by
  decide +kernel

/-- **C22**, the usual `G92 E0` between absolute extrusions: 10 mm and then 5 mm are pushed, `filament_length` says
10, `total_e` 5, and the second move is not flagged extruding. -/
theorem C22_refuted : ∃ g : GCode ℚ, GCode.load qEnv [c!"G1 X1 E10", c!"G92 E0", c!"G1 X2 E5"] = .ok g ∧
    (∀ l ∈ g.lines, CommandFirst l.raw ∧ HomingClear (α := ℚ) l.raw) ∧
    (Printer.start.final ⟨0, 0, 0⟩ (g.lines.map (·.raw)) : Printer ℚ).pushed = 15 ∧
    g.filamentLength = some 10 ∧ g.m.totalE = 5 ∧ g.lines.map (·.extruding) = [some true, none, some false] :=
  ⟨okOr (GCode.blank false Home.init) (GCode.load qEnv [c!"G1 X1 E10", c!"G92 E0", c!"G1 X2 E5"]), by decide +kernel⟩

end GCodeUtils
