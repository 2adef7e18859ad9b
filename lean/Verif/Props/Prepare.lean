import Verif.Lemmas.Append
import Verif.Lemmas.Simulate
import Verif.Spec.Track
import Verif.Props.Common
import Verif.Props.Load

/-
  C124, C125: objects that are prepared again, and commands that are followed without being stored.
-/

set_option linter.unusedSectionVars false

namespace GCodeUtils

open Spec

variable {α : Type} [Field α] [LinearOrder α] [IsStrictOrderedRing α] [FloorRing α]

/-- C124, what preparing an object again does, for every two programs: the lines of the second program are read where the first one left the
machine, as if the second program followed the first one in the same file. -/
theorem C124_continues {env : Env α} {a b : List Str} {light : Bool} {home : Home α} {g g' g'' : GCode α} (h1 : GCode.load env a light home = .ok g)
    (h2 : prepare env g b = .ok g') (h3 : GCode.load env (a ++ b) light home = .ok g'') :
    g'.m = g''.m ∧ g''.lines = g.lines ++ g'.lines := by
  obtain ⟨hlight, hhome⟩ := load_keeps h1
  obtain ⟨o1, r1, l1⟩ := load_run h1
  obtain ⟨o3, r3, l3⟩ := load_run h3
  rw [readLines_append] at r3
  have key : ∃ o2, Run home g.m (readLines b) g'.m o2 ∧ g'.lines = if light then readLines b else o2 := by
    unfold prepare at h2
    by_cases hb : b = []
    · subst hb
      simp only [List.isEmpty_nil, if_true, Except.ok.injEq] at h2
      subst h2
      exact ⟨[], Run.nil _, by simp [readLines]⟩
    · rw [if_neg (by simpa [List.isEmpty_iff] using hb)] at h2
      unfold preprocessAll at h2
      cases hf : (readLines b).foldlM (buildStep env g.light g.home) (BuildSt.start g) with
      | error e => rw [hf] at h2; simp at h2
      | ok s =>
        rw [hf] at h2
        obtain rfl := Except.ok.inj h2
        obtain ⟨out, hr, hd⟩ := fold_run hf
        rw [hlight] at hd
        rw [hhome] at hr
        exact ⟨out, hr, hd⟩
  obtain ⟨o2, r2, l2⟩ := key
  obtain ⟨e1, e2⟩ := (r1.append r2).det r3
  refine ⟨e1, ?_⟩
  rw [l3, l1, l2, readLines_append, ← e2]
  split_ifs <;> rfl

/-- C124, what is written does not depend on the program before: after any first program, the second one is written as a new object writes it,
and the index arrays address its lines. -/
theorem C124_text {env : Env α} {a b : List Str} {light : Bool} {home : Home α} {g g' n : GCode α} (h1 : GCode.load env a light home = .ok g)
    (h2 : prepare env g b = .ok g') (h3 : GCode.load env b light home = .ok n) :
    g'.write = n.write ∧ g'.lines.map (·.raw) = n.lines.map (·.raw) ∧ (g'.allLayers.map (·.lines)).flatten = g'.lines ∧
    g'.layerIdxs.zip g'.lineIdxs = positions (g'.allLayers.map (·.lines)) := by
  obtain ⟨hlight, hhome⟩ := load_keeps h1
  obtain ⟨o3, r3, l3⟩ := load_run h3
  have hn := (C03_layers_partition env b light home n h3).1
  have hraw : n.lines.map (·.raw) = (readLines b : List (PyLine α)).map (·.raw) := by
    rw [l3]; split_ifs
    · rfl
    · exact r3.raws
  have key : g'.lines.map (·.raw) = (readLines b : List (PyLine α)).map (·.raw) ∧ (g'.allLayers.map (·.lines)).flatten = g'.lines ∧
      g'.layerIdxs.zip g'.lineIdxs = positions (g'.allLayers.map (·.lines)) := by
    unfold prepare at h2
    by_cases hb : b = []
    · subst hb
      simp only [List.isEmpty_nil, if_true, Except.ok.injEq] at h2
      subst h2
      exact ⟨by simp [readLines], by simp, by simp [positions, positionsFrom]⟩
    · rw [if_neg (by simpa [List.isEmpty_iff] using hb)] at h2
      unfold preprocessAll at h2
      cases hf : (readLines b).foldlM (buildStep env g.light g.home) (BuildSt.start g) with
      | error e => rw [hf] at h2; simp at h2
      | ok s =>
        rw [hf] at h2
        obtain rfl := Except.ok.inj h2
        obtain ⟨out, hr, hd⟩ := fold_run hf
        have hi := finalize_indexed (g := g) (fold_inv (start_inv g) hf)
        refine ⟨?_, hi.flat.symm, ?_⟩
        · have : (finalize g s).lines = s.done := rfl
          rw [this, hd]
          simp only [BuildSt.start, List.nil_append]
          split_ifs
          · rfl
          · exact hr.raws
        · rw [hi.layer, hi.line]
          exact (List.zip_of_prod rfl rfl).symm
  obtain ⟨k1, k2, k3⟩ := key
  refine ⟨?_, k1.trans hraw.symm, k2, k3⟩
  have w : ∀ x : GCode α, (x.allLayers.map (·.lines)).flatten = x.lines → x.write = (x.lines.map (·.raw)).flatMap fun t => t ++ ['\n'] := by
    intro x hx
    unfold GCode.write GCode.allLines
    rw [← List.flatMap_def] at hx
    rw [hx, List.flatMap_map]
  rw [w g' k2, w n hn, k1, hraw]

/-- C124, when the object has not moved before: if the first program leaves the machine as it was and no layer height, preparing again gives
what a new object gives. Missing: other first programs, see `C124_refuted`; empty second programs, see `C124_empty_refuted`. -/
theorem C124_fresh_partial {env : Env α} {a b : List Str} {light : Bool} {home : Home α} {g : GCode α} (h1 : GCode.load env a light home = .ok g)
    (hm : g.m = Machine.init) (he : g.est = none) (hb : b ≠ []) : prepare env g b = GCode.load env b light home := by
  obtain ⟨hlight, hhome⟩ := load_keeps h1
  unfold GCode.load prepare
  rw [if_neg (by simpa [List.isEmpty_iff] using hb), if_neg (by simpa [List.isEmpty_iff] using hb)]
  unfold preprocessAll
  have hs : BuildSt.start g = BuildSt.start (GCode.blank light home) := by
    unfold BuildSt.start; rw [hm, he]; rfl
  rw [hs, hlight, hhome]
  have e1 : (GCode.blank light home : GCode α).light = light := rfl
  have e2 : (GCode.blank light home : GCode α).home = home := rfl
  rw [e1, e2]
  cases (readLines b).foldlM (buildStep env light home) (BuildSt.start (GCode.blank light home)) with
  | error e => rfl
  | ok s =>
    simp only [Except.ok.injEq]
    obtain ⟨x1, x2, x3, x4, x5, x6, x7, x8, x9, x10⟩ := g
    simp only at hlight hhome
    subst hlight hhome
    rfl

/-- A first program that prints, and a second one. -/
def firstProgram : List Str := [c!"G91", c!"G1 Z0.2", c!"G1 X10 E3", c!"G92 Y5"]
def secondProgram : List Str := [c!"G1 Z0.2", c!"G1 X10 E1", c!"G1 Y10 E2"]

/-- C124 is false in general: after another program, the filament used, the box and the positions of the second program are wrong. -/
theorem C124_refuted : GCode.load qEnv firstProgram = .ok (loadQ firstProgram) ∧
    (loadQ secondProgram).filamentLength = some 2 ∧ (loadQ secondProgram).xmax = some 10 ∧ (loadQ secondProgram).ymax = some 10 ∧
    (okOr (loadQ firstProgram) (prepare qEnv (loadQ firstProgram) secondProgram)).filamentLength = some 6 ∧
    (okOr (loadQ firstProgram) (prepare qEnv (loadQ firstProgram) secondProgram)).xmax = some 20 := by
  refine ⟨by decide +kernel, by decide +kernel, by decide +kernel, by decide +kernel, by decide +kernel, by decide +kernel⟩

/-- C124, preparing again without a program keeps the analysis of the program before. -/
theorem C124_empty_refuted : ∃ g, prepare qEnv (loadQ firstProgram) [] = .ok g ∧ g.lines = [] ∧ g.filamentLength = some 3 ∧ g.xmax = some 10 ∧
    (loadQ []).filamentLength = none :=
  ⟨okOr (loadQ []) (prepare qEnv (loadQ firstProgram) []), by decide +kernel, by decide +kernel, by decide +kernel, by decide +kernel, by decide +kernel⟩

/-- The hypotheses of `C124_continues` are met by these programs. -/
example : GCode.load qEnv (firstProgram ++ secondProgram) = .ok (loadQ (firstProgram ++ secondProgram)) ∧
    (okOr (loadQ []) (prepare qEnv (loadQ firstProgram) secondProgram)).m = (loadQ (firstProgram ++ secondProgram)).m ∧
    (loadQ (firstProgram ++ secondProgram)).lines.length = 7 :=
  ⟨by decide +kernel, by decide +kernel, by decide +kernel⟩

/-- The hypotheses of `C124_fresh_partial` are met by a start sequence that only heats. -/
example : GCode.load qEnv [c!"M104 S200", c!"; heating", c!"M109 S200"] = .ok (loadQ [c!"M104 S200", c!"; heating", c!"M109 S200"]) ∧
    (loadQ [c!"M104 S200", c!"; heating", c!"M109 S200"]).m = Machine.init ∧ (loadQ [c!"M104 S200", c!"; heating", c!"M109 S200"]).est = none :=
  ⟨by decide +kernel, by decide +kernel, by decide +kernel⟩

theorem appendEach_ok {g g' : GCode α} {cs : List (Str × Bool)} {L : Layer α} (hL : g.allLayers[g.appendLayerId]? = some L) (h : appendEach g cs = .ok g') :
    ∃ out, Run g.home g.m (readLines (cs.map (·.1))) g'.m out ∧
      Appended g L (pick (flags cs) (if g.light then readLines (cs.map (·.1)) else out)) g' := by
  induction cs generalizing g L with
  | nil =>
    simp only [appendEach, Except.ok.injEq] at h
    subst h
    refine ⟨[], Run.nil _, rfl, rfl, rfl, ?_, ?_, ?_, ?_⟩
    · simp [flags, pick]
    · simp only [flags, List.filter_nil, List.map_nil, pick, List.append_nil]
      obtain ⟨hlt, he⟩ := List.getElem?_eq_some_iff.1 hL
      rw [← he, List.set_getElem_self]
    · simp [flags, pick]
    · simp [flags, pick]
  | cons c cs ih =>
    obtain ⟨c, b⟩ := c
    rw [List.map_cons, readLines_cons]
    by_cases hc : strip c = []
    · have : g.appendWith c b = .ok (g, none) := by
        unfold GCode.appendWith
        cases b with
        | false => simp [hc]
        | true => simpa using append_blank hc
      rw [appendEach, this] at h
      simp only at h
      rw [if_pos hc]
      have hf : flags ((c, b) :: cs) = flags cs := by simp [flags, hc]
      rw [hf]
      exact ih hL h
    · rw [if_neg hc]
      have hf : flags ((c, b) :: cs) = b :: flags cs := by simp [flags, hc]
      rw [hf]
      cases b with
      | false =>
        rw [appendEach] at h
        unfold GCode.appendWith at h
        simp only [Bool.false_eq_true, if_false, List.isEmpty_iff, hc] at h
        cases hp : processLine g.home g.m { raw := strip c } with
        | error er => rw [hp] at h; simp at h
        | ok p =>
          obtain ⟨m, l⟩ := p
          rw [hp] at h
          simp only at h
          obtain ⟨out, hr, ha⟩ := ih (L := L) (g := { g with m := m }) hL h
          refine ⟨l :: out, Run.cons hp hr, ?_⟩
          obtain ⟨h1, h2, h3, h4, h5, h6, h7⟩ := ha
          simp only at h1 h2 h3 h4 h5 h6 h7
          have hnew : pick (false :: flags cs) (if g.light then ({ raw := strip c } : PyLine α) :: readLines (cs.map (·.1)) else l :: out) =
              pick (flags cs) (if g.light then readLines (cs.map (·.1)) else out) := by
            split_ifs <;> rfl
          rw [hnew]
          exact ⟨h1, h2, h3, h4, h5, h6, h7⟩
      | true =>
        rw [appendEach] at h
        have hw : g.appendWith c true = g.append c := rfl
        rw [hw, append_cmd hc hL] at h
        cases hp : processLine g.home g.m { raw := strip c } with
        | error er => rw [hp] at h; simp at h
        | ok p =>
          obtain ⟨m, l⟩ := p
          rw [hp] at h
          simp only at h
          obtain ⟨out, hr, ha⟩ := ih (L := { L with lines := L.lines ++ [storedLine g.light { raw := strip c } l] })
            (by
              obtain ⟨hlt, he⟩ := List.getElem?_eq_some_iff.1 hL
              simp [hlt]) h
          refine ⟨l :: out, Run.cons hp hr, ?_⟩
          obtain ⟨h1, h2, h3, h4, h5, h6, h7⟩ := ha
          simp only at h1 h2 h3 h4 h5 h6 h7
          have hnew : pick (true :: flags cs) (if g.light then ({ raw := strip c } : PyLine α) :: readLines (cs.map (·.1)) else l :: out) =
              storedLine g.light { raw := strip c } l :: pick (flags cs) (if g.light then readLines (cs.map (·.1)) else out) := by
            unfold storedLine; split_ifs <;> rfl
          rw [hnew]
          refine ⟨h1, h2, h3, ?_, ?_, ?_, ?_⟩
          · rw [h4]; simp
          · rw [h5]; simp
          · rw [h6]; simp [List.replicate_succ]
          · rw [h7]
            simp only [List.length_append, List.length_cons, List.length_nil, List.append_assoc,
              List.range_succ_eq_map, List.map_cons, List.map_map, List.singleton_append]
            congr 2
            apply List.map_congr_left
            intro j _
            simp only [Function.comp]
            omega

theorem pick_text (cs : List (Str × Bool)) {out : List (PyLine α)} (h : out.map (·.raw) = (readLines (cs.map (·.1)) : List (PyLine α)).map (·.raw)) :
    (pick (flags cs) out).flatMap (fun l => l.raw ++ ['\n']) = storedText cs := by
  induction cs generalizing out with
  | nil => simp [flags, pick, storedText]
  | cons c cs ih =>
    obtain ⟨c, b⟩ := c
    rw [List.map_cons, readLines_cons] at h
    by_cases hc : strip c = []
    · rw [if_pos hc] at h
      have hf : flags ((c, b) :: cs) = flags cs := by simp [flags, hc]
      rw [hf, ih h]
      simp [storedText, hc]
    · rw [if_neg hc] at h
      have hf : flags ((c, b) :: cs) = b :: flags cs := by simp [flags, hc]
      rw [hf]
      cases out with
      | nil => simp at h
      | cons x out =>
        simp only [List.map_cons, List.cons.injEq] at h
        have hr := ih h.2
        cases b with
        | false => simpa [pick, storedText, hc] using hr
        | true => simpa [pick, storedText, hc, h.1] using hr

/-- C125, for every program and every list of commands, stored or not: the machine is where it would be had all commands been in the program;
the lines recorded are the stored ones, with the analysis they have in that program; exactly the stored commands are written behind the
program, and the index arrays grow with them. -/
theorem C125_follow {env : Env α} {a : List Str} {cs : List (Str × Bool)} {light : Bool} {home : Home α} {g g' g'' : GCode α}
    (h1 : GCode.load env a light home = .ok g) (h2 : appendEach g cs = .ok g') (h3 : GCode.load env (a ++ cs.map (·.1)) light home = .ok g'') :
    g'.m = g''.m ∧ g'.lines = g.lines ++ pick (flags cs) (g''.lines.drop g.lines.length) ∧ g'.write = g.write ++ storedText cs ∧
    g'.layerIdxs.length = g'.lines.length ∧ g'.lineIdxs.length = g'.lines.length := by
  obtain ⟨o1, r1, hl1⟩ := load_run h1
  obtain ⟨hlen, L, hL, hLe⟩ := load_appendLayer h1
  obtain ⟨hlight, hhome⟩ := load_keeps h1
  obtain ⟨o2, r2, ha⟩ := appendEach_ok hL h2
  obtain ⟨o3, r3, hl3⟩ := load_run h3
  rw [hhome] at r2
  rw [readLines_append] at r3
  obtain ⟨e1, e2⟩ := (r1.append r2).det r3
  have hi := C03_layers_partition env a light home g h1
  have hdrop : g''.lines.drop g.lines.length = if light then readLines (cs.map (·.1)) else o2 := by
    rw [hl3, hl1, readLines_append, ← e2]
    split_ifs <;> simp
  refine ⟨e1, ?_, ?_, ?_, ?_⟩
  · rw [ha.lines, hdrop, hlight]
  · have hraw : (if light then readLines (cs.map (·.1)) else o2).map (·.raw) = (readLines (cs.map (·.1)) : List (PyLine α)).map (·.raw) := by
      split_ifs
      · rfl
      · exact r2.raws
    rw [← pick_text cs hraw]
    unfold GCode.write GCode.allLines
    rw [ha.layers, hlight]
    obtain ⟨hlt, he⟩ := List.getElem?_eq_some_iff.1 hL
    have hsplit : g.allLayers = g.allLayers.take g.appendLayerId ++ [L] := by
      conv_lhs => rw [← List.take_append_drop g.appendLayerId g.allLayers]
      rw [List.drop_eq_getElem_cons hlt, he, List.drop_eq_nil_of_le (by omega)]
    have hset : ∀ X, g.allLayers.set g.appendLayerId X = g.allLayers.take g.appendLayerId ++ [X] := by
      intro X
      rw [List.set_eq_take_append_cons_drop, if_pos hlt, List.drop_eq_nil_of_le (by omega)]
    rw [hset]
    conv_rhs => rw [hsplit]
    simp [hLe]
  · rw [ha.lay, ha.lines]; simp [hi.2.1]
  · rw [ha.lin, ha.lines]; simp [hi.2.2.1]

/-- The hypotheses are met: a pause and a probe move that are followed but not stored. -/
example : ∃ g' , appendEach (loadQ [c!"G1 X1 E1"]) [(c!"G91", false), (c!"G1 X2", true), (c!" ", true), (c!"G1 X3 ; probe", false), (c!"G1 X4", true)] = .ok g' ∧
    g'.m.currentX = 10 ∧ g'.write = c!"G1 X1 E1\nG1 X2\nG1 X4\n" :=
  ⟨okOr (loadQ []) (appendEach (loadQ [c!"G1 X1 E1"]) [(c!"G91", false), (c!"G1 X2", true), (c!" ", true), (c!"G1 X3 ; probe", false), (c!"G1 X4", true)]),
    by decide +kernel, by decide +kernel, by decide +kernel⟩

/-- C125, the returned line: after any sequence of stored and unstored commands, `append` returns nothing for a blank command and otherwise
the line the command has at the end of the program that contains all of them, whether or not it is stored. -/
theorem C125_returned {env : Env α} {a : List Str} {cs : List (Str × Bool)} {c : Str} {b light : Bool} {home : Home α} {g g' g2 g'' : GCode α}
    {r : Option (PyLine α)} (h1 : GCode.load env a light home = .ok g) (h2 : appendEach g cs = .ok g') (h : g'.appendWith c b = .ok (g2, r))
    (h3 : GCode.load env (a ++ cs.map (·.1) ++ [c]) light home = .ok g'') :
    (strip c = [] → r = none ∧ g2 = g') ∧ (strip c ≠ [] → r.isSome ∧ r = g''.lines.getLast?) := by
  obtain ⟨o1, r1, hl1⟩ := load_run h1
  obtain ⟨hlen, L, hL, hLe⟩ := load_appendLayer h1
  obtain ⟨hlight, hhome⟩ := load_keeps h1
  obtain ⟨o2, r2, ha⟩ := appendEach_ok hL h2
  obtain ⟨o3, r3, hl3⟩ := load_run h3
  rw [hhome] at r2
  constructor
  · intro hc
    have : g'.appendWith c b = .ok (g', none) := by
      unfold GCode.appendWith
      cases b with
      | false => simp [hc]
      | true => simpa using append_blank hc
    rw [this] at h
    simp only [Except.ok.injEq, Prod.mk.injEq] at h
    exact ⟨h.2.symm, h.1.symm⟩
  · intro hc
    have hone : (readLines [c] : List (PyLine α)) = [{ raw := strip c }] := by
      rw [readLines_cons, if_neg hc]; rfl
    have key : ∃ m l, processLine g'.home g'.m { raw := strip c } = .ok (m, l) ∧ r = some (if g'.light then { raw := strip c } else l) := by
      unfold GCode.appendWith at h
      cases b with
      | false =>
        simp only [Bool.false_eq_true, if_false, List.isEmpty_iff, hc] at h
        cases hp : processLine g'.home g'.m { raw := strip c } with
        | error er => rw [hp] at h; simp at h
        | ok p =>
          rw [hp] at h
          simp only [Except.ok.injEq, Prod.mk.injEq] at h
          exact ⟨p.1, p.2, rfl, h.2.symm⟩
      | true =>
        simp only [if_true] at h
        unfold GCode.append at h
        simp only [List.isEmpty_iff, hc, if_false] at h
        cases hp : processLine g'.home g'.m { raw := strip c } with
        | error er => rw [hp] at h; simp at h
        | ok p =>
          rw [hp] at h
          simp only at h
          split at h
          · simp at h
          · simp only [Except.ok.injEq, Prod.mk.injEq] at h
            exact ⟨p.1, p.2, rfl, h.2.symm⟩
    obtain ⟨m, l, hp, hr⟩ := key
    rw [ha.home, hhome] at hp
    rw [ha.light, hlight] at hr
    have r4 : Run home g'.m (readLines [c]) m [l] := by rw [hone]; exact Run.cons hp (Run.nil _)
    rw [readLines_append, readLines_append] at r3
    obtain ⟨e1, e2⟩ := ((r1.append r2).append r4).det r3
    subst hr
    refine ⟨rfl, ?_⟩
    rw [hl3, readLines_append, hone, ← e2]
    split_ifs <;> simp

/-- The hypotheses are met: a probe move that is followed but not stored is returned with its analysis. -/
example : ∃ p, (loadQ [c!"G91", c!"G1 X1 E1"]).appendWith c!" G1 X3 ; probe" false = .ok p ∧ p.2.bind (·.x) = some 3 ∧
    p.2.bind (·.currentX) = some 4 ∧ p.1.lines.length = 2 :=
  ⟨okOr (loadQ [], none) ((loadQ [c!"G91", c!"G1 X1 E1"]).appendWith c!" G1 X3 ; probe" false), by decide +kernel, by decide +kernel, by decide +kernel, by decide +kernel⟩

end GCodeUtils
