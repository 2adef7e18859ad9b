import Verif.Spec.Files
import Verif.Props.Load
import Verif.Props.Visit
import Verif.Props.TempCal

/-
  C68–C70, C74: files and command lines.
-/

set_option linter.unusedSectionVars false

namespace GCodeUtils

open Spec

variable {α : Type} [Field α] [LinearOrder α] [IsStrictOrderedRing α] [FloorRing α]

/-! ### lines of a text -/

theorem isLines_readlines (t : Str) : IsLines t (readlines t) := by
  induction t with
  | nil => exact ⟨rfl, by simp [readlines], by simp [readlines]⟩
  | cons c cs ih =>
    obtain ⟨h1, h2, h3⟩ := ih
    rw [readlines]
    by_cases hc : c = '\n'
    · rw [if_pos hc]
      subst hc
      refine ⟨by simp [h1], ?_, ?_⟩
      · intro l hl
        rcases List.mem_cons.1 hl with rfl | hl
        · simp
        · exact h2 l hl
      · intro l hl
        cases hr : readlines cs with
        | nil => rw [hr] at hl; simp at hl
        | cons a as =>
          rw [hr, List.dropLast_cons_of_ne_nil (by simp)] at hl
          rcases List.mem_cons.1 hl with rfl | hl
          · rfl
          · exact h3 l (by rw [hr]; exact hl)
    · rw [if_neg hc]
      cases hr : readlines cs with
      | nil =>
        simp only
        rw [hr] at h1
        refine ⟨by simpa using h1, by simp, by simp⟩
      | cons a as =>
        simp only
        rw [hr] at h1 h2 h3
        have ha := h2 a (by simp)
        refine ⟨by simpa using h1, ?_, ?_⟩
        · intro l hl
          rcases List.mem_cons.1 hl with rfl | hl
          · refine ⟨by simp, ?_⟩
            rw [List.dropLast_cons_of_ne_nil ha.1]
            intro hm
            rcases List.mem_cons.1 hm with hm | hm
            · exact hc hm.symm
            · exact ha.2 hm
          · exact h2 l (List.mem_cons_of_mem _ hl)
        · intro l hl
          cases as with
          | nil => simp at hl
          | cons b bs =>
            rw [List.dropLast_cons_of_ne_nil (by simp)] at hl
            rcases List.mem_cons.1 hl with rfl | hl
            · have := h3 a (by rw [List.dropLast_cons_of_ne_nil (by simp)]; simp)
              rw [List.getLast?_cons, this]; rfl
            · exact h3 l (by rw [List.dropLast_cons_of_ne_nil (by simp)]; exact List.mem_cons_of_mem _ hl)

/-- A text can be cut into lines in one way only. -/
theorem isLines_unique {t : Str} {a b : List Str} (ha : IsLines t a) (hb : IsLines t b) : a = b := by
  have key : ∀ (a b : List Str), a.flatten = b.flatten → (∀ l ∈ a, l ≠ [] ∧ '\n' ∉ l.dropLast) → (∀ l ∈ a.dropLast, l.getLast? = some '\n') →
      (∀ l ∈ b, l ≠ [] ∧ '\n' ∉ l.dropLast) → (∀ l ∈ b.dropLast, l.getLast? = some '\n') → a = b := by
    intro a
    induction a with
    | nil =>
      intro b h _ _ h2 _
      cases b with
      | nil => rfl
      | cons l b =>
        have := (h2 l (by simp)).1
        simp only [List.flatten_nil, List.flatten_cons] at h
        exact absurd (List.append_eq_nil_iff.1 h.symm).1 this
    | cons l a ih =>
      intro b h h1 h1' h2 h2'
      cases b with
      | nil =>
        simp only [List.flatten_nil, List.flatten_cons] at h
        exact absurd (List.append_eq_nil_iff.1 h).1 (h1 l (by simp)).1
      | cons m b =>
        have hl := h1 l (by simp)
        have hm := h2 m (by simp)
        have hends : ∀ {x : Str} {xs : List Str}, (∀ l ∈ (x :: xs).dropLast, l.getLast? = some '\n') → xs ≠ [] → x ≠ [] → ∃ x', x = x' ++ ['\n'] := by
          intro x xs hx hne hxn
          have := hx x (by rw [List.dropLast_cons_of_ne_nil hne]; simp)
          exact ⟨x.dropLast, by
            conv_lhs => rw [← List.dropLast_append_getLast hxn]
            rw [List.getLast?_eq_getLast_of_ne_nil hxn] at this
            simp only [Option.some.injEq] at this
            rw [this]⟩
        have hlm : l = m := by
          simp only [List.flatten_cons] at h
          rcases List.append_eq_append_iff.1 h with ⟨u, e1, e2⟩ | ⟨u, e1, e2⟩
          · cases u with
            | nil => simpa using e1.symm
            | cons c u =>
              exfalso
              have hne : a ≠ [] := by rintro rfl; simp at e2
              obtain ⟨x', rfl⟩ := hends h1' hne hl.1
              apply hm.2
              rw [e1, List.dropLast_append_of_ne_nil (by simp)]
              simp
          · cases u with
            | nil => simpa using e1
            | cons c u =>
              exfalso
              have hne : b ≠ [] := by rintro rfl; simp at e2
              obtain ⟨x', rfl⟩ := hends h2' hne hm.1
              apply hl.2
              rw [e1, List.dropLast_append_of_ne_nil (by simp)]
              simp
        subst hlm
        rw [List.flatten_cons, List.flatten_cons, List.append_cancel_left_eq] at h
        have htail : ∀ {xs : List Str}, (∀ x ∈ (l :: xs).dropLast, x.getLast? = some '\n') → ∀ x ∈ xs.dropLast, x.getLast? = some '\n' := by
          intro xs hx x hxm
          cases xs with
          | nil => simp at hxm
          | cons y ys => exact hx x (by rw [List.dropLast_cons_of_ne_nil (by simp)]; exact List.mem_cons_of_mem _ hxm)
        rw [ih b h (fun x hx => h1 x (List.mem_cons_of_mem _ hx)) (htail h1') (fun x hx => h2 x (List.mem_cons_of_mem _ hx)) (htail h2')]
  exact key a b (ha.1.trans hb.1.symm) ha.2.1 ha.2.2 hb.2.1 hb.2.2

/-! ### the shape of the command lines -/

theorem openW_files (w : World) (out : Option Str) (q : Str) (h : out ≠ some q) : (w.openW out).files q = w.files q := by
  cases out with
  | none => rfl
  | some p =>
    have : q ≠ p := fun hc => h (by rw [hc])
    simp [World.openW, World.put, this]

theorem emit_wrote (w : World) (out : Option Str) (t : Str) : Wrote out t w ((w.openW out).emit out t) := by
  cases out with
  | none => exact ⟨rfl, rfl⟩
  | some p =>
    refine ⟨⟨?_, rfl⟩, ?_⟩
    · intro q hq
      have : q ≠ p := fun hc => hq (by simp [hc])
      simp [World.openW, World.put, World.emit, this]
    · simp [World.openW, World.put, World.emit]

/-- C74. With an output other than the input, a command line writes its result there (or, if processing fails, leaves the output
file empty) and touches nothing else; in particular the input file is kept. -/
theorem C74_other_file (pipeline : List Str → Except Err Str) (inp : Str) (out : Option Str) (w : World) (text : Str)
    (hi : w.files inp = some text) (ho : out ≠ some inp) :
    ∃ ls, IsLines text ls ∧
      (∀ t, pipeline ls = .ok t → (filterMain pipeline inp out w).2 = .ok () ∧ Wrote out t w (filterMain pipeline inp out w).1) ∧
      (∀ er, pipeline ls = .error er → (filterMain pipeline inp out w).2 = .error er ∧ Wrote out [] w (filterMain pipeline inp out w).1) ∧
      (filterMain pipeline inp out w).1.files inp = some text := by
  have hin : (w.openW out).files inp = some text := by rw [openW_files w out inp ho, hi]
  have hkeep : ∀ (t : Str) (w' : World), Wrote out t w w' → w'.files inp = some text := by
    intro t w' h
    cases out with
    | none => rw [h.1, hi]
    | some p => rw [h.1.1 inp (by simp only [List.mem_singleton]; exact fun hc => ho (by rw [hc])), hi]
  have hnil : Wrote out [] w (w.openW out) := by
    cases out with
    | none => exact ⟨rfl, by simp [World.openW]⟩
    | some p =>
      refine ⟨⟨?_, rfl⟩, by simp [World.openW, World.put]⟩
      intro q hq
      have : q ≠ p := fun hc => hq (by simp [hc])
      simp [World.openW, World.put, this]
  refine ⟨readlines text, isLines_readlines text, ?_, ?_, ?_⟩
  · intro t ht
    unfold filterMain
    simp only [hi, hin, Option.getD_some, ht]
    exact ⟨trivial, emit_wrote w out t⟩
  · intro er ht
    unfold filterMain
    simp only [hi, hin, Option.getD_some, ht]
    exact ⟨trivial, hnil⟩
  · unfold filterMain
    simp only [hi, hin, Option.getD_some]
    cases pipeline (readlines text) with
    | error er => exact hin
    | ok t => exact hkeep t _ (emit_wrote w out t)

theorem modPipeline_nil (env : Env α) (x y : Option α) (e : Bool) (p : Option ℤ) : modPipeline env x y e p [] = .ok [] := by
  cases x <;> cases y <;> cases e <;> cases p <;> rfl

/-- C74 is refuted for a file filtered onto itself: its contents are lost before they are read, whatever they were. -/
theorem C74_same_file_refuted (env : Env α) (x y : Option α) (e : Bool) (p : Option ℤ) (inp text : Str) (w : World) (hi : w.files inp = some text) :
    (filterMain (modPipeline env x y e p) inp (some inp) w).1.files inp = some [] := by
  unfold filterMain
  simp only [hi]
  have h0 : ((w.openW (some inp)).files inp).getD [] = [] := by simp [World.openW, World.put]
  have h1 : (w.openW (some inp)).files inp = some [] := by simp [World.openW, World.put]
  rw [h0]
  cases hp : modPipeline env x y e p (readlines []) with
  | error er => exact h1
  | ok t =>
    have ht : t = [] := by
      have hm := modPipeline_nil env x y e p
      rw [show readlines [] = [] from rfl, hm] at hp
      cases hp; rfl
    subst ht
    simp [World.emit, World.openW, World.put]

example : (⟨fun q => if q = c!"a" then some c!"G1 X1\n" else none, []⟩ : World).files c!"a" = some c!"G1 X1\n" := by decide

/-! ### C68 -/

/-- C68. In-place optimisation (without an output file): if anything fails, no file has changed; otherwise the file has the
result, computed from the lines it had, and no other file has changed. -/
theorem C68_inplace (pipeline : List Str → Except Err Str) (inp text : Str) (w : World) (hi : w.files inp = some text) :
    ∃ ls, IsLines text ls ∧
      (∀ er, pipeline ls = .error er → inplaceMain pipeline inp none w = (w, .error er)) ∧
      (∀ t, pipeline ls = .ok t → (inplaceMain pipeline inp none w).2 = .ok () ∧ OnlyFiles [inp] w (inplaceMain pipeline inp none w).1 ∧
        (inplaceMain pipeline inp none w).1.files inp = some t) := by
  refine ⟨readlines text, isLines_readlines text, ?_, ?_⟩
  · intro er h
    unfold inplaceMain
    simp only [hi, World.openW, Option.getD_some, h]
  · intro t h
    have hm : inplaceMain pipeline inp none w = ((w.openW (some inp)).emit (some inp) t, .ok ()) := by
      unfold inplaceMain
      simp only [hi, World.openW, Option.getD_some, h]
    rw [hm]
    exact ⟨rfl, emit_wrote w (some inp) t⟩

/-- C68. A missing file fails and nothing is created. -/
theorem C68_missing (pipeline : List Str → Except Err Str) (inp : Str) (out : Option Str) (w : World) (hi : w.files inp = none) :
    inplaceMain pipeline inp out w = (w, .error .ioError) ∧ filterMain pipeline inp out w = (w, .error .ioError) := by
  unfold inplaceMain filterMain
  simp only [hi]
  exact ⟨trivial, trivial⟩

/-- C68. The stretch plugin: if anything fails, nothing has changed; otherwise only the file has, and it is what the stretched
program writes. -/
theorem C68_stretch (env : Env α) (sqrt : α → α) (fuel : ℕ) (strength : α) (profile : ProfileOracle α) (file text : Str) (w : World)
    (hi : w.files file = some text) :
    (∀ er, (stretchPlugin env sqrt fuel strength profile file w).2 = .error er → (stretchPlugin env sqrt fuel strength profile file w).1 = w) ∧
    ((stretchPlugin env sqrt fuel strength profile file w).2 = .ok () →
      OnlyFiles [file] w (stretchPlugin env sqrt fuel strength profile file w).1 ∧
      ∃ ls g g1 g2, IsLines text ls ∧ loadFile env ls = .ok g ∧ g.toRelativeE = .ok g1 ∧
        g1.stretch sqrt fuel .cura (StretchRepo.default strength) profile = .ok g2 ∧
        (stretchPlugin env sqrt fuel strength profile file w).1.files file = some g2.write) := by
  unfold stretchPlugin
  simp only [hi, Option.getD_some]
  cases h1 : (loadFile env (readlines text) : Except Err (GCode α)) with
  | error er => exact ⟨fun _ _ => rfl, fun h => by cases h⟩
  | ok g =>
    cases h2 : g.toRelativeE with
    | error er =>
      simp only [bind, Except.bind, h2]
      exact ⟨fun _ _ => trivial, fun h => by cases h⟩
    | ok g1 =>
      cases h3 : g1.stretch sqrt fuel .cura (StretchRepo.default strength) profile with
      | error er =>
        simp only [bind, Except.bind, h2, h3]
        exact ⟨fun _ _ => trivial, fun h => by cases h⟩
      | ok g2 =>
        simp only [bind, Except.bind, h2, h3]
        refine ⟨by simp, fun _ => ?_⟩
        have hw := emit_wrote w (some file) g2.write
        exact ⟨hw.1, readlines text, g, g1, g2, isLines_readlines text, h1, h2, h3, hw.2⟩

/-- The pipeline of the arc optimiser does fail on some files. -/
example : ∃ text er, ∀ t : Trig ℚ, arcPipeline qEnv t (readlines text) = .error er :=
  ⟨c!"G1 X1\nT\n", .valueError, fun t => by with_unfolding_all rfl⟩

/-! ### C69 -/

/-- A flat model. -/
def flat : Str := c!"G1 Z0.2\nG1 X10 E1\nG1 X0 E2\n"

/-- C69 is refuted: on a flat model the plugin fails and the file is empty. -/
theorem C69_refuted : ∃ w : World, w.files c!"a" = some flat ∧
    (tempcalPlugin qEnv 200 240 (3 : ℚ) 10 c!"a" w).2 = .error .runtimeError ∧
    (tempcalPlugin qEnv 200 240 (3 : ℚ) 10 c!"a" w).1.files c!"a" = some [] :=
  ⟨⟨fun q => if q = c!"a" then some flat else none, []⟩, by decide, by decide +kernel, by decide +kernel⟩

/-- What is left in the file when the plugin fails after loading. -/
theorem tempcal_result (env : Env α) (startT endT minZ steps : α) (file text : Str) (w : World) (hi : w.files file = some text) (g : GCode α)
    (hg : loadFile env (readlines text) = .ok g) :
    OnlyFiles [file] w (tempcalPlugin env startT endT minZ steps file w).1 ∧
    (tempcalPlugin env startT endT minZ steps file w).1.files file = some (printed (writeStep env.mode startT endT minZ steps g).1) ∧
    (tempcalPlugin env startT endT minZ steps file w).2 = (writeStep env.mode startT endT minZ steps g).2.map (fun _ => ()) := by
  unfold tempcalPlugin
  simp only [hi, hg]
  have hw := emit_wrote w (some file) (printed (writeStep env.mode startT endT minZ steps g).1)
  exact ⟨hw.1, hw.2, trivial⟩

/-- C69, what holds: if the file cannot be parsed, nothing has changed; other files never change. -/
theorem C69_load_partial (env : Env α) (startT endT minZ steps : α) (file text : Str) (w : World) (hi : w.files file = some text) :
    OnlyFiles [file] w (tempcalPlugin env startT endT minZ steps file w).1 ∧
    ∀ ls er, IsLines text ls → (loadFile env ls : Except Err (GCode α)) = .error er → tempcalPlugin env startT endT minZ steps file w = (w, .error er) := by
  constructor
  · cases hg : (loadFile env (readlines text) : Except Err (GCode α)) with
    | error er =>
      unfold tempcalPlugin
      simp only [hi, hg]
      exact ⟨fun _ _ => rfl, rfl⟩
    | ok g => exact (tempcal_result env startT endT minZ steps file text w hi g hg).1
  · intro ls er hl he
    rw [isLines_unique hl (isLines_readlines text)] at he
    unfold tempcalPlugin
    simp only [hi, he]

/-- C69, the other way round: on every program that is too flat, and with zero steps on every program, the plugin fails and
empties the file. -/
theorem C69_emptied (env : Env α) (startT endT minZ steps : α) (file text : Str) (w : World) (hi : w.files file = some text) (ls : List Str)
    (hl : IsLines text ls) (hne : ls ≠ []) (g : GCode α) (hg : GCode.load env ls = .ok g)
    (hbad : steps = 0 ∨ altitudes g = [] ∨ ∃ b top, IsBase minZ (altitudes g) b ∧ g.zmax = some top ∧ top ≤ b) :
    (∃ er, (tempcalPlugin env startT endT minZ steps file w).2 = .error er) ∧
    (tempcalPlugin env startT endT minZ steps file w).1.files file = some [] := by
  have he := isLines_unique hl (isLines_readlines text)
  subst he
  have hlf : loadFile env (readlines text) = .ok g := by
    unfold GCode.load prepare at hg
    rw [if_neg (by simpa using hne)] at hg
    exact hg
  obtain ⟨_, h2, h3⟩ := tempcal_result env startT endT minZ steps file text w hi g hlf
  rw [h2, h3]
  have hw : ∃ er, writeStep env.mode startT endT minZ steps g = ([], .error er) := by
    unfold writeStep
    by_cases h0 : steps = 0
    · subst h0
      unfold stepInit
      exact ⟨.zeroDivision, by simp⟩
    · have hsi : ∃ v, stepInit steps = .ok v := by
        unfold stepInit
        rw [if_neg h0]
        exact ⟨_, rfl⟩
      obtain ⟨v, hv⟩ := hsi
      rw [hv]
      simp only
      rcases writeTemp_loaded hg env.mode (stepTemp startT endT steps) minZ with ⟨_, hw⟩ | ⟨b, top, hb, hz, hlt, _⟩
      · exact ⟨_, hw⟩
      · exfalso
        rcases hbad with h | h | ⟨b', top', hb', hz', hle⟩
        · exact h0 h
        · obtain ⟨h0, rest, he, _⟩ := hb
          rw [h] at he
          cases he
        · rw [isBase_unique hb hb'] at hlt
          rw [hz] at hz'
          cases hz'
          exact absurd hlt (not_lt.2 hle)
  obtain ⟨er, hw⟩ := hw
  rw [hw]
  exact ⟨⟨er, rfl⟩, rfl⟩

/-! ### C70 -/

/-- C70. `gcode_mod` without options, on a program in which extrusion starts after the height is known: the output is the input
with lines stripped and blank lines removed. -/
theorem C70_identity_partial (env : Env α) (inp text : Str) (out : Option Str) (w : World) (hi : w.files inp = some text) (ho : out ≠ some inp)
    (ls : List Str) (hl : IsLines text ls) (g : GCode α) (hg : GCode.load env ls = .ok g) (hh : HeightFirst g.lines) :
    ∃ texts : List Str, List.Forall₂ IsStrip (ls.filter (fun s => ¬ IsBlank s)) texts ∧
      (filterMain (modPipeline env none none false none) inp out w).2 = .ok () ∧
      Wrote out (texts.flatMap (fun t => t ++ ['\n'])) w (filterMain (modPipeline env none none false none) inp out w).1 := by
  obtain ⟨texts, h1, h2⟩ := C01_write_load env ls false Home.init g hg
  obtain ⟨ls', hl', h3, _, _⟩ := C74_other_file (modPipeline env none none false none) inp out w text hi ho
  have he := isLines_unique hl' hl
  subst he
  have hz := (iteratorZs_ok (mode := env.mode) (digits := 2) g).2 (load_heights hg hh)
  have hp : modPipeline env none none false none ls' = .ok g.write := by
    unfold modPipeline
    rw [hg]
    simp only [Option.isSome_none, Bool.or_self, Bool.false_eq_true, if_false, bind, Except.bind, hz]
  obtain ⟨k1, k2⟩ := h3 _ hp
  exact ⟨texts, h1, k1, by rw [← h2]; exact k2⟩

/-- C70 is refuted: a program that extrudes before it names a height makes it fail, although no option asks for heights. -/
theorem C70_refuted : ∃ (text : Str) (g : GCode ℚ), GCode.load qEnv (readlines text) = .ok g ∧
    modPipeline (α := ℚ) qEnv none none false none (readlines text) = .error .typeError :=
  ⟨c!"G1 X10 E1\nG1 Z5\n", loadQ (readlines c!"G1 X10 E1\nG1 Z5\n"), by decide +kernel, by decide +kernel⟩

example : IsLines c!"G1 Z5\n\nG1 X10 E1" [c!"G1 Z5\n", c!"\n", c!"G1 X10 E1"] := isLines_readlines _

/-! ### C75 -/

/-- C75 is refuted, for every number of steps: giving `--steps` makes the stepped gradient fail on every program that can be parsed,
and an output file named on the command line is left empty. -/
theorem C75_refuted (env : Env α) (startT endT minZ : α) (steps inp text : Str) (out : Option Str) (w : World) (hi : w.files inp = some text)
    (ho : out ≠ some inp) (ls : List Str) (hl : IsLines text ls) (g : GCode α) (hg : GCode.load env ls = .ok g) :
    (tempcalMain env startT endT minZ false (some steps) inp out w).2 = .error .typeError ∧
    Wrote out [] w (tempcalMain env startT endT minZ false (some steps) inp out w).1 := by
  have he := isLines_unique hl (isLines_readlines text)
  subst he
  have hin : (w.openW out).files inp = some text := by rw [openW_files w out inp ho, hi]
  unfold tempcalMain
  simp only [hi, hin, Option.getD_some, hg, Bool.false_eq_true, if_false, stepInitFromText]
  exact ⟨rfl, emit_wrote w out []⟩

/-- C75, what holds: with `--continuous` the option is ignored, and without either the number of steps is ten. -/
theorem C75_partial (env : Env α) (startT endT minZ : α) (inp text : Str) (out : Option Str) (w : World) (hi : w.files inp = some text)
    (ho : out ≠ some inp) (ls : List Str) (hl : IsLines text ls) (g : GCode α) (hg : GCode.load env ls = .ok g) :
    (∀ steps : Option Str, (tempcalMain env startT endT minZ true steps inp out w).2 = (writeContinuous env.mode startT endT minZ g).2.map (fun _ => ()) ∧
      Wrote out ((writeContinuous env.mode startT endT minZ g).1.flatMap (fun t => t ++ ['\n'])) w (tempcalMain env startT endT minZ true steps inp out w).1) ∧
    (tempcalMain env startT endT minZ false none inp out w).2 = (writeStep env.mode startT endT minZ 10 g).2.map (fun _ => ()) ∧
    Wrote out ((writeStep env.mode startT endT minZ 10 g).1.flatMap (fun t => t ++ ['\n'])) w (tempcalMain env startT endT minZ false none inp out w).1 := by
  have he := isLines_unique hl (isLines_readlines text)
  subst he
  have hin : (w.openW out).files inp = some text := by rw [openW_files w out inp ho, hi]
  unfold tempcalMain
  simp only [hi, hin, Option.getD_some, hg, Bool.false_eq_true, if_false, if_true]
  exact ⟨fun _ => ⟨trivial, emit_wrote w out _⟩, trivial, emit_wrote w out _⟩

/-- C75, the Cura plugin: it writes the stepped gradient with the given number of steps into the file, each line followed by one
newline. -/
theorem C75_plugin_partial (env : Env α) (startT endT minZ steps : α) (file text : Str) (w : World) (hi : w.files file = some text)
    (ls : List Str) (hl : IsLines text ls) (g : GCode α) (hg : loadFile env ls = .ok g) :
    (tempcalPlugin env startT endT minZ steps file w).1.files file = some ((writeStep env.mode startT endT minZ steps g).1.flatMap (fun t => t ++ ['\n'])) ∧
    (tempcalPlugin env startT endT minZ steps file w).2 = (writeStep env.mode startT endT minZ steps g).2.map (fun _ => ()) := by
  have he := isLines_unique hl (isLines_readlines text)
  subst he
  exact (tempcal_result env startT endT minZ steps file text w hi g hg).2

/-- C42 for the base class, which has no temperature of its own: it inserts nothing, and fails with RuntimeError (TypeError on an
object without heights) before writing, or with NotImplementedError at the first layer within the range. -/
theorem C42_base (mode : RoundMode) (minZ : α) (st : TempSt α) (g : GCode α) :
    (∃ k, (writeTemp mode baseTemp minZ st g).1 = ((g.allLayers.take k).map (fun L => L.lines.map (·.raw))).flatten ∧
      ∀ st', (writeTemp mode baseTemp minZ st g).2 = .ok st' → k = g.allLayers.length) ∧
    ∀ er, (writeTemp mode baseTemp minZ st g).2 = .error er → er = .notImplemented ∨
      (writeTemp mode baseTemp minZ st g).1 = [] ∧ (er = .runtimeError ∨ er = .typeError) := by
  have loop : ∀ (zm zM : α) (Ls : List (Layer α)) (last : Option α),
      (∃ k, (writeLoop mode baseTemp zm zM last Ls).1 = ((Ls.take k).map (fun L => L.lines.map (·.raw))).flatten ∧
        ∀ r, (writeLoop mode baseTemp zm zM last Ls).2 = .ok r → k = Ls.length) ∧
      ∀ er, (writeLoop mode baseTemp zm zM last Ls).2 = .error er → er = .notImplemented := by
    intro zm zM Ls
    induction Ls with
    | nil => intro last; exact ⟨⟨0, rfl, fun _ _ => rfl⟩, fun er h => nomatch h⟩
    | cons L Ls ih =>
      intro last
      unfold writeLoop
      cases hz : layerZ L with
      | none =>
        have hL : L.lines = [] := by
          unfold layerZ at hz
          cases h : L.lines with
          | nil => rfl
          | cons l ls => rw [h] at hz; simp at hz
        obtain ⟨⟨k, h1, h2⟩, h3⟩ := ih last
        refine ⟨⟨k + 1, by simp only [h1, List.take_succ_cons, List.map_cons, hL, List.map_nil, List.flatten_cons, List.nil_append], ?_⟩, h3⟩
        intro r hr
        rw [h2 r hr]; rfl
      | some cz =>
        simp only
        cases ht : tempStep mode baseTemp zm zM last cz with
        | error er =>
          refine ⟨⟨0, rfl, fun r hr => nomatch hr⟩, ?_⟩
          intro er' h
          have : er' = er := by simpa using h.symm
          subst this
          unfold tempStep at ht
          cases cz with
          | none => simp at ht
          | some c =>
            simp only [baseTemp] at ht
            split_ifs at ht
            simpa using ht.symm
        | ok p =>
          obtain ⟨last', ins⟩ := p
          have hins : ins = none := by
            unfold tempStep at ht
            cases cz with
            | none => simp at ht; exact ht.2.symm
            | some c =>
              simp only [baseTemp] at ht
              split_ifs at ht
              simp at ht; exact ht.2.symm
          subst hins
          obtain ⟨⟨k, h1, h2⟩, h3⟩ := ih last'
          refine ⟨⟨k + 1, by simp only [h1, List.take_succ_cons, List.map_cons, List.flatten_cons, Option.toList_none, List.nil_append], ?_⟩, h3⟩
          intro r hr
          rw [h2 r hr]; rfl
  unfold writeTemp
  cases hp : parseHeights minZ g.zmax st.zmin g.allLayers with
  | error er =>
    refine ⟨⟨0, rfl, fun _ h => nomatch h⟩, ?_⟩
    intro er' h
    have : er' = er := by simpa using h.symm
    subst this
    right
    refine ⟨rfl, ?_⟩
    unfold parseHeights at hp
    split at hp
    · left; simpa using hp.symm
    · split at hp
      · right; simpa using hp.symm
      · split_ifs at hp
        left; simpa using hp.symm
  | ok p =>
    obtain ⟨zm, zM⟩ := p
    obtain ⟨⟨k, h1, h2⟩, h3⟩ := loop zm zM g.allLayers st.lastTarget
    refine ⟨⟨k, h1, ?_⟩, ?_⟩
    · intro st' h
      cases hr : (writeLoop mode baseTemp zm zM st.lastTarget g.allLayers).2 with
      | error er => simp only [hr] at h; simp [Except.map] at h
      | ok r => exact h2 r hr
    · intro er h
      cases hr : (writeLoop mode baseTemp zm zM st.lastTarget g.allLayers).2 with
      | error er' =>
        simp only [hr] at h
        have : er' = er := by simpa [Except.map] using h
        left
        rw [← this]
        exact h3 er' hr
      | ok r => simp only [hr] at h; simp [Except.map] at h

/-- The base class on a program with layers above the lowest one: NotImplementedError. -/
example : (writeTemp .halfEven baseTemp (0 : ℚ) {} (loadQ spire)).2.map (fun _ => ()) = .error .notImplemented := by decide +kernel

end GCodeUtils
