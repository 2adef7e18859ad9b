import Verif.Lemmas.Written
import Verif.Lemmas.Build
import Verif.Props.Common

/-
  C27-C35: the filter framework, translation and conversion to relative extrusion.
-/

set_option linter.unusedSectionVars false

namespace GCodeUtils

open Spec

variable {α : Type} [Field α] [LinearOrder α] [IsStrictOrderedRing α] [FloorRing α]

/-! ### C27: translation -/

theorem program_def (g : GCode α) : program g = g.allLayers.flatMap (·.lines) := by
  unfold program layerLines; rw [List.flatMap_def]

theorem translate_program (g : GCode α) (x y : Option α) :
    ∃ g', g.translate x y = .ok g' ∧ g' = { g with allLayers := g'.allLayers } ∧
      program g' = (scan transLine (TransSt.init x y) (program g)).2 := by
  refine ⟨_, translate_eq g x y, rfl, ?_⟩
  rw [program_def, program_def]
  exact (scanLayers_flat transLine g.allLayers _).1

/-- **C27** (partial).  Translation always succeeds and keeps the number of lines.  Run the original and the translated
program side by side, from any printer state.  As long as the lines executed so far are in the class `TrackSt`
describes (moves naming X or Y only after a `G90`/`G91`; every `G92` has an X, Y or Z word, and those naming X or Y come before the first absolute
move on that axis after power-on; no homing after such a `G92`), the two printers are in the same state except that
each axis for which an absolute move has been executed since homing is displaced by exactly the requested amount.
Missing: the programs outside the class, where the claim is false, see `C27_unstated_refuted`, `C27_g92_refuted`,
`C28_refuted`, and programs in inches, see `C27_inch_refuted`. -/
theorem C27_translation_partial (g : GCode α) (x y : Option α) (home : Pos3 α) (p : Printer α) :
    ∃ g', g.translate x y = .ok g' ∧ (program g').length = (program g).length ∧
      ∀ n t, ({} : TrackSt).run ((program g).take n) = some t →
        let a := p.run home ((program g).take n)
        let b := p.run home ((program g').take n)
        b.pos.x = a.pos.x + (if t.x.isPlaced then x.getD 0 else 0) ∧
        b.pos.y = a.pos.y + (if t.y.isPlaced then y.getD 0 else 0) ∧
        b.pos.z = a.pos.z ∧ b = { a with pos := b.pos, org := b.org } ∧ b.org.z = a.org.z := by
  obtain ⟨g', h1, _, h2⟩ := translate_program g x y
  refine ⟨g', h1, by rw [h2, scan_length], ?_⟩
  intro n t ht a b
  have hb : b = p.run home (scan transLine (TransSt.init x y) ((program g).take n)).2 := by
    show p.run home _ = _
    rw [h2, scan_take]
  have inv := trans_run (home := home) ((program g).take n) (trans_init (x.getD 0) (y.getD 0) p) ht
  rw [show (⟨x.getD 0, y.getD 0, false, none⟩ : TransSt α) = TransSt.init x y from rfl, ← hb] at inv
  have ha : a = p.run home ((program g).take n) := rfl
  rw [← ha] at inv
  clear_value a b
  rcases a with ⟨_, _, _, _, ⟨_, _, _⟩, ⟨_, _, _⟩, _, _, _, _, _⟩
  rcases b with ⟨_, _, _, _, ⟨_, _, _⟩, ⟨_, _, _⟩, _, _, _, _, _⟩
  have hr := inv.rest
  simp only [Printer.mk.injEq, Pos3.mk.injEq, true_and] at hr
  obtain ⟨rfl, rfl, rfl, rfl, rfl, rfl, rfl, rfl, rfl, rfl, rfl⟩ := hr
  exact ⟨inv.x.shift, inv.y.shift, rfl, rfl, rfl⟩

/-- **C27**, consequence: every absolute move ends exactly `x` further on the X axis if it names X, and exactly `y`
further on the Y axis if it names Y. -/
theorem C27_targets_partial (g : GCode α) (x y : Option α) (home : Pos3 α) (p : Printer α) :
    ∃ g', g.translate x y = .ok g' ∧ ∀ pre l post t, program g = pre ++ l :: post → ({} : TrackSt).run pre = some t →
      t.mode = some true → IsMove l →
      let a := p.run home ((program g).take (pre.length + 1))
      let b := p.run home ((program g').take (pre.length + 1))
      (l.x ≠ none → b.pos.x = a.pos.x + x.getD 0) ∧ (l.y ≠ none → b.pos.y = a.pos.y + y.getD 0) ∧
      b.pos.z = a.pos.z ∧ b.pushed = a.pushed ∧ b.feed = a.feed := by
  obtain ⟨g', h1, _, h3⟩ := C27_translation_partial g x y home p
  refine ⟨g', h1, ?_⟩
  intro pre l post t hp ht hm hl a b
  have htake : (program g).take (pre.length + 1) = pre ++ [l] := by
    rw [hp, show pre ++ l :: post = (pre ++ [l]) ++ post by simp, List.take_left' (by simp)]
  have place : ∀ a : AxisSt, a.place.isPlaced = true := by intro a; cases a <;> rfl
  obtain ⟨t', ht', hx, hy⟩ : ∃ t', t.step l = some t' ∧ (l.x ≠ none → t'.x.isPlaced = true) ∧ (l.y ≠ none → t'.y.isPlaced = true) := by
    unfold TrackSt.step
    rw [if_pos hl]
    by_cases hn : l.x = none ∧ l.y = none
    · rw [if_pos hn]
      exact ⟨t, rfl, fun h => absurd hn.1 h, fun h => absurd hn.2 h⟩
    · rw [if_neg hn, hm]
      refine ⟨_, rfl, ?_, ?_⟩
      · intro h
        have : l.x.isSome = true := Option.isSome_iff_ne_none.2 h
        simp only [this, if_true]; exact place _
      · intro h
        have : l.y.isSome = true := Option.isSome_iff_ne_none.2 h
        simp only [this, if_true]; exact place _
  have := h3 (pre.length + 1) t' (by rw [htake, track_append, ht]; simp [TrackSt.run, ht'])
  obtain ⟨k1, k2, k3, k4, _⟩ := this
  refine ⟨fun h => ?_, fun h => ?_, k3, ?_, ?_⟩
  · rw [hx h] at k1; simpa using k1
  · rw [hy h] at k2; simpa using k2
  · have := congrArg Printer.pushed k4; exact this
  · have := congrArg Printer.feed k4; exact this

theorem track_g92free (ls : List (PyLine α)) : ∀ {t : TrackSt}, (t.x = .home ∨ t.x = .placed) → (t.y = .home ∨ t.y = .placed) →
    (∀ l ∈ ls, ¬ HasCmd l c!"G92") → (t.mode ≠ none ∨ ModeStated ls) → ∃ t', t.run ls = some t' := by
  induction ls with
  | nil => intro t _ _ _ _; exact ⟨t, rfl⟩
  | cons l ls ih =>
    intro t hx hy h92 hm
    have place : ∀ a : AxisSt, (a = .home ∨ a = .placed) → (a.place = .home ∨ a.place = .placed) := by
      rintro a (rfl | rfl) <;> exact .inr rfl
    have rehome : ∀ a : AxisSt, (a = .home ∨ a = .placed) → a.rehome = some .home := by
      rintro a (rfl | rfl) <;> rfl
    have next : ∀ t1 : TrackSt, t.step l = some t1 → (t1.x = .home ∨ t1.x = .placed) → (t1.y = .home ∨ t1.y = .placed) →
        (t1.mode ≠ none ∨ ModeStated ls) → ∃ t', t.run (l :: ls) = some t' := by
      intro t1 h1 hx1 hy1 hm1
      obtain ⟨t', ht'⟩ := ih hx1 hy1 (fun l' h' => h92 l' (by simp [h'])) hm1
      exact ⟨t', by simp only [TrackSt.run, h1, Option.bind_some]; exact ht'⟩
    have tail : ¬ (HasCmd l c!"G90" ∨ HasCmd l c!"G91") → t.mode = none → ModeStated ls := by
      intro hn h0 pre m post he hmv hxy
      rcases hm with hm | hm
      · exact absurd h0 hm
      · obtain ⟨m', hmem, hc⟩ := hm (l :: pre) m post (by rw [he]; rfl) hmv hxy
        rcases List.mem_cons.1 hmem with rfl | hmem
        · exact absurd hc hn
        · exact ⟨m', hmem, hc⟩
    have tail' : ¬ (HasCmd l c!"G90" ∨ HasCmd l c!"G91") → t.mode ≠ none ∨ ModeStated ls := by
      intro hn
      by_cases h0 : t.mode = none
      · exact .inr (tail hn h0)
      · exact .inl h0
    by_cases hmv : IsMove l
    · have n90 : ¬ (HasCmd l c!"G90" ∨ HasCmd l c!"G91") := by
        obtain ⟨c, hc, hl⟩ := hmv
        rw [HasCmd, HasCmd, hl]
        simp only [Option.some.injEq]
        rintro (rfl | rfl) <;> simp at hc
      by_cases hn : l.x = none ∧ l.y = none
      · exact next t (by unfold TrackSt.step; rw [if_pos hmv, if_pos hn]) hx hy (tail' n90)
      · cases hmode : t.mode with
        | none =>
          exfalso
          rcases hm with hm | hm
          · exact hm hmode
          · obtain ⟨m', hmem, _⟩ := hm [] l ls rfl hmv (by tauto)
            simp at hmem
        | some b =>
          cases b with
          | false => exact next t (by unfold TrackSt.step; rw [if_pos hmv, if_neg hn, hmode]) hx hy (tail' n90)
          | true =>
            refine next _ (by unfold TrackSt.step; rw [if_pos hmv, if_neg hn, hmode]) ?_ ?_ (.inl (by simp))
            · simp only; split
              · exact place _ hx
              · exact hx
            · simp only; split
              · exact place _ hy
              · exact hy
    · by_cases h90 : HasCmd l c!"G90"
      · exact next { t with mode := some true } (by unfold TrackSt.step; rw [if_neg hmv, if_pos h90]) hx hy (.inl (by simp))
      · by_cases h91 : HasCmd l c!"G91"
        · exact next { t with mode := some false } (by unfold TrackSt.step; rw [if_neg hmv, if_neg h90, if_pos h91]) hx hy (.inl (by simp))
        · have hn : ¬ (HasCmd l c!"G90" ∨ HasCmd l c!"G91") := by tauto
          by_cases h28 : HasCmd l c!"G28"
          · have hst : t.step l = some { t with x := if l.x.isSome || !(l.x.isSome || l.y.isSome || l.z.isSome) then .home else t.x, y := if l.y.isSome || !(l.x.isSome || l.y.isSome || l.z.isSome) then .home else t.y } := by
              unfold TrackSt.step
              rw [if_neg hmv, if_neg h90, if_neg h91, if_pos h28, rehome _ hx, rehome _ hy]
              cases l.x.isSome <;> cases l.y.isSome <;> cases l.z.isSome <;> rfl
            refine next _ hst ?_ ?_ (tail' hn)
            · simp only; split
              · exact .inl rfl
              · exact hx
            · simp only; split
              · exact .inl rfl
              · exact hy
          · exact next t (by unfold TrackSt.step; rw [if_neg hmv, if_neg h90, if_neg h91, if_neg h28, if_neg (h92 l (by simp))]) hx hy (tail' hn)

/-- **C27** on texts (partial).  Load a program that is in millimetres, has no `G92` and states its distance mode before
its first X/Y move, translate it, and feed the *written texts* of original and translation to two printers.  After any
number of lines every axis is displaced by the requested amount (once an absolute move has named it since homing, not
displaced before), up to half a thousandth of a millimetre of rounding, which does not accumulate; the net filament
pushed differs by at most 0.000005 per line. -/
theorem C27_written_partial {env : Env α} {data : List Str} {home : Home α} {g : GCode α} (h : GCode.load env data false home = .ok g)
    (hc : ∀ l ∈ g.lines, CommandFirst l.raw ∧ HomingClear (α := α) l.raw)
    (h20 : ∀ l ∈ g.lines, ¬ HasCmd l c!"G20") (h92 : ∀ l ∈ g.lines, ¬ HasCmd l c!"G92") (hm : ModeStated g.lines) (x y : Option α) :
    ∃ g', g.translate x y = .ok g' ∧ ∀ n, ∃ t, ({} : TrackSt).run (g.lines.take n) = some t ∧
      let a := Printer.start.final ⟨home.x, home.y, home.z⟩ ((g.lines.take n).map (·.raw))
      let b := Printer.start.final ⟨home.x, home.y, home.z⟩ (((program g').take n).map (·.raw))
      |b.pos.x - (a.pos.x + (if t.x.isPlaced then x.getD 0 else 0))| ≤ 5 / 10 ^ 4 ∧
      |b.pos.y - (a.pos.y + (if t.y.isPlaced then y.getD 0 else 0))| ≤ 5 / 10 ^ 4 ∧
      |b.pos.z - a.pos.z| ≤ 5 / 10 ^ 4 ∧ |b.pushed - a.pushed| ≤ n * (5 / 10 ^ 6) ∧
      b.rel = a.rel ∧ b.relE = a.relE ∧ b.tool = a.tool := by
  have hl : g.lines = program g := (load_indexed h).flat
  obtain ⟨g', h1, h2, h3⟩ := C27_translation_partial g x y ⟨home.x, home.y, home.z⟩ Printer.start
  obtain ⟨g'', h1', _, hprog⟩ := translate_program g x y
  rw [h1] at h1'
  obtain rfl : g' = g'' := Except.ok.inj h1'
  refine ⟨g', h1, ?_⟩
  intro n
  have hsub : ∀ l ∈ g.lines.take n, l ∈ g.lines := fun l hl => List.mem_of_mem_take hl
  obtain ⟨t, ht⟩ := track_g92free (g.lines.take n) (t := {}) (.inl rfl) (.inl rfl) (fun l hl => h92 l (hsub l hl))
    (.inr (fun pre l post he hmv hxy => by
      refine hm pre l (post ++ g.lines.drop n) ?_ hmv hxy
      conv_lhs => rw [← List.take_append_drop n g.lines, he]
      simp))
  refine ⟨t, ht, ?_⟩
  intro a b
  obtain ⟨e1, e2, e3, e4, _⟩ := h3 n t (by rw [← hl]; exact ht)
  have ha : a = Printer.start.run ⟨home.x, home.y, home.z⟩ ((program g).take n) := by
    rw [← hl]; exact (load_exec h hc n).symm
  have htx := load_textual h hc h20
  have near := trans_written (home := ⟨home.x, home.y, home.z⟩) (g.lines.take n) (s := TransSt.init x y)
    (w := Printer.start) (q := Printer.start) (k := 0)
    ((Near.self _).mono (by norm_num) (le_refl _) (by simp)) rfl (by intro b hb; simp [TransSt.init] at hb)
    (fun l hl => htx l (hsub l hl)) (fun l hl => h92 l (hsub l hl)) (fun l hl => h20 l (hsub l hl))
  rw [hl, scan_take, ← hprog] at near
  have hbe : b = Printer.start.final ⟨home.x, home.y, home.z⟩ (((program g').take n).map (·.raw)) := rfl
  rw [← hbe] at near
  rw [← ha] at e1 e2 e3 e4
  have hlen : ((0 + ((program g).take n).length : ℕ) : α) ≤ n := by
    have : ((program g).take n).length ≤ n := by simp
    exact_mod_cast (by omega : 0 + ((program g).take n).length ≤ n)
  clear_value a b
  generalize Printer.start.run ⟨home.x, home.y, home.z⟩ ((program g').take n) = q at near e1 e2 e3 e4
  refine ⟨by rw [← e1]; exact near.px, by rw [← e2]; exact near.py, by rw [← e3]; exact near.pz, ?_, ?_, ?_, ?_⟩
  · have hpu : q.pushed = a.pushed := by have := congrArg Printer.pushed e4; exact this
    rw [← hpu, near.push]
    exact near.e.trans (by nlinarith)
  · rw [near.rel]; have := congrArg Printer.rel e4; exact this
  · rw [near.relE]; have := congrArg Printer.relE e4; exact this
  · rw [near.tool]; have := congrArg Printer.tool e4; exact this

/-- The translated program, for computed examples. -/
def transQ (g : GCode ℚ) (x y : ℚ) : GCode ℚ := okOr g (g.translate (some x) (some y))

/-- The texts of a program. -/
def texts (g : GCode ℚ) : List Str := (program g).map (·.raw)

/-- Where the head is after the texts. -/
def headAfter (ts : List Str) : ℚ × ℚ × ℚ :=
  let p := (Printer.start.final ⟨0, 0, 0⟩ ts : Printer ℚ)
  (p.pos.x, p.pos.y, p.pos.z)

example : (({} : TrackSt).run (program sampleG)).isSome = false ∧ (({} : TrackSt).run ((program sampleG).take 8)).isSome = true := by
  decide +kernel

/-- Relative moves, homing, an offset set at home, and absolute moves. -/
def transSample : List Str :=
  [c!"G28", c!"G90", c!"G92 X1 Z0", c!"G1 X10 Y10 E1", c!"G91", c!"G1 X1 Y1 ; rel", c!"G90", c!"G92 X0.5", c!"G1 Y1.0004 E3"]

example : GCode.load qEnv transSample = .ok (loadQ transSample) ∧
    ({} : TrackSt).run (program (loadQ transSample)) = some { mode := some true, x := .placedOff, y := .placed } ∧
    texts (transQ (loadQ transSample) 5 (-2)) =
      [c!"G28", c!"G90", c!"G92 X-4.000 Z0.000", c!"G1 X10.000 Y8.000 E1.00000", c!"G91", c!"G1 X1 Y1 ; rel", c!"G90", c!"G92 X0.500",
       c!"G1 Y-1.000 E3.00000"] := by decide +kernel

/-- A program meeting the conditions of `C27_written_partial`. -/
def plainSample : List Str := [c!"G28", c!"G90", c!"G1 X10 Y10 E1", c!"G91", c!"G1 X1 Y1 ; rel", c!"G90", c!"G1 Y1.0004 E3"]

example : GCode.load qEnv plainSample = .ok (loadQ plainSample) ∧
    (∀ l ∈ (loadQ plainSample).lines, CommandFirst l.raw ∧ HomingClear (α := ℚ) l.raw) ∧
    (∀ l ∈ (loadQ plainSample).lines, ¬ HasCmd l c!"G20") ∧ (∀ l ∈ (loadQ plainSample).lines, ¬ HasCmd l c!"G92") := by decide +kernel
example : ModeStated (loadQ plainSample).lines := by
  intro pre l post he hm hxy
  have hl : (loadQ plainSample).lines.take 2 ++ (loadQ plainSample).lines.drop 2 = pre ++ l :: post := by rw [← he]; simp
  have h2 : ∀ m ∈ (loadQ plainSample).lines.take 2, ¬ IsMove m := by decide +kernel
  have h90 : ∃ m ∈ (loadQ plainSample).lines.take 2, HasCmd m c!"G90" := by decide +kernel
  obtain ⟨m, hm1, hm2⟩ := h90
  rcases List.append_eq_append_iff.1 hl with ⟨as, h1, _⟩ | ⟨bs, h1, h3⟩
  · exact ⟨m, by rw [h1]; simp [hm1], .inl hm2⟩
  · cases bs with
    | nil => rw [List.append_nil] at h1; exact ⟨m, by rw [← h1]; exact hm1, .inl hm2⟩
    | cons b bs =>
      obtain ⟨rfl, _⟩ := List.cons.inj h3
      exact absurd hm (h2 l (by rw [h1]; simp))

example : headAfter (texts (loadQ plainSample)) = (11, 1 + 4 / 10000, 0) ∧
    headAfter (texts (transQ (loadQ plainSample) 5 (-2))) = (16, -1, 0) := by decide +kernel

/-- **C27**: a program that never states a distance mode is not translated at all. -/
theorem C27_unstated_refuted : ∃ g : GCode ℚ, GCode.load qEnv [c!"G28", c!"G1 X10 Y10"] = .ok g ∧
    ∃ g', g.translate (some 5) (some 0) = .ok g' ∧ texts g' = texts g ∧ headAfter (texts g') = (10, 10, 0) :=
  ⟨loadQ [c!"G28", c!"G1 X10 Y10"], by decide +kernel, transQ (loadQ [c!"G28", c!"G1 X10 Y10"]) 5 0, by decide +kernel⟩

/-- **C27**: after a `G92` on a displaced head the displacement doubles: the last move should end at 15+5=20, it ends at 25. -/
theorem C27_g92_refuted : ∃ g : GCode ℚ, GCode.load qEnv [c!"G90", c!"G1 X10 Y10", c!"G92 X0 Y0", c!"G1 X5"] = .ok g ∧
    ∃ g', g.translate (some 5) (some 0) = .ok g' ∧ (headAfter (texts g)).1 = 15 ∧ (headAfter (texts g')).1 = 25 :=
  ⟨loadQ [c!"G90", c!"G1 X10 Y10", c!"G92 X0 Y0", c!"G1 X5"], by decide +kernel,
    transQ (loadQ [c!"G90", c!"G1 X10 Y10", c!"G92 X0 Y0", c!"G1 X5"]) 5 0, by decide +kernel⟩

/-- **C27**: in a program in inches the rewritten lines give millimetres where inches are read: the head ends at
772.16 mm instead of 25.4+5=30.4 mm. -/
theorem C27_inch_refuted : ∃ g : GCode ℚ, GCode.load qEnv [c!"G20", c!"G90", c!"G1 X1"] = .ok g ∧
    ∃ g', g.translate (some 5) (some 0) = .ok g' ∧ (headAfter (texts g)).1 = 254 / 10 ∧ (headAfter (texts g')).1 = 77216 / 100 :=
  ⟨loadQ [c!"G20", c!"G90", c!"G1 X1"], by decide +kernel, transQ (loadQ [c!"G20", c!"G90", c!"G1 X1"]) 5 0, by decide +kernel⟩

/-! ### C28: G92 without axis words -/

/-- **C28** is false: after `G92 E0` the X/Y origin has moved and the translation is off.  The last move should end at
20+5=25 and ends at 40. -/
theorem C28_refuted : ∃ g : GCode ℚ, GCode.load qEnv [c!"G90", c!"G1 X10 Y10 E1", c!"G92 E0", c!"G1 X20 E1"] = .ok g ∧
    ∃ g', g.translate (some 5) (some 3) = .ok g' ∧ (headAfter (texts g)).1 = 20 ∧ (headAfter (texts g')).1 = 40 ∧
      (texts g')[2]? = some c!"G92 X-5.000 Y-3.000 E0.00000" :=
  ⟨loadQ [c!"G90", c!"G1 X10 Y10 E1", c!"G92 E0", c!"G1 X20 E1"], by decide +kernel,
    transQ (loadQ [c!"G90", c!"G1 X10 Y10 E1", c!"G92 E0", c!"G1 X20 E1"]) 5 3, by decide +kernel⟩

/-- **C28** (partial).  A `G92` line that names Z but neither X nor Y keeps its argument values, and the other lines are
translated exactly as if it were not there.  Missing: `G92` lines without any of X, Y, Z, where the claim is
false. -/
theorem C28_z_partial (g h : GCode α) (x y : Option α) (pre post : List (PyLine α)) (l : PyLine α)
    (hg : program g = pre ++ l :: post) (hh : program h = pre ++ post) (hl : HasCmd l c!"G92") (hx : l.x = none) (hy : l.y = none)
    (hz : l.z ≠ none) : ∃ g' h' pre' l' post', g.translate x y = .ok g' ∧ h.translate x y = .ok h' ∧ pre'.length = pre.length ∧
      program g' = pre' ++ l' :: post' ∧ program h' = pre' ++ post' ∧ SameArgs l' l := by
  obtain ⟨g', h1, _, h2⟩ := translate_program g x y
  obtain ⟨h', k1, _, k2⟩ := translate_program h x y
  rw [hg, scan_append] at h2
  rw [hh, scan_append] at k2
  generalize hs : (scan transLine (TransSt.init x y) pre).1 = s at h2 k2
  have hm : ¬ IsMove l := by
    rintro ⟨c, hc, hl'⟩
    rw [HasCmd, hl', Option.some.injEq] at hl
    subst hl; simp at hc
  have n90 : ¬ HasCmd l c!"G90" := by
    intro h; rw [HasCmd, hl] at h; exact absurd h (by decide)
  have n91 : ¬ HasCmd l c!"G91" := by
    intro h; rw [HasCmd, hl] at h; exact absurd h (by decide)
  have ht : transLine s l = translateG92 s l := by
    unfold transLine; rw [if_neg hm, if_neg n90, if_neg n91, if_pos hl]
  obtain ⟨a1, a2, a3, a4, a5, a6, a7, a8, a9, a10, a11⟩ := translateG92_args s l (fun h => hz h.2.2)
  have hst : (translateG92 s l).1 = s := by
    have hf := translateG92_first s l
    rcases hs' : (translateG92 s l).1 with ⟨u, v, b, m⟩
    rw [hs'] at a9 a10 a11 hf
    rcases s with ⟨tx, ty, b', m'⟩
    simp only [hx, hy] at a9 a10 a11 hf
    simp at a9 a10
    subst a9; subst a10; subst a11; subst hf; rfl
  refine ⟨g', h', (scan transLine (TransSt.init x y) pre).2, (translateG92 s l).2, (scan transLine s post).2, h1, k1, scan_length _ _ _, ?_, k2, ?_⟩
  · rw [h2]; simp only [scan, ht, hst]
  · exact ⟨a8, by rw [a1, hx]; rfl, by rw [a2, hy]; rfl, a3, a4, a5, a6, a7⟩

example : texts (transQ (loadQ [c!"G90", c!"G1 X1", c!"G92 Z5 E1", c!"G1 X2"]) 5 0) =
    [c!"G90", c!"G1 X6.000", c!"G92 Z5.000 E1.00000", c!"G1 X7.000"] := by decide +kernel

/-! ### C29: what translation leaves alone -/

theorem scan_forall₂ {σ : Type} {R : PyLine α → PyLine α → Prop} {f : σ → PyLine α → σ × PyLine α} (P : σ → Prop)
    (h : ∀ s l, P s → P (f s l).1 ∧ R l (f s l).2) (ls : List (PyLine α)) :
    ∀ s, P s → P (scan f s ls).1 ∧ List.Forall₂ R ls (scan f s ls).2 := by
  induction ls with
  | nil => intro s hs; exact ⟨hs, .nil⟩
  | cons l ls ih =>
    intro s hs
    obtain ⟨h1, h2⟩ := h s l hs
    obtain ⟨h3, h4⟩ := ih _ h1
    exact ⟨h3, .cons h2 h4⟩

theorem scanLayers_layerWise {σ : Type} {R : PyLine α → PyLine α → Prop} {f : σ → PyLine α → σ × PyLine α} (P : σ → Prop)
    (h : ∀ s l, P s → P (f s l).1 ∧ R l (f s l).2) (Ls : List (Layer α)) :
    ∀ s, P s → LayerWise R Ls (scanLayers f s Ls).2 := by
  induction Ls with
  | nil => intro s _; exact .nil
  | cons L Ls ih =>
    intro s hs
    obtain ⟨h1, h2⟩ := scan_forall₂ P h L.lines s hs
    exact .cons ⟨rfl, rfl, h2⟩ (ih _ h1)

theorem transLine_translated {tx ty : α} (s : TransSt α) (l : PyLine α) (hs : (s.tx = tx ∨ s.tx = 0) ∧ (s.ty = ty ∨ s.ty = 0)) :
    (((transLine s l).1.tx = tx ∨ (transLine s l).1.tx = 0) ∧ ((transLine s l).1.ty = ty ∨ (transLine s l).1.ty = 0)) ∧
    Translated tx ty l (transLine s l).2 := by
  have same : Translated tx ty l l :=
    ⟨rfl, ⟨rfl, rfl, rfl, rfl, rfl⟩, fun _ _ => rfl, fun _ => ⟨rfl, rfl⟩, fun _ => .inl rfl, fun _ => .inl rfl⟩
  by_cases hm : IsMove l
  · rw [transLine_move hm]
    refine ⟨hs, ?_⟩
    split
    · obtain ⟨a1, a2, a3, a4, a5, a6, a7, a8⟩ := translateMove_args s l
      refine ⟨a8, ⟨a3, a4, a5, a6, a7⟩, fun h => absurd hm h, fun _ => ⟨by rw [a1]; simp, by rw [a2]; simp⟩, fun _ => ?_, fun _ => ?_⟩
      · rw [a1]
        rcases hs.1 with h | h <;> rw [h]
        · exact .inr rfl
        · exact .inl (by cases l.x <;> simp)
      · rw [a2]
        rcases hs.2 with h | h <;> rw [h]
        · exact .inr rfl
        · exact .inl (by cases l.y <;> simp)
    · exact same
  · by_cases h92 : HasCmd l c!"G92"
    · have ht : transLine s l = translateG92 s l := by
        have n90 : ¬ HasCmd l c!"G90" := by
          intro h; rw [HasCmd, h92] at h; exact absurd h (by decide)
        have n91 : ¬ HasCmd l c!"G91" := by
          intro h; rw [HasCmd, h92] at h; exact absurd h (by decide)
        unfold transLine; rw [if_neg hm, if_neg n90, if_neg n91, if_pos h92]
      rw [ht]
      by_cases hn : l.x = none ∧ l.y = none ∧ l.z = none
      · unfold translateG92
        rw [if_pos hn]
        exact ⟨⟨.inr rfl, .inr rfl⟩, rfl, ⟨rfl, rfl, rfl, rfl, rfl⟩, fun _ h => absurd h92 h, fun h => by tauto, fun h => absurd h hm, fun h => absurd h hm⟩
      · obtain ⟨a1, a2, a3, a4, a5, a6, a7, a8, a9, a10, a11⟩ := translateG92_args s l hn
        refine ⟨⟨?_, ?_⟩, a8, ⟨a3, a4, a5, a6, a7⟩, fun _ h => absurd h92 h, fun _ => ⟨by rw [a1]; simp, by rw [a2]; simp⟩, fun h => absurd h hm, fun h => absurd h hm⟩
        · rw [a9]; split
          · exact .inr rfl
          · exact hs.1
        · rw [a10]; split
          · exact .inr rfl
          · exact hs.2
    · rw [transLine_stay hm h92]
      exact ⟨hs, same⟩

/-- **C29**.  Translation keeps the layers with their heights, durations and numbers of lines, everything else about the
object, and on each line all that `Translated` lists: the command, Z, E, F, I and J; the whole line unless it is a move
or a `G92`; the presence of X and Y (except on `G92` lines without X, Y, Z).  X and Y of a move are kept or shifted by exactly the amount. -/
theorem C29_scope (g : GCode α) (x y : Option α) :
    ∃ g', g.translate x y = .ok g' ∧ g' = { g with allLayers := g'.allLayers } ∧
      LayerWise (Translated (x.getD 0) (y.getD 0)) g.allLayers g'.allLayers :=
  ⟨_, translate_eq g x y, rfl,
    scanLayers_layerWise (fun s => (s.tx = x.getD 0 ∨ s.tx = 0) ∧ (s.ty = y.getD 0 ∨ s.ty = 0)) transLine_translated _ _ ⟨.inl rfl, .inl rfl⟩⟩

example : (program sampleG).length = 12 ∧ texts (transQ sampleG 5 1) =
    [c!"; start", c!"G21", c!"G90", c!"M82", c!"G28", c!"G1 Z0.3 F1200", c!"G1 X15.000 Y11.000 E1.00000",
     c!"G1 X25.000 Y11.000 E2.00000", c!"G92 X-5.000 Y-1.000 E0.00000", c!"G1 Z0.6", c!"G1 X20 Y20 E1 ; side", c!"M104 S0"] := by
  decide +kernel

/-! ### C30: composing translations -/

theorem scan_zero (ls : List (PyLine α)) (h : ∀ l ∈ ls, ¬ HasCmd l c!"G92") : ∀ s : TransSt α, s.tx = 0 → s.ty = 0 →
    (scan transLine s ls).2 = ls := by
  induction ls with
  | nil => intro s _ _; rfl
  | cons l ls ih =>
    intro s hx hy
    have h0 := h l (by simp)
    obtain ⟨t1, t2, _⟩ := transLine_g92free s l h0
    have hl : (transLine s l).2 = l := by
      by_cases hm : IsMove l
      · rw [transLine_move hm]; simp only; split
        · exact translateMove_zero s l hx hy
        · rfl
      · rw [transLine_stay hm h0]
    simp only [scan, hl]
    rw [ih (fun l' h' => h l' (by simp [h'])) _ (t1.trans hx) (t2.trans hy)]

theorem translate_layers (g : GCode α) (x y : Option α) {g' : GCode α} (h : g.translate x y = .ok g') :
    g'.allLayers.map (fun L => (L.lines.length, L.z, L.duration)) = g.allLayers.map (fun L => (L.lines.length, L.z, L.duration)) := by
  rw [translate_eq] at h
  obtain rfl := Except.ok.inj h
  exact (scanLayers_flat transLine g.allLayers _).2

/-- **C30**.  On a program without `G92`: translating twice is translating once by the sum, line by line and layer by
layer; translating there and back restores every command and argument value; translating by nothing changes
nothing. -/
theorem C30_compose (g : GCode α) (h92 : ∀ l ∈ program g, ¬ HasCmd l c!"G92") (a b c d : α) :
    ∃ g1 g2 g3, g.translate (some a) (some b) = .ok g1 ∧ g1.translate (some c) (some d) = .ok g2 ∧
      g.translate (some (a + c)) (some (b + d)) = .ok g3 ∧ List.Forall₂ SameArgs (program g2) (program g3) ∧
      g2.allLayers.map (fun L => (L.lines.length, L.z, L.duration)) = g3.allLayers.map (fun L => (L.lines.length, L.z, L.duration)) := by
  obtain ⟨g1, h1, _, p1⟩ := translate_program g (some a) (some b)
  obtain ⟨g2, h2, _, p2⟩ := translate_program g1 (some c) (some d)
  obtain ⟨g3, h3, _, p3⟩ := translate_program g (some (a + c)) (some (b + d))
  refine ⟨g1, g2, g3, h1, h2, h3, ?_, ?_⟩
  · rw [p2, p1, p3]
    exact (scan_compose (program g) h92 (TransSt.init (some a) (some b)) (TransSt.init (some c) (some d)) (TransSt.init (some (a + c)) (some (b + d))) rfl rfl rfl rfl).1
  · rw [translate_layers _ _ _ h2, translate_layers _ _ _ h1, translate_layers _ _ _ h3]

theorem C30_cancel (g : GCode α) (h92 : ∀ l ∈ program g, ¬ HasCmd l c!"G92") (a b : α) :
    ∃ g1 g2, g.translate (some a) (some b) = .ok g1 ∧ g1.translate (some (-a)) (some (-b)) = .ok g2 ∧
      List.Forall₂ SameArgs (program g2) (program g) ∧
      g2.allLayers.map (fun L => (L.lines.length, L.z, L.duration)) = g.allLayers.map (fun L => (L.lines.length, L.z, L.duration)) := by
  obtain ⟨g1, g2, g3, h1, h2, h3, h4, h5⟩ := C30_compose g h92 a b (-a) (-b)
  obtain ⟨g3', h3', _, p3⟩ := translate_program g (some (a + -a)) (some (b + -b))
  rw [h3] at h3'
  obtain rfl := Except.ok.inj h3'
  rw [scan_zero _ h92 _ (by simp [TransSt.init]) (by simp [TransSt.init])] at p3
  rw [p3] at h4
  exact ⟨g1, g2, h1, h2, h4, by rw [h5, translate_layers _ _ _ h3]⟩

theorem C30_zero (g : GCode α) (h92 : ∀ l ∈ program g, ¬ HasCmd l c!"G92") :
    ∃ g', g.translate none none = .ok g' ∧ program g' = program g := by
  obtain ⟨g', h1, _, p⟩ := translate_program g none none
  exact ⟨g', h1, by rw [p, scan_zero _ h92 _ (by simp [TransSt.init]) (by simp [TransSt.init])]⟩

example : (∀ l ∈ program (loadQ plainSample), ¬ HasCmd l c!"G92") ∧
    texts (transQ (transQ (loadQ plainSample) 5 2) (-5) (-2)) =
      [c!"G28", c!"G90", c!"G1 X10.000 Y10.000 E1.00000", c!"G91", c!"G1 X1 Y1 ; rel", c!"G90", c!"G1 Y1.000 E3.00000"] := by
  decide +kernel

end GCodeUtils
