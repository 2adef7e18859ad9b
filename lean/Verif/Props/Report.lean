import Verif.Model.Report
import Verif.Spec.Report
import Verif.Lemmas.Decimal
import Verif.Props.Analysis
import Verif.Props.Cli

/-
  C113: the report printed about a file.
-/

set_option linter.unusedSectionVars false

namespace GCodeUtils

open Spec

variable {α : Type} [Field α] [LinearOrder α] [IsStrictOrderedRing α] [FloorRing α]

theorem shows_fixed (v : α) : Shows v (fmtFixed 2 v) := by
  refine ⟨?_, fixedVal 2 v, (if v < 0 then -1 else 1) * ((roundEven (|v| * 10 ^ 2)).toNat : ℤ), parseFloat_fmtFixed 2 v, ?_, ?_⟩
  · unfold fmtFixed
    simp only
    generalize (roundEven (|v| * 10 ^ 2)).toNat = m
    obtain ⟨n1, n2, n3⟩ := natDigits_spec (m / 10 ^ 2)
    obtain ⟨p1, p2, p3⟩ := padDigits_spec 2 (m % 10 ^ 2)
    obtain ⟨a, b, hab⟩ : ∃ a b, padDigits 2 (m % 10 ^ 2) = [a, b] := List.length_eq_two.1 p1
    refine ⟨if v < 0 then ['-'] else [], natDigits (m / 10 ^ 2), a, b, by rw [hab]; simp, by split_ifs <;> simp, n1, ?_⟩
    intro c hc
    rcases List.mem_append.1 hc with hc | hc
    · exact isDig_mem (n2 c hc)
    · exact isDig_mem (p2 c (by rw [hab]; exact hc))
  · unfold fixedVal
    split_ifs <;> push_cast <;> norm_num
  · have := fixedVal_bound 2 v
    norm_num at this ⊢
    exact this

theorem decimal_nat (n : ℕ) : CountText n (natDigits n) := by
  obtain ⟨n1, n2, n3⟩ := natDigits_spec n
  exact ⟨n1, fun c hc => isDig_mem (n2 c hc), n3⟩

theorem decimal_pad (n : ℕ) (h : n < 100) : CountText n (padDigits 2 n) ∧ (padDigits 2 n).length = 2 := by
  obtain ⟨p1, p2, p3⟩ := padDigits_spec 2 n
  refine ⟨⟨by intro k; rw [k] at p1; simp at p1, fun c hc => isDig_mem (p2 c hc), ?_⟩, p1⟩
  rw [p3, Nat.mod_eq_of_lt (by simpa using h)]

theorem clock_text (n : ℤ) : Clock n (durationText n) := by
  have h0 : 0 ≤ n % 86400 := Int.emod_nonneg _ (by norm_num)
  have h1 : n % 86400 < 86400 := Int.emod_lt_of_pos _ (by norm_num)
  have h2 := Int.emod_add_mul_ediv n 86400
  obtain ⟨s, hs⟩ : ∃ s : ℕ, n % 86400 = s := ⟨(n % 86400).toNat, by omega⟩
  unfold durationText
  simp only [hs, Int.toNat_natCast]
  have p1 := decimal_pad (s / 60 % 60) (by omega)
  have p2 := decimal_pad (s % 60) (by omega)
  refine ⟨n / 86400, s / 3600, s / 60 % 60, s % 60, _, _, _, by omega, by omega, by omega, by omega, decimal_nat _, p1.1, p1.2, p2.1, p2.2, ?_⟩
  generalize n / 86400 = d
  by_cases hd : d = 0
  · exact .inl ⟨hd, by rw [if_pos hd]⟩
  · refine .inr ⟨hd, if d < 0 then ['-'] else [], natDigits d.natAbs, decimal_nat _, ?_, ?_⟩
    · split_ifs with k
      · exact .inr ⟨rfl, k⟩
      · exact .inl ⟨rfl, by omega⟩
    · rw [if_neg hd]
      have e : (d = 1 ∨ d = -1) ↔ d.natAbs = 1 := by omega
      simp only [e, intText]
      split_ifs <;> simp

/-- A line of the report about an axis: the least and the greatest coordinate and the extent. -/
def RangeShown (axis : Char) (lo hi len : α) (t : Str) : Prop :=
  ∃ a b c, t = ['\t', axis] ++ c!": " ++ a ++ c!" - " ++ b ++ c!" (" ++ c ++ c!")\n" ∧ Shows lo a ∧ Shows hi b ∧ Shows len c

theorem rangeLine_some (axis : Char) (lo hi len : α) : ∃ t, rangeLine axis (some lo) (some hi) (some len) = .ok t ∧ RangeShown axis lo hi len t :=
  ⟨_, rfl, _, _, _, rfl, shows_fixed lo, shows_fixed hi, shows_fixed len⟩

/-- What is printed about a program. -/
theorem report_text {g : GCode α} {x0 x1 y0 y1 z0 z1 w d h fl : α} {n : ℤ} (hx0 : g.xmin = some x0) (hx1 : g.xmax = some x1) (hy0 : g.ymin = some y0)
    (hy1 : g.ymax = some y1) (hz0 : g.zmin = some z0) (hz1 : g.zmax = some z1) (hw : g.width = some w) (hd : g.depth = some d) (hh : g.height = some h)
    (hfl : g.filamentLength = some fl) (hn : g.duration = some n) :
    ∃ tx ty tz tf tl td, report g = (c!"Dimensions:\n" ++ tx ++ ty ++ tz ++ c!"Filament used: " ++ tf ++ c!"mm\n" ++ c!"Number of layers: " ++ tl ++ c!"\n" ++
        c!"Estimated duration: " ++ td ++ c!"\n", .ok ()) ∧
      RangeShown 'X' x0 x1 w tx ∧ RangeShown 'Y' y0 y1 d ty ∧ RangeShown 'Z' z0 z1 h tz ∧ Shows fl tf ∧ CountText g.allZs.length tl ∧ Clock n td := by
  obtain ⟨tx, ex, rx⟩ := rangeLine_some 'X' x0 x1 w
  obtain ⟨ty, ey, ry⟩ := rangeLine_some 'Y' y0 y1 d
  obtain ⟨tz, ez, rz⟩ := rangeLine_some 'Z' z0 z1 h
  refine ⟨tx, ty, tz, _, _, _, ?_, rx, ry, rz, shows_fixed fl, decimal_nat g.allZs.length, clock_text n⟩
  unfold report
  rw [hx0, hx1, hw, ex]
  simp only
  rw [hy0, hy1, hd, ey]
  simp only
  rw [hz0, hz1, hh, ez]
  simp only
  rw [hfl, hn]
  simp [GCode.layersCount]

/-- **C113.**  The report about a file that can be loaded is printed completely: the ranges and extents of the three axes and the
filament with two decimals, each within half a hundredth of the analysis; the number of recorded heights; and the estimated duration,
whose days, hours, minutes and seconds add up to it.  No file is changed. -/
theorem C113_report {env : Env α} {prog sizes file text : Str} {ls : List Str} {w : World} {g : GCode α} (hf : w.files file = some text)
    (hl : IsLines text ls) (hg : loadFile env ls = .ok g) :
    ∃ x0 x1 y0 y1 z0 z1 fl n tx ty tz tf tl td, g.xmin = some x0 ∧ g.xmax = some x1 ∧ g.ymin = some y0 ∧ g.ymax = some y1 ∧
      g.zmin = some z0 ∧ g.zmax = some z1 ∧ g.filamentLength = some fl ∧ g.duration = some n ∧
      reportMain env prog sizes (some file) w =
        ({ files := w.files, stdout := w.stdout ++ sizes ++ (c!"Dimensions:\n" ++ tx ++ ty ++ tz ++ c!"Filament used: " ++ tf ++ c!"mm\n" ++
            c!"Number of layers: " ++ tl ++ c!"\n" ++ c!"Estimated duration: " ++ td ++ c!"\n") }, .ok ()) ∧
      RangeShown 'X' x0 x1 (x1 - x0) tx ∧ RangeShown 'Y' y0 y1 (y1 - y0) ty ∧ RangeShown 'Z' z0 z1 (z1 - z0) tz ∧ Shows fl tf ∧
      CountText g.allZs.length tl ∧ Clock n td := by
  have he := isLines_unique hl (isLines_readlines text)
  subst he
  have hfin : ∃ s : BuildSt α, g = finalize (GCode.blank false Home.init) s := by
    unfold loadFile preprocessAll at hg
    split at hg
    · cases hg
    · exact ⟨_, (Except.ok.inj hg).symm⟩
  obtain ⟨s, hs⟩ := hfin
  obtain ⟨tx, ty, tz, tf, tl, td, e, r⟩ := report_text (g := g) (by rw [hs]; rfl) (by rw [hs]; rfl) (by rw [hs]; rfl) (by rw [hs]; rfl) (by rw [hs]; rfl)
    (by rw [hs]; rfl) (by rw [hs]; rfl) (by rw [hs]; rfl) (by rw [hs]; rfl) (by rw [hs]; rfl) (by rw [hs]; rfl)
  refine ⟨_, _, _, _, _, _, _, _, tx, ty, tz, tf, tl, td, by rw [hs]; rfl, by rw [hs]; rfl, by rw [hs]; rfl, by rw [hs]; rfl, by rw [hs]; rfl,
    by rw [hs]; rfl, by rw [hs]; rfl, by rw [hs]; rfl, ?_, r⟩
  unfold reportMain
  simp only [World.emit]
  rw [hf]
  simp only
  rw [hg]
  simp only
  rw [e]

/-- C113: without an argument the usage is printed; a missing file and a file that cannot be loaded give an error after the sizes; no file
changes. -/
theorem C113_errors (env : Env α) (prog sizes file : Str) (w : World) :
    reportMain env prog sizes none w = ({ w with stdout := w.stdout ++ (c!"usage: " ++ prog ++ c!" filename.gcode\n") }, .ok ()) ∧
    (w.files file = none → reportMain env prog sizes (some file) w = ({ w with stdout := w.stdout ++ sizes }, .error .ioError)) ∧
    (∀ text ls er, w.files file = some text → IsLines text ls → (loadFile env ls : Except Err (GCode α)) = .error er →
      reportMain env prog sizes (some file) w = ({ w with stdout := w.stdout ++ sizes }, .error er)) := by
  refine ⟨rfl, ?_, ?_⟩
  · intro h
    unfold reportMain
    simp only [World.emit]
    rw [h]
  · intro text ls er h1 hl h2
    have he := isLines_unique hl (isLines_readlines text)
    subst he
    unfold reportMain
    simp only [World.emit]
    rw [h1]
    simp only
    rw [h2]

/-- C113: the printed extent of an axis is at most a hundredth away from the difference of the printed limits. -/
theorem C113_extent {lo hi : α} {a b c : Str} (ha : Shows lo a) (hb : Shows hi b) (hc : Shows (hi - lo) c) :
    ∃ x y z : α, parseFloat a = some x ∧ parseFloat b = some y ∧ parseFloat c = some z ∧ |(y - x) - z| ≤ 1 / 100 := by
  obtain ⟨_, u, k, u1, rfl, u2⟩ := ha
  obtain ⟨_, v, l, v1, rfl, v2⟩ := hb
  obtain ⟨_, w, m, w1, rfl, w2⟩ := hc
  refine ⟨_, _, _, u1, v1, w1, ?_⟩
  have h1 : |((l - k - m : ℤ) : α)| < 2 := by
    rw [abs_le] at u2 v2 w2
    rw [abs_lt]
    push_cast
    constructor <;> linarith [u2.1, u2.2, v2.1, v2.2, w2.1, w2.2]
  have h2 : |l - k - m| ≤ 1 := by
    have : ((|l - k - m| : ℤ) : α) < ((2 : ℤ) : α) := by push_cast at h1 ⊢; exact h1
    have : |l - k - m| < 2 := by exact_mod_cast this
    omega
  have h3 : |((l - k - m : ℤ) : α)| ≤ 1 := by exact_mod_cast h2
  rw [abs_le] at h3 ⊢
  push_cast at h3
  constructor <;> linarith [h3.1, h3.2]

/-- Digits after the last character that is no digit. -/
theorem digits_back {P : Char → Prop} (x : Str) : ∀ {a b y : Str} {c d : Char}, a ++ c :: x = b ++ d :: y → (∀ k ∈ x, P k) → (∀ k ∈ y, P k) → ¬ P c → ¬ P d →
    a = b ∧ c = d ∧ x = y := by
  induction x using List.reverseRecOn with
  | nil =>
    intro a b y c d h _ hy hc _
    rcases List.eq_nil_or_concat y with rfl | ⟨y', k, rfl⟩
    · have := List.append_inj' h rfl
      simp only [List.cons.injEq, and_true] at this
      exact ⟨this.1, this.2, rfl⟩
    · rw [List.concat_eq_append] at h hy
      rw [show b ++ d :: (y' ++ [k]) = (b ++ d :: y') ++ [k] by simp] at h
      have := List.append_inj' h rfl
      simp only [List.cons.injEq, and_true] at this
      exact absurd (hy k (by simp)) (by rw [← this.2]; exact hc)
  | append_singleton x k ih =>
    intro a b y c d h hx hy hc hd
    rw [show a ++ c :: (x ++ [k]) = (a ++ c :: x) ++ [k] by simp] at h
    rcases List.eq_nil_or_concat y with rfl | ⟨y', k', rfl⟩
    · have := List.append_inj' h rfl
      simp only [List.cons.injEq, and_true] at this
      exact absurd (hx k (by simp)) (by rw [this.2]; exact hd)
    · rw [List.concat_eq_append] at h hy ⊢
      rw [show b ++ d :: (y' ++ [k']) = (b ++ d :: y') ++ [k'] by simp] at h
      have := List.append_inj' h rfl
      simp only [List.cons.injEq, and_true] at this
      obtain ⟨e1, e2, e3⟩ := ih this.1 (fun k hk => hx k (by simp [hk])) (fun k hk => hy k (by simp [hk])) hc hd
      exact ⟨e1, e2, by rw [e3, this.2]⟩

/-- Digits before the first character that is no digit. -/
theorem digits_front {P : Char → Prop} (x : Str) : ∀ {a b y : Str} {c d : Char}, x ++ c :: a = y ++ d :: b → (∀ k ∈ x, P k) → (∀ k ∈ y, P k) → ¬ P c → ¬ P d →
    x = y := by
  induction x with
  | nil =>
    intro a b y c d h _ hy hc _
    cases y with
    | nil => rfl
    | cons k y =>
      simp only [List.nil_append, List.cons_append, List.cons.injEq] at h
      exact absurd (hy k (by simp)) (by rw [← h.1]; exact hc)
  | cons k x ih =>
    intro a b y c d h hx hy hc hd
    cases y with
    | nil =>
      simp only [List.nil_append, List.cons_append, List.cons.injEq] at h
      exact absurd (hx k (by simp)) (by rw [h.1]; exact hd)
    | cons k' y =>
      simp only [List.cons_append, List.cons.injEq] at h
      rw [h.1, ih h.2 (fun k hk => hx k (by simp [hk])) (fun k hk => hy k (by simp [hk])) hc hd]

/-- C113: the printed duration tells the seconds: no two durations are printed alike. -/
theorem C113_clock_unique {n n' : ℤ} {t : Str} (h : Clock n t) (h' : Clock n' t) : n = n' := by
  obtain ⟨d, hh, m, s, th, tm, ts, -, -, -, rfl, ⟨a0, a1, rfl⟩, ⟨-, -, rfl⟩, b3, ⟨-, -, rfl⟩, c3, hd⟩ := h
  obtain ⟨d', hh', m', s', th', tm', ts', -, -, -, rfl, ⟨a0', a1', rfl⟩, ⟨-, -, rfl⟩, b3', ⟨-, -, rfl⟩, c3', hd'⟩ := h'
  -- what precedes the hours
  have front : ∀ {d : ℤ} {t th tm ts : Str}, (d = 0 ∧ t = th ++ [':'] ++ tm ++ [':'] ++ ts ∨
      d ≠ 0 ∧ ∃ sg td : Str, CountText d.natAbs td ∧ (sg = [] ∧ 0 < d ∨ sg = ['-'] ∧ d < 0) ∧
        t = sg ++ td ++ (if d.natAbs = 1 then c!" day, " else c!" days, ") ++ th ++ [':'] ++ tm ++ [':'] ++ ts) →
      ∃ pre : Str, t = pre ++ th ++ ([':'] ++ tm ++ [':'] ++ ts) ∧ (pre = [] ∧ d = 0 ∨ ∃ sg td q r : Str, pre = q ++ [' '] ∧ pre = sg ++ td ++ ' ' :: r ∧ CountText d.natAbs td ∧
        (sg = [] ∧ 0 < d ∨ sg = ['-'] ∧ d < 0)) := by
    intro d t th tm ts h
    rcases h with ⟨h1, h2⟩ | ⟨h1, sg, td, h2, h3, h4⟩
    · exact ⟨[], by rw [h2]; simp, .inl ⟨rfl, h1⟩⟩
    · by_cases k : d.natAbs = 1
      · rw [if_pos k] at h4
        exact ⟨sg ++ td ++ c!" day, ", by rw [h4]; simp, .inr ⟨sg, td, sg ++ td ++ c!" day,", c!"day, ", by simp, by simp, h2, h3⟩⟩
      · rw [if_neg k] at h4
        exact ⟨sg ++ td ++ c!" days, ", by rw [h4]; simp, .inr ⟨sg, td, sg ++ td ++ c!" days,", c!"days, ", by simp, by simp, h2, h3⟩⟩
  obtain ⟨pre, e, hp⟩ := front hd
  obtain ⟨pre', e', hp'⟩ := front hd'
  rw [e] at e'
  obtain ⟨e1, e2⟩ := List.append_inj' e' (by simp [b3, b3', c3, c3'])
  simp only [List.cons_append, List.nil_append, List.cons.injEq, true_and, List.append_assoc] at e2
  obtain ⟨rfl, e3⟩ := List.append_inj e2 (by rw [b3, b3'])
  simp only [List.cons.injEq, true_and] at e3
  subst e3
  have sp : ¬ ' ' ∈ c!"0123456789" := by decide
  suffices hs : d = d' ∧ th = th' by rw [hs.1, hs.2]
  rcases hp with ⟨rfl, rfl⟩ | ⟨sg, td, q, r, p1, p2, p3, p4⟩
  · rcases hp' with ⟨rfl, rfl⟩ | ⟨sg', td', q', r', p1', _⟩
    · exact ⟨rfl, by simpa using e1⟩
    · exfalso
      rw [p1'] at e1
      exact sp (a1 ' ' (by simp only [List.nil_append] at e1; rw [e1]; simp))
  · rcases hp' with ⟨rfl, rfl⟩ | ⟨sg', td', q', r', p1', p2', p3', p4'⟩
    · exfalso
      rw [p1] at e1
      exact sp (a1' ' ' (by simp only [List.nil_append] at e1; rw [← e1]; simp))
    · have e4 := e1
      rw [p1, p1'] at e4
      simp only [List.append_assoc, List.cons_append, List.nil_append] at e4
      obtain ⟨f1, _, f3⟩ := digits_back th e4 a1 a1' sp sp
      refine ⟨?_, f3⟩
      have e5 : pre = pre' := by rw [p1, p1', f1]
      rw [p2, p2'] at e5
      simp only [List.append_assoc] at e5
      have mn : ¬ '-' ∈ c!"0123456789" := by decide
      obtain ⟨t0, t1, t2⟩ := p3
      obtain ⟨t0', t1', t2'⟩ := p3'
      obtain ⟨k, td1, rfl⟩ := List.exists_cons_of_ne_nil t0
      obtain ⟨k', td1', rfl⟩ := List.exists_cons_of_ne_nil t0'
      rcases p4 with ⟨rfl, g⟩ | ⟨rfl, g⟩
      · rcases p4' with ⟨rfl, g'⟩ | ⟨rfl, g'⟩
        · have := digits_front (P := (· ∈ c!"0123456789")) (k :: td1) (by simpa using e5) t1 t1' sp sp
          rw [this, t2'] at t2
          omega
        · simp only [List.nil_append, List.cons_append, List.cons.injEq] at e5
          exact absurd (t1 k (by simp)) (by rw [e5.1]; exact mn)
      · rcases p4' with ⟨rfl, g'⟩ | ⟨rfl, g'⟩
        · simp only [List.nil_append, List.cons_append, List.cons.injEq] at e5
          exact absurd (t1' k' (by simp)) (by rw [← e5.1]; exact mn)
        · have := digits_front (P := (· ∈ c!"0123456789")) (k :: td1) (by simpa using e5) t1 t1' sp sp
          rw [this, t2'] at t2
          omega

/-- A file with two layers, printed in 26 hours. -/
def reportFile : Str := c!"G90\nG1 X-0.004 Y10 Z0.3 F60\nG1 X0.016 Y20 E1.5\nG1 Z0.6\nG1 X10 E3\nG4 P93784000\n"

def reportWorld (t : Str) : World := { files := fun p => if p = c!"a.gcode" then some t else none, stdout := [] }

/-- What is printed about a file with these contents. -/
def reportQ (t : Str) : Str × Except Err Unit :=
  let r := reportMain qEnv c!"gcoder.py" c!"sizes\n" (some c!"a.gcode") (reportWorld t)
  (r.1.stdout, r.2)

example : reportQ reportFile = (c!"sizes\nDimensions:\n\tX: 0.02 - 10.00 (9.98)\n\tY: 20.00 - 20.00 (0.00)\n\tZ: 0.00 - 0.60 (0.60)\nFilament used: 3.00mm\nNumber of layers: 2\nEstimated duration: 1 day, 2:03:34\n", .ok ()) := by
  decide +kernel

/-- An empty file is reported, too. -/
example : reportQ [] = (c!"sizes\nDimensions:\n\tX: 0.00 - 0.00 (0.00)\n\tY: 0.00 - 0.00 (0.00)\n\tZ: 0.00 - 0.00 (0.00)\nFilament used: 0.00mm\nNumber of layers: 0\nEstimated duration: 0:00:00\n", .ok ()) := by
  decide +kernel

/-- **C113, refuted**: the printed extent need not be the difference of the printed limits (0.00 to 0.02 is reported as 0.01). -/
theorem C113_extent_refuted :
    reportQ c!"G1 X0.004\nG1 X0.016\n" = (c!"sizes\nDimensions:\n\tX: 0.00 - 0.02 (0.01)\n\tY: 0.00 - 0.00 (0.00)\n\tZ: 0.00 - 0.00 (0.00)\nFilament used: 0.00mm\nNumber of layers: 0\nEstimated duration: 0:00:00\n", .ok ()) := by
  decide +kernel

/-- **C113, refuted**: the number of layers is not the number of heights at which filament is extruded: a nozzle primed before the first
height counts as a layer of its own. -/
theorem C113_layers_refuted :
    reportQ c!"G1 E5\nG1 Z0.3\nG1 X10 E6\n" = (c!"sizes\nDimensions:\n\tX: 0.00 - 10.00 (10.00)\n\tY: 0.00 - 0.00 (0.00)\n\tZ: 0.00 - 0.30 (0.30)\nFilament used: 6.00mm\nNumber of layers: 2\nEstimated duration: 0:00:00\n", .ok ()) := by
  decide +kernel

end GCodeUtils
