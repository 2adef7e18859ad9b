import Verif.Lemmas.TempCal
import Verif.Props.Common

/-
  C41-C48: temperature towers.
-/

set_option linter.unusedSectionVars false

namespace GCodeUtils

open Spec

variable {α : Type} [Field α] [LinearOrder α] [IsStrictOrderedRing α] [FloorRing α]

/-- A small tower: five layers, the last below the one before. -/
def spire : List Str :=
  [c!"G1 Z0.2", c!"G1 X1 E1", c!"G1 Z0.4", c!"G1 X2 E2", c!"G1 Z0.6", c!"G1 X3 E3", c!"G1 Z0.8", c!"G1 X4 E4", c!"G1 Z0.4", c!"G1 X5 E5"]

theorem spire_loads : GCode.load qEnv spire = .ok (loadQ spire) := by decide +kernel

example : (loadQ spire).zmax = some (4 / 5) ∧ altitudes (loadQ spire) = [1 / 5, 2 / 5, 3 / 5, 4 / 5, 2 / 5] := by decide +kernel

/-! ### C41, C42 -/

/-- C41 and C42, for any temperature function (of any subclass, raising or not), any parameters, any state of the
object and any program: the output consists of the layers in order, each preceded by at most one line, complete when
the call returns; an inserted line is `M104 S` and a number with one decimal between 150.0 and 250.0, or empty; nothing is
inserted for an empty layer. -/
theorem C41_C42_any (mode : RoundMode) (temp : TempFn α) (minZ : α) (st : TempSt α) (g : GCode α) :
    ∃ ins k, (writeTemp mode temp minZ st g).1 = tower ins (g.allLayers.take k) ∧ ins.length = (g.allLayers.take k).length ∧
      (∀ s, some s ∈ ins → s = [] ∨ ∃ (t : α) (n : Str), 150 ≤ t ∧ t ≤ 250 ∧ s = c!"M104 S" ++ n ∧ ReadsTenths n t) ∧
      (∀ (i : ℕ) (L : Layer α), ins[i]? ≠ some none → (g.allLayers.take k)[i]? = some L → L.lines ≠ []) ∧
      ((∃ st', (writeTemp mode temp minZ st g).2 = .ok st') → k = g.allLayers.length) := by
  unfold writeTemp
  cases hp : parseHeights minZ g.zmax st.zmin g.allLayers with
  | error er => exact ⟨[], 0, rfl, rfl, by simp, by simp, by simp⟩
  | ok p =>
    obtain ⟨b, top⟩ := p
    obtain ⟨ins, k, e, l, f, n, o⟩ := writeLoop_any mode temp b top g.allLayers st.lastTarget
    refine ⟨ins, k, e, l, ?_, n, ?_⟩
    · intro s hs
      obtain ⟨t, ht⟩ := f s hs
      rcases ht with ⟨h1, h2, m, hm, hr⟩ | ⟨_, h⟩
      · exact Or.inr ⟨t, m, h1, h2, hm, hr⟩
      · exact Or.inl h
    · rintro ⟨st', h⟩
      apply o
      simp only at h
      cases hr : (writeLoop mode temp b top st.lastTarget g.allLayers).2 with
      | error er => rw [hr] at h; simp [Except.map] at h
      | ok l => exact ⟨l, rfl⟩

/-- Without insertions a tower is the program. -/
theorem tower_none (ins : List (Option Str)) (Ls : List (Layer α)) (h : ins.length = Ls.length) :
    tower (ins.map (fun _ => none)) Ls = ((Ls.map (·.lines)).flatten).map (·.raw) := by
  induction Ls generalizing ins with
  | nil => simp [tower]
  | cons L Ls ih =>
    cases ins with
    | nil => simp at h
    | cons i ins =>
      have := ih ins (by simpa using h)
      simp only [tower] at this ⊢
      rw [List.map_cons, List.zipWith_cons_cons, List.flatten_cons, this]
      simp

/-- C42 for a loaded program: when the call returns, taking away the inserted lines leaves the texts of the program. -/
theorem C42_removal (env : Env α) (data : List Str) (light : Bool) (home : Home α) (g : GCode α) (h : GCode.load env data light home = .ok g)
    (mode : RoundMode) (temp : TempFn α) (minZ : α) (st st' : TempSt α) (hw : (writeTemp mode temp minZ st g).2 = .ok st') :
    ∃ ins, (writeTemp mode temp minZ st g).1 = tower ins g.allLayers ∧ ins.length = g.allLayers.length ∧
      (∀ s, some s ∈ ins → s = [] ∨ c!"M104 S" <+: s) ∧
      tower (ins.map (fun _ => none)) g.allLayers = g.lines.map (·.raw) ∧
      List.Sublist (g.lines.map (·.raw)) (writeTemp mode temp minZ st g).1 := by
  obtain ⟨ins, k, e, l, f, n, o⟩ := C41_C42_any mode temp minZ st g
  have hk := o ⟨st', hw⟩
  subst hk
  rw [List.take_length] at e l
  have ht := tower_none ins g.allLayers l
  have hg : (g.allLayers.map (·.lines)).flatten = g.lines := (load_indexed h).1.symm
  rw [hg] at ht
  refine ⟨ins, e, l, ?_, ht, ?_⟩
  · intro s hs
    rcases f s hs with h | ⟨t, n, _, _, h, _⟩
    · exact Or.inl h
    · exact Or.inr ⟨n, h.symm⟩
  · rw [← ht, e]
    clear e f ht hg o hw n
    generalize g.allLayers = Ls at l
    induction Ls generalizing ins with
    | nil => simp [tower]
    | cons L Ls ih =>
      cases ins with
      | nil => simp at l
      | cons i ins =>
        have := ih ins (by simpa using l)
        simp only [tower] at this ⊢
        simp only [List.map_cons, List.zipWith_cons_cons, List.flatten_cons, Option.toList_none, List.nil_append]
        exact List.Sublist.append (List.sublist_append_right _ _) this

/-- A run with insertions of both kinds. -/
example : (writeContinuous .halfEven 200 300 (1 / 10) (loadQ spire)).1 =
    [c!"M104 S200.0", c!"G1 Z0.2", c!"G1 X1 E1", c!"M104 S233.3", c!"G1 Z0.4", c!"G1 X2 E2", c!"", c!"G1 Z0.6", c!"G1 X3 E3",
     c!"", c!"G1 Z0.8", c!"G1 X4 E4", c!"M104 S233.3", c!"G1 Z0.4", c!"G1 X5 E5"] := by decide +kernel

/-! ### the run of the two gradients -/

/-- Linear interpolation: `s` at `b`, `e` at `top`. -/
def Spec.linear (s e b top c : α) : α := s + (e - s) * ((c - b) / (top - b))

theorem continuousTemp_linear (s e b top : α) (h : b < top) (c : α) : continuousTemp s e b top c = .ok (some (linear s e b top c)) := by
  unfold continuousTemp linear
  rw [if_neg (by linarith : ¬ top - b = 0)]
  simp only [Except.ok.injEq, Option.some.injEq]
  have : top - b ≠ 0 := by linarith
  field_simp

/-- What the stepped gradient computes: a linear gradient towards one step beyond the end, cut at the larger temperature. -/
theorem stepTemp_linear (s e n b top : α) (h : b < top) (h1 : n ≠ -1) (c : α) :
    stepTemp s e n b top c = .ok (some (min (max e s) (linear s (e + (e - s) / n) b top c))) := by
  have hn : n + 1 ≠ 0 := fun hc => h1 (by linarith)
  unfold stepTemp linear
  rw [if_neg (not_or.2 ⟨by linarith, hn⟩)]
  simp only [Except.ok.injEq, Option.some.injEq]
  congr 2
  rw [mul_div_assoc, div_self hn, mul_one, mul_comm]

/-- The outcome of a tower on a loaded program. -/
theorem writeTemp_loaded {env : Env α} {data : List Str} {light : Bool} {home : Home α} {g : GCode α} (h : GCode.load env data light home = .ok g)
    (mode : RoundMode) (temp : TempFn α) (minZ : α) :
    ((altitudes g = [] ∨ ∃ b top, IsBase minZ (altitudes g) b ∧ g.zmax = some top ∧ top ≤ b) ∧ writeTemp mode temp minZ {} g = ([], .error .runtimeError)) ∨
    ∃ b top, IsBase minZ (altitudes g) b ∧ g.zmax = some top ∧ b < top ∧ ∀ T : α → α, (∀ c, temp b top c = .ok (some (T c))) →
      ∃ ts ins last, writeTemp mode temp minZ {} g = (tower ins g.allLayers, .ok { zmin := some b, lastTarget := last }) ∧
        List.Forall₂ (fun t i => (t = none ∧ i = none) ∨ ∃ u s, t = some u ∧ i = some s ∧ IsTempLine u s) ts ins ∧
        Targets T b top none g.allLayers ts := by
  rcases load_zmax h with hd | ⟨top, hz⟩
  · left
    rcases load_ok h with ⟨_, rfl⟩ | ⟨hne, _⟩
    · refine ⟨Or.inl rfl, rfl⟩
    · exact absurd hd hne
  · rcases writeTemp_cases mode temp minZ top g hz with ⟨h1, h2⟩ | ⟨b, h1, h2, h3⟩
    · left
      refine ⟨?_, h2⟩
      rcases h1 with h1 | ⟨b, hb, ht⟩
      · exact Or.inl h1
      · exact Or.inr ⟨b, top, hb, hz, ht⟩
    · exact Or.inr ⟨b, top, h1, hz, h2, h3⟩

/-! ### C44 -/

/-- C44, the interpolation: the start temperature at the bottom, the end temperature at the top, between the two in
between, monotone (strictly unless the temperatures are equal). -/
theorem C44_interpolation (s e b top : α) (h : b < top) :
    (∀ c, continuousTemp s e b top c = .ok (some (linear s e b top c))) ∧
    linear s e b top b = s ∧ linear s e b top top = e ∧
    (∀ c, b ≤ c → c ≤ top → min s e ≤ linear s e b top c ∧ linear s e b top c ≤ max s e) ∧
    (∀ c c', c < c' → (s < e → linear s e b top c < linear s e b top c') ∧ (e < s → linear s e b top c' < linear s e b top c) ∧
      (s = e → linear s e b top c = linear s e b top c')) := by
  have hp : 0 < top - b := by linarith
  refine ⟨continuousTemp_linear s e b top h, ?_, ?_, ?_, ?_⟩
  · unfold linear; simp
  · unfold linear; rw [div_self hp.ne']; ring
  · intro c hb ht
    have q0 : 0 ≤ (c - b) / (top - b) := div_nonneg (by linarith) hp.le
    have q1 : (c - b) / (top - b) ≤ 1 := (div_le_one hp).2 (by linarith)
    unfold linear
    generalize (c - b) / (top - b) = q at q0 q1
    rcases le_total s e with hse | hse
    · rw [min_eq_left hse, max_eq_right hse]
      constructor <;> nlinarith
    · rw [min_eq_right hse, max_eq_left hse]
      constructor <;> nlinarith
  · intro c c' hc
    have q : (c - b) / (top - b) < (c' - b) / (top - b) := by
      rw [div_lt_div_iff_of_pos_right hp]; linarith
    unfold linear
    refine ⟨fun h => ?_, fun h => ?_, fun h => ?_⟩
    · have := mul_lt_mul_of_pos_left q (sub_pos.2 h); linarith
    · have := mul_lt_mul_of_neg_left q (sub_neg.2 h); linarith
    · rw [h]; simp

/-- Rounding to tenths does not leave a range whose ends are tenths. -/
theorem nearestTenth_between {x v : α} (h : NearestTenth x v) (lo hi : ℤ) (h1 : (lo : α) / 10 ≤ x) (h2 : x ≤ (hi : α) / 10) :
    (lo : α) / 10 ≤ v ∧ v ≤ (hi : α) / 10 := by
  obtain ⟨⟨n, rfl⟩, ha⟩ := h
  obtain ⟨a1, a2⟩ := abs_le.1 ha
  have k1 : (lo : α) < n + 1 := by linarith
  have k2 : (n : α) < hi + 1 := by linarith
  have k1' : lo < n + 1 := by exact_mod_cast k1
  have k2' : n < hi + 1 := by exact_mod_cast k2
  have j1 : (lo : α) ≤ n := by exact_mod_cast (show lo ≤ n by omega)
  have j2 : (n : α) ≤ hi := by exact_mod_cast (show n ≤ hi by omega)
  constructor <;> linarith

/-- Rounding to tenths keeps order. -/
theorem nearestTenth_mono {x y v w : α} (hv : NearestTenth x v) (hw : NearestTenth y w) (h : x < y) : v ≤ w := by
  obtain ⟨⟨n, rfl⟩, ha⟩ := hv
  obtain ⟨⟨m, rfl⟩, hb⟩ := hw
  obtain ⟨a1, a2⟩ := abs_le.1 ha
  obtain ⟨b1, b2⟩ := abs_le.1 hb
  have k : (n : α) < m + 1 := by linarith
  have k' : n < m + 1 := by exact_mod_cast k
  have j : (n : α) ≤ m := by exact_mod_cast (show n ≤ m by omega)
  linarith

/-- C44 for the written program: with start and end temperature given in tenths (whole degrees on the command line),
either the program is refused or each layer gets the target of `Targets` for the interpolation, and every target lies
between the start and the end temperature and is ordered as the heights are. -/
theorem C44_program (env : Env α) (data : List Str) (light : Bool) (home : Home α) (g : GCode α) (h : GCode.load env data light home = .ok g)
    (mode : RoundMode) (s e : ℤ) (minZ : α) :
    (writeContinuous mode ((s : α) / 10) ((e : α) / 10) minZ g).1 = [] ∨
    ∃ b top ts ins st, IsBase minZ (altitudes g) b ∧ g.zmax = some top ∧ b < top ∧
      writeContinuous mode ((s : α) / 10) ((e : α) / 10) minZ g = (tower ins g.allLayers, .ok st) ∧
      List.Forall₂ (fun t i => (t = none ∧ i = none) ∨ ∃ u x, t = some u ∧ i = some x ∧ IsTempLine u x) ts ins ∧
      Targets (linear ((s : α) / 10) ((e : α) / 10) b top) b top none g.allLayers ts ∧
      (∀ t, some t ∈ ts → min ((s : α) / 10) ((e : α) / 10) ≤ t ∧ t ≤ max ((s : α) / 10) ((e : α) / 10)) ∧
      (∀ (i j : ℕ) (t u c d : α) (L M : Layer α), ts[i]? = some (some t) → ts[j]? = some (some u) → g.allLayers[i]? = some L → g.allLayers[j]? = some M →
        startHeight L = some c → startHeight M = some d → c < d → (s < e → t ≤ u) ∧ (e < s → u ≤ t)) := by
  rcases writeTemp_loaded h mode (continuousTemp ((s : α) / 10) ((e : α) / 10)) minZ with ⟨_, hw⟩ | ⟨b, top, hb, hz, hlt, hw⟩
  · exact Or.inl (by unfold writeContinuous; rw [hw])
  · right
    obtain ⟨i1, i2, i3, i4, i5⟩ := C44_interpolation ((s : α) / 10) ((e : α) / 10) b top hlt
    obtain ⟨ts, ins, last, e1, f, t⟩ := hw _ i1
    refine ⟨b, top, ts, ins, _, hb, hz, hlt, e1, f, t, ?_, ?_⟩
    · intro u hu
      obtain ⟨i, hi⟩ := List.mem_iff_getElem?.1 hu
      have hlen : i < g.allLayers.length := by
        rw [← t.length]
        by_contra hc
        rw [List.getElem?_eq_none (by omega)] at hi; simp at hi
      obtain ⟨c, _, _, cb, ct, hn⟩ := t.sound i u _ hi (List.getElem?_eq_getElem hlen)
      obtain ⟨k1, k2⟩ := i4 c cb ct
      rcases le_total ((s : α) / 10) ((e : α) / 10) with hse | hse
      · rw [min_eq_left hse] at k1 ⊢
        rw [max_eq_right hse] at k2 ⊢
        exact nearestTenth_between hn s e k1 k2
      · rw [min_eq_right hse] at k1 ⊢
        rw [max_eq_left hse] at k2 ⊢
        exact nearestTenth_between hn e s k1 k2
    · intro i j u v c d L M hi hj hL hM hc hd hcd
      obtain ⟨c', hc', _, _, _, hn⟩ := t.sound i u L hi hL
      obtain ⟨d', hd', _, _, _, hm⟩ := t.sound j v M hj hM
      rw [hc] at hc'; rw [hd] at hd'
      obtain rfl := Option.some.inj hc'
      obtain rfl := Option.some.inj hd'
      obtain ⟨m1, m2, _⟩ := i5 c d hcd
      refine ⟨fun hse => nearestTenth_mono hn hm (m1 ?_), fun hse => nearestTenth_mono hm hn (m2 ?_)⟩
      · have : (s : α) < e := by exact_mod_cast hse
        linarith
      · have : (e : α) < s := by exact_mod_cast hse
        linarith

/-- A decreasing tower: 220, 213.3, 206.7, 200, back to 213.3. -/
example : (writeContinuous .halfEven 220 200 (1 / 10) (loadQ spire)).1 =
    [c!"M104 S220.0", c!"G1 Z0.2", c!"G1 X1 E1", c!"M104 S213.3", c!"G1 Z0.4", c!"G1 X2 E2", c!"M104 S206.7", c!"G1 Z0.6", c!"G1 X3 E3",
     c!"M104 S200.0", c!"G1 Z0.8", c!"G1 X4 E4", c!"M104 S213.3", c!"G1 Z0.4", c!"G1 X5 E5"] := by decide +kernel

/-! ### C43 -/

/-- C43 is false: when a temperature out of the safety range comes between, a command is repeated. -/
theorem C43_refuted : ∃ (data : List Str) (g : GCode ℚ), GCode.load qEnv data = .ok g ∧ ∃ st,
    (writeContinuous .halfEven 200 300 (1 / 10) g).2 = .ok st ∧
    (writeContinuous .halfEven 200 300 (1 / 10) g).1.filter (fun s => c!"M104".isPrefixOf s) = [c!"M104 S200.0", c!"M104 S233.3", c!"M104 S233.3"] :=
  ⟨spire, loadQ spire, spire_loads, { zmin := some (1 / 5), lastTarget := some (2333 / 10) }, by decide +kernel, by decide +kernel⟩

/-- C43 within the safety range: if the start and end temperature lie between 150 and 250, the inserted lines are all
`M104` commands, and no two consecutive ones ask for the same temperature. -/
theorem C43_range_partial (env : Env α) (data : List Str) (light : Bool) (home : Home α) (g : GCode α) (h : GCode.load env data light home = .ok g)
    (mode : RoundMode) (s e : α) (minZ : α) (hs : 150 ≤ s ∧ s ≤ 250) (he : 150 ≤ e ∧ e ≤ 250) :
    (writeContinuous mode s e minZ g).1 = [] ∨
    ∃ (ts : List (Option α)) (ins : List (Option Str)), (writeContinuous mode s e minZ g).1 = tower ins g.allLayers ∧
      List.Forall₂ (fun t i => (t = none ∧ i = none) ∨ ∃ u n, t = some u ∧ i = some (c!"M104 S" ++ n) ∧ ReadsTenths n u) ts ins ∧
      (ts.filterMap id).IsChain (· ≠ ·) := by
  rcases writeTemp_loaded h mode (continuousTemp s e) minZ with ⟨_, hw⟩ | ⟨b, top, hb, hz, hlt, hw⟩
  · exact Or.inl (by unfold writeContinuous; rw [hw])
  · right
    obtain ⟨i1, i2, i3, i4, i5⟩ := C44_interpolation s e b top hlt
    obtain ⟨ts, ins, last, e1, f, t⟩ := hw _ i1
    refine ⟨ts, ins, by unfold writeContinuous; rw [e1], ?_, by simpa using t.change⟩
    rw [List.forall₂_iff_get] at f ⊢
    refine ⟨f.1, fun i h1 h2 => ?_⟩
    rcases f.2 i h1 h2 with hf | ⟨u, x, hu, hx, hl⟩
    · exact Or.inl hf
    · right
      rcases hl with ⟨_, _, n, hn, hr⟩ | ⟨hout, _⟩
      · exact ⟨u, n, hu, by rw [hx, hn], hr⟩
      · exfalso
        have hu' : ts[i]? = some (some u) := by
          rw [List.getElem?_eq_getElem h1, ← hu]; rfl
        have hlen : i < g.allLayers.length := by rw [← t.length]; exact h1
        obtain ⟨c, _, _, cb, ct, hn⟩ := t.sound i u _ hu' (List.getElem?_eq_getElem hlen)
        obtain ⟨k1, k2⟩ := i4 c cb ct
        have l1 : (150 : α) ≤ min s e := le_min hs.1 he.1
        have l2 : max s e ≤ 250 := max_le hs.2 he.2
        obtain ⟨m1, m2⟩ := nearestTenth_between hn 1500 2500 (by push_cast; linarith) (by push_cast; linarith)
        push_cast at m1 m2
        exact hout ⟨by linarith, by linarith⟩

/-- C43 for any temperature function and any range: consecutive inserted lines belong to different targets (an empty line
stands for a target out of the safety range). -/
theorem C43_targets_partial (env : Env α) (data : List Str) (light : Bool) (home : Home α) (g : GCode α) (h : GCode.load env data light home = .ok g)
    (mode : RoundMode) (temp : TempFn α) (minZ : α) (T : α → α → α → α) (hT : ∀ b top, b < top → ∀ c, temp b top c = .ok (some (T b top c))) :
    (writeTemp mode temp minZ {} g).1 = [] ∨
    ∃ ts ins, (writeTemp mode temp minZ {} g).1 = tower ins g.allLayers ∧
      List.Forall₂ (fun (t : Option α) i => (t = none ∧ i = none) ∨ ∃ u s, t = some u ∧ i = some s ∧ IsTempLine u s) ts ins ∧
      (ts.filterMap id).IsChain (· ≠ ·) := by
  rcases writeTemp_loaded h mode temp minZ with ⟨_, hw⟩ | ⟨b, top, hb, hz, hlt, hw⟩
  · exact Or.inl (by rw [hw])
  · obtain ⟨ts, ins, last, e1, f, t⟩ := hw _ (hT b top hlt)
    exact Or.inr ⟨ts, ins, by rw [e1], f, by simpa using t.change⟩

example : ∀ b top : ℚ, b < top → ∀ c, continuousTemp 200 300 b top c = .ok (some (linear 200 300 b top c)) :=
  fun b top h c => continuousTemp_linear 200 300 b top h c

/-! ### C45, C46 -/

/-- C45 is false: going down from 240 to 200 in 10 steps, the top layer is printed at 196. -/
theorem C45_refuted : ∃ (data : List Str) (g : GCode ℚ), GCode.load qEnv data = .ok g ∧ ∃ st,
    (writeStep .halfEven 240 200 (1 / 10) 10 g).2 = .ok st ∧ c!"M104 S196.0" ∈ (writeStep .halfEven 240 200 (1 / 10) 10 g).1 :=
  ⟨spire, loadQ spire, spire_loads, { zmin := some (1 / 5), lastTarget := some (2253 / 10) }, by decide +kernel, by decide +kernel⟩

/-- C45 for a positive number of steps: an increasing gradient stays between start and end; a decreasing one goes at
most one step below the end, and does reach that at the top. -/
theorem C45_step_partial (s e n b top : α) (h : b < top) (hn : 0 < n) :
    (∀ c, b ≤ c → c ≤ top → ∃ t, stepTemp s e n b top c = .ok (some t) ∧ min s (e - (s - e) / n) ≤ t ∧ t ≤ max s e ∧ (s ≤ e → s ≤ t)) ∧
    stepTemp s e n b top b = .ok (some s) ∧
    stepTemp s e n b top top = .ok (some (if s ≤ e then e else e - (s - e) / n)) := by
  have hl := stepTemp_linear s e n b top h (by linarith : n ≠ -1)
  obtain ⟨_, i2, i3, i4, _⟩ := C44_interpolation s (e + (e - s) / n) b top h
  have hx : e + (e - s) / n = e - (s - e) / n := by rw [show e - s = -(s - e) by ring, neg_div]; ring
  refine ⟨?_, ?_, ?_⟩
  · intro c hb ht
    refine ⟨_, hl c, ?_, ?_, ?_⟩
    · obtain ⟨k1, _⟩ := i4 c hb ht
      rw [hx] at k1 ⊢
      refine le_min ?_ k1
      exact (min_le_left _ _).trans (le_max_right _ _)
    · rw [max_comm s e]; exact min_le_left _ _
    · intro hse
      obtain ⟨k1, _⟩ := i4 c hb ht
      have hd : 0 ≤ (e - s) / n := div_nonneg (by linarith) hn.le
      rw [min_eq_left (by linarith)] at k1
      exact le_min (le_max_right _ _) k1
  · rw [hl, i2, min_eq_right (le_max_right _ _)]
  · rw [hl, i3]
    by_cases hse : s ≤ e
    · have hd : 0 ≤ (e - s) / n := div_nonneg (by linarith) hn.le
      rw [if_pos hse, max_eq_left hse, min_eq_left (by linarith)]
    · push Not at hse
      have hd : (e - s) / n < 0 := div_neg_of_neg_of_pos (by linarith) hn
      rw [if_neg (not_le.2 hse), max_eq_right hse.le, min_eq_right (by linarith), hx]

example : stepTemp (240 : ℚ) 200 10 0 1 1 = .ok (some 196) ∧ stepTemp (200 : ℚ) 240 10 0 1 (1 / 2) = .ok (some 222) ∧
    stepTemp (200 : ℚ) 240 10 0 1 1 = .ok (some 240) := by decide +kernel

/-- C46 is false: with one step, four temperatures are used. -/
theorem C46_refuted : ∃ (data : List Str) (g : GCode ℚ), GCode.load qEnv data = .ok g ∧ ∃ st,
    (writeStep .halfEven 240 220 (1 / 10) 1 g).2 = .ok st ∧
    c!"M104 S240.0" ∈ (writeStep .halfEven 240 220 (1 / 10) 1 g).1 ∧ c!"M104 S226.7" ∈ (writeStep .halfEven 240 220 (1 / 10) 1 g).1 ∧
    c!"M104 S213.3" ∈ (writeStep .halfEven 240 220 (1 / 10) 1 g).1 ∧ c!"M104 S200.0" ∈ (writeStep .halfEven 240 220 (1 / 10) 1 g).1 :=
  ⟨spire, loadQ spire, spire_loads, { zmin := some (1 / 5), lastTarget := some (2267 / 10) }, by decide +kernel, by decide +kernel, by decide +kernel,
    by decide +kernel, by decide +kernel⟩

/-- C46 is false for every number of steps and every decreasing gradient: different heights always have different
temperatures. -/
theorem C46_never_refuted (s e n b top c d : α) (h : b < top) (hn : 0 < n) (hse : e < s) (hbc : b ≤ c) (hcd : c < d) :
    ∃ t u, stepTemp s e n b top c = .ok (some t) ∧ stepTemp s e n b top d = .ok (some u) ∧ u < t := by
  have hl := stepTemp_linear s e n b top h (by linarith : n ≠ -1)
  have hd : (e - s) / n < 0 := div_neg_of_neg_of_pos (by linarith) hn
  obtain ⟨_, i2, _, _, i5⟩ := C44_interpolation s (e + (e - s) / n) b top h
  have low : ∀ x, b ≤ x → linear s (e + (e - s) / n) b top x ≤ s := by
    intro x hx
    rcases eq_or_lt_of_le hx with rfl | hx
    · rw [i2]
    · have := (i5 b x hx).2.1 (by linarith)
      rw [i2] at this; exact this.le
  refine ⟨_, _, hl c, hl d, ?_⟩
  rw [max_eq_right hse.le, min_eq_right (low c hbc), min_eq_right (low d (by linarith))]
  exact (i5 c d hcd).2.1 (by linarith)

example : (0 : ℚ) < 1 ∧ (0 : ℚ) < 10 ∧ (200 : ℚ) < 240 ∧ (0 : ℚ) ≤ 1 / 4 ∧ (1 / 4 : ℚ) < 1 / 2 := by decide +kernel

/-! ### C47 -/

/-- A tower whose first layer is below the height where the gradient may start. -/
def lowSpire : List Str := [c!"G1 Z0.1", c!"G1 X1 E1", c!"G1 Z0.4", c!"G1 X2 E2", c!"G1 Z0.6", c!"G1 X3 E3"]

/-- C47 is false: the first layer, at 0.1, gets a temperature although the gradient may only start above 0.3. -/
theorem C47_refuted : ∃ (data : List Str) (g : GCode ℚ), GCode.load qEnv data = .ok g ∧
    (writeContinuous .halfEven 220 200 (3 / 10) g).1 =
      [c!"M104 S220.0", c!"G1 Z0.1", c!"G1 X1 E1", c!"M104 S208.0", c!"G1 Z0.4", c!"G1 X2 E2", c!"M104 S200.0", c!"G1 Z0.6", c!"G1 X3 E3"] :=
  ⟨lowSpire, loadQ lowSpire, by decide +kernel, by decide +kernel⟩

/-- C47 when the first known height is above `min_z_change` (for any temperature function): nothing is inserted before
a layer at or below it. -/
theorem C47_first_above_partial (env : Env α) (data : List Str) (light : Bool) (home : Home α) (g : GCode α) (h : GCode.load env data light home = .ok g)
    (mode : RoundMode) (temp : TempFn α) (minZ : α) (T : α → α → α → α) (hT : ∀ b top, b < top → ∀ c, temp b top c = .ok (some (T b top c)))
    (hf : ∀ c, (altitudes g).head? = some c → minZ < c) :
    (writeTemp mode temp minZ {} g).1 = [] ∨
    ∃ ins, (writeTemp mode temp minZ {} g).1 = tower ins g.allLayers ∧ ins.length = g.allLayers.length ∧
      ∀ (i : ℕ) (L : Layer α) (s : Str), ins[i]? = some (some s) → g.allLayers[i]? = some L → ∃ c, startHeight L = some c ∧ minZ < c := by
  rcases writeTemp_loaded h mode temp minZ with ⟨_, hw⟩ | ⟨b, top, hb, hz, hlt, hw⟩
  · exact Or.inl (by rw [hw])
  · obtain ⟨ts, ins, last, e1, f, t⟩ := hw _ (hT b top hlt)
    have hmin : minZ < b := by
      obtain ⟨h0, r, e, _, _, o, _⟩ := hb
      rcases o with rfl | o
      · exact hf b (by rw [e]; rfl)
      · exact o
    have hlen := f.length_eq
    refine Or.inr ⟨ins, by rw [e1], by rw [← hlen, t.length], ?_⟩
    intro i L s hs hL
    rw [List.forall₂_iff_get] at f
    have hi : i < ins.length := by
      by_contra hc
      rw [List.getElem?_eq_none (by omega)] at hs; simp at hs
    rcases f.2 i (by omega) hi with ⟨_, hn⟩ | ⟨u, x, hu, _, _⟩
    · rw [List.getElem?_eq_getElem hi] at hs
      simp only [List.get_eq_getElem] at hn
      rw [hn] at hs; simp at hs
    · have hu' : ts[i]? = some (some u) := by
        rw [List.getElem?_eq_getElem (by omega), ← hu]; rfl
      obtain ⟨c, hc, _, cb, _, _⟩ := t.sound i u L hu' hL
      exact ⟨c, hc, by linarith⟩

example : (altitudes (loadQ spire)).head? = some (1 / 5) ∧ (1 / 10 : ℚ) < 1 / 5 := by decide +kernel

/-! ### C48 -/

/-- C48 for the continuous gradient: refused with `RuntimeError` and nothing written exactly when no layer starts at a
known height or the start of the gradient is not below the top; otherwise the call returns. -/
theorem C48_continuous (env : Env α) (data : List Str) (light : Bool) (home : Home α) (g : GCode α) (h : GCode.load env data light home = .ok g)
    (mode : RoundMode) (s e minZ : α) :
    ((altitudes g = [] ∨ ∃ b top, IsBase minZ (altitudes g) b ∧ g.zmax = some top ∧ top ≤ b) ↔
      writeContinuous mode s e minZ g = ([], .error .runtimeError)) ∧
    (writeContinuous mode s e minZ g = ([], .error .runtimeError) ∨ ∃ out st, writeContinuous mode s e minZ g = (out, .ok st)) := by
  unfold writeContinuous
  rcases writeTemp_loaded h mode (continuousTemp s e) minZ with ⟨hc, hw⟩ | ⟨b, top, hb, hz, hlt, hw⟩
  · exact ⟨⟨fun _ => hw, fun _ => hc⟩, Or.inl hw⟩
  · obtain ⟨ts, ins, last, e1, f, t⟩ := hw _ (continuousTemp_linear s e b top hlt)
    refine ⟨⟨?_, ?_⟩, Or.inr ⟨_, _, e1⟩⟩
    · rintro (hn | ⟨b', top', hb', hz', hle⟩)
      · obtain ⟨h0, r, e, _⟩ := hb; rw [hn] at e; simp at e
      · rw [isBase_unique hb' hb] at hle
        rw [hz] at hz'
        obtain rfl := Option.some.inj hz'
        exact absurd hlt (not_lt.2 hle)
    · intro h'
      rw [e1] at h'; simp at h'

/-- C48 for the stepped gradient, for any number of steps other than 0 and -1. -/
theorem C48_step_partial (env : Env α) (data : List Str) (light : Bool) (home : Home α) (g : GCode α) (h : GCode.load env data light home = .ok g)
    (mode : RoundMode) (s e minZ n : α) (h0 : n ≠ 0) (h1 : n ≠ -1) :
    ((altitudes g = [] ∨ ∃ b top, IsBase minZ (altitudes g) b ∧ g.zmax = some top ∧ top ≤ b) ↔
      writeStep mode s e minZ n g = ([], .error .runtimeError)) ∧
    (writeStep mode s e minZ n g = ([], .error .runtimeError) ∨ ∃ out st, writeStep mode s e minZ n g = (out, .ok st)) := by
  unfold writeStep stepInit
  rw [if_neg h0]
  simp only
  rcases writeTemp_loaded h mode (stepTemp s e n) minZ with ⟨hc, hw⟩ | ⟨b, top, hb, hz, hlt, hw⟩
  · exact ⟨⟨fun _ => hw, fun _ => hc⟩, Or.inl hw⟩
  · obtain ⟨ts, ins, last, e1, f, t⟩ := hw _ (stepTemp_linear s e n b top hlt h1)
    refine ⟨⟨?_, ?_⟩, Or.inr ⟨_, _, e1⟩⟩
    · rintro (hn | ⟨b', top', hb', hz', hle⟩)
      · obtain ⟨h0, r, e, _⟩ := hb; rw [hn] at e; simp at e
      · rw [isBase_unique hb' hb] at hle
        rw [hz] at hz'
        obtain rfl := Option.some.inj hz'
        exact absurd hlt (not_lt.2 hle)
    · intro h'
      rw [e1] at h'; simp at h'

/-- C48 is false for 0 and for -1 steps, where a division by zero is raised (at once for 0; for -1 only once the writing
has begun), and for steps given on the command line, which arrive as text. -/
theorem C48_steps_refuted : (∀ (g : GCode α) mode (s e minZ : α), writeStep mode s e minZ 0 g = ([], .error .zeroDivision)) ∧
    (∃ (data : List Str) (g : GCode ℚ), GCode.load qEnv data = .ok g ∧ (writeStep .halfEven 240 220 (1 / 10) (-1) g).2 = .error .zeroDivision ∧
      (writeStep .halfEven 240 220 (1 / 10) (-1) g).1 = [c!"G28"]) ∧
    ∀ t, stepInitFromText t = .error .typeError := by
  refine ⟨fun g mode s e minZ => ?_, ⟨c!"G28" :: spire, loadQ (c!"G28" :: spire), by decide +kernel, by decide +kernel, by decide +kernel⟩, fun _ => rfl⟩
  unfold writeStep stepInit
  rw [if_pos rfl]

/-- Both cases occur: a flat program is refused, a tower is not. -/
example : GCode.load qEnv [c!"G1 Z0.2", c!"G1 X1 E1"] = .ok (loadQ [c!"G1 Z0.2", c!"G1 X1 E1"]) ∧
    writeContinuous .halfEven 220 200 (1 / 10) (loadQ [c!"G1 Z0.2", c!"G1 X1 E1"]) = ([], .error .runtimeError) ∧
    writeContinuous .halfEven 220 200 (1 / 10) (loadQ spire) ≠ ([], .error .runtimeError) := by decide +kernel

end GCodeUtils
