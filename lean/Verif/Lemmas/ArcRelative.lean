import Verif.Lemmas.ArcGuard
import Verif.Lemmas.ArcReal
import Verif.Props.RelExt
import Verif.Props.Arc
import Verif.Props.Grammar

/-
  Arcs with relative extrusion, and arcs in converted programs.
-/

set_option linter.unusedSectionVars false

namespace GCodeUtils

open Spec

variable {α : Type} [Field α] [LinearOrder α] [IsStrictOrderedRing α] [FloorRing α]

/-! ### arc and chord -/

theorem half_over_sin {x : ℝ} (h0 : 0 < x) (h1 : x ≤ Real.pi / 2) : x ≤ Real.pi / 2 * Real.sin x := by
  have h := Real.mul_le_sin h0.le h1
  have hp := Real.pi_pos
  have h2 := mul_le_mul_of_nonneg_left h (show (0 : ℝ) ≤ Real.pi / 2 by linarith)
  have h3 : Real.pi / 2 * (2 / Real.pi * x) = x := by field_simp
  rw [h3] at h2
  exact h2

theorem small_over_sin {x : ℝ} (h0 : 0 < x) (h1 : x ≤ 5 * Real.pi / 36) : x ≤ 104 / 100 * Real.sin x := by
  have hpi := Real.pi_lt_d2
  have hx : x ≤ 4375 / 10000 := by linarith
  have hb := Real.sin_bound (x := x) (by rw [abs_of_pos h0]; linarith)
  rw [abs_of_pos h0] at hb
  have h2 := (abs_le.1 hb).1
  have h3 : x ^ 3 ≤ x * (4375 / 10000) ^ 2 := by
    rw [show x ^ 3 = x * x ^ 2 by ring]
    exact mul_le_mul_of_nonneg_left (pow_le_pow_left₀ h0.le hx 2) h0.le
  have h4 : x ^ 4 ≤ x * (4375 / 10000) ^ 3 := by
    rw [show x ^ 4 = x * x ^ 3 by ring]
    exact mul_le_mul_of_nonneg_left (pow_le_pow_left₀ h0.le hx 3) h0.le
  nlinarith

/-- How much longer than its chord an arc may be. -/
theorem arc_le_chord {a r s A K : ℝ} (hA : |a| ≤ A) (hpi : A ≤ Real.pi) (hK : ∀ x, 0 < x → x ≤ A / 2 → x ≤ K * Real.sin x)
    (hn : 2 * r * Real.sin (a / 2) ≠ 0) (hs : 0 ≤ s) : s * (r * a) / (2 * r * Real.sin (a / 2)) ≤ K * s := by
  have hr : r ≠ 0 := by rintro rfl; simp at hn
  have hsin : Real.sin (a / 2) ≠ 0 := by intro h; rw [h] at hn; simp at hn
  have ha : a ≠ 0 := by rintro rfl; simp at hsin
  have h0 := Real.pi_pos
  have e : s * (r * a) / (2 * r * Real.sin (a / 2)) = s * ((a / 2) / Real.sin (a / 2)) := by field_simp
  rw [e]
  obtain ⟨b1, b2⟩ := abs_le.1 hA
  have hf : (a / 2) / Real.sin (a / 2) ≤ K := by
    rcases lt_or_gt_of_ne ha with hneg | hpos
    · have hp : 0 < Real.sin (-(a / 2)) := Real.sin_pos_of_pos_of_lt_pi (by linarith) (by linarith)
      have hl := hK (-(a / 2)) (by linarith) (by linarith)
      rw [← neg_div_neg_eq, ← Real.sin_neg, div_le_iff₀ hp]
      exact hl
    · have hp : 0 < Real.sin (a / 2) := Real.sin_pos_of_pos_of_lt_pi (by linarith) (by linarith)
      rw [div_le_iff₀ hp]
      exact hK _ (by linarith) (by linarith)
  nlinarith

theorem sum_zipWith_le {f : ℝ → ℝ → ℝ} {K : ℝ} (fils : List ℝ) : ∀ as : List ℝ, fils.length = as.length → (∀ s ∈ fils, ∀ a ∈ as, f s a ≤ K * s) →
    (List.zipWith f fils as).sum ≤ K * fils.sum := by
  induction fils with
  | nil => intro as _ _; simp
  | cons s fils ih =>
    intro as hl h
    cases as with
    | nil => simp at hl
    | cons a as =>
      simp only [List.zipWith_cons_cons, List.sum_cons]
      have h1 := h s (by simp) a (by simp)
      have h2 := ih as (by simpa using hl) (fun s hs a ha => h s (List.mem_cons_of_mem _ hs) a (List.mem_cons_of_mem _ ha))
      linarith

theorem relative_fils (w : List (PyLine α)) : ∀ (start : PyLine α) (fils : List α), (∀ l ∈ w, l.relativeE = some true) →
    List.Forall₂ (fun (s : PyLine α × PyLine α) v => Pushes s.1 s.2 v) (steps (start :: w)) fils → w.map (fun l => l.e.getD 0) = fils := by
  induction w with
  | nil => intro start fils _ hf; simp only [steps, List.tail_cons, List.zip_nil_right] at hf; cases hf; rfl
  | cons a w ih =>
    intro start fils hrel hf
    rw [steps_cons] at hf
    cases hf with
    | cons hp hf =>
      simp only [Pushes, if_pos (hrel a (by simp))] at hp
      rw [List.map_cons, hp, ih a _ (fun l hl => hrel l (List.mem_cons_of_mem _ hl)) hf]
      rfl

/-! ### the optimiser on programs that are not fresh from loading -/

theorem arcRun_extruding_of {t : Trig α} {g g' : GCode α} {e : α} (htr : ETrace e (program g)) (hne : g.allLayers ≠ []) {s : ArcSt α}
    (hr : arcRun (arcOps t) {} g = .ok (s, g')) :
    Rewrites (fun start w gen => ArcReplacement t start w gen ∧ ∀ l ∈ w, l.e ≠ none) (program g) (program g') := by
  obtain ⟨out, h1, h2⟩ := arcRun_flat hne hr
  have hg := arcFilter_guard (arcOps_last (t := t)) (program g) {} ⟨List.IsChain.nil, _, htr, by simp⟩
  rw [h1] at hg
  have hrw := arcFilter_rewrites (ops := guardOps (arcOps t) (List.IsChain EStep)) (R := fun start w gen => ArcReplacement t start w gen ∧ ∀ l ∈ w, l.e ≠ none)
    guard_replaces (program g) (queueInv_fresh _) List.Forall₂.nil hg
  rw [h2]
  simpa using hrw.2

/-! ### converted programs -/

/-- What conversion does to a line, as far as the optimiser is concerned. -/
theorem relLine_facts (s : RelSt α) (l : PyLine α) :
    (HasCmd l c!"M82" ∧ (relLine s l).2 = rawToLine c!"M83") ∨
    (¬ HasCmd l c!"M82" ∧ (relLine s l).2.command = l.command ∧ (relLine s l).2.currentX = l.currentX ∧ (relLine s l).2.currentY = l.currentY ∧
      (relLine s l).2.currentZ = l.currentZ ∧ (relLine s l).2.currentE = l.currentE ∧ (relLine s l).2.currentF = l.currentF ∧
      ((relLine s l).2.e = none ↔ l.e = none)) := by
  unfold relLine
  by_cases h1 : HasCmd l c!"M83"
  · rw [if_pos h1]
    refine .inr ⟨?_, rfl, rfl, rfl, rfl, rfl, rfl, Iff.rfl⟩
    unfold HasCmd at h1 ⊢
    rw [h1]; decide
  rw [if_neg h1]
  by_cases h2 : HasCmd l c!"M82"
  · rw [if_pos h2]; exact .inl ⟨h2, rfl⟩
  rw [if_neg h2]
  refine .inr ⟨h2, ?_⟩
  by_cases h3 : HasCmd l c!"G92"
  · rw [if_pos h3]
    cases he : l.e with
    | some e => simp [he]
    | none =>
      simp only
      by_cases h4 : l.x = none ∧ l.y = none ∧ l.z = none
      · rw [if_pos h4]; simp [he]
      · rw [if_neg h4]; simp [he]
  rw [if_neg h3]
  by_cases h4 : IsMove l ∧ s.relative = false
  · rw [if_pos h4]
    cases he : l.e with
    | some e => simp [unsplit]
    | none => simp [he]
  · rw [if_neg h4]; simp

theorem etrace_rel {ls : List (PyLine α)} : ∀ {e : α} (s : RelSt α), ETrace e ls → (∀ l ∈ ls, HasCmd l c!"M82" → l.e = none) → ETrace e (scan relLine s ls).2 := by
  induction ls with
  | nil => intro e s _ _; exact .nil _
  | cons l ls ih =>
    intro e s h hm
    cases h with
    | cons h1 h2 h3 h4 =>
      have ih := ih (relLine s l).1 h4 (fun k hk => hm k (List.mem_cons_of_mem _ hk))
      rcases relLine_facts s l with ⟨k1, k2⟩ | ⟨k0, k1, _, _, _, k2, _, k3⟩
      · have he := h3 (hm l (by simp) k1)
        show ETrace e ((relLine s l).2 :: _)
        rw [k2]
        refine .cons ?_ ?_ (fun _ => he) ih
        · rw [m83_line]; simp
        · rintro ⟨c, hc, hc'⟩
          rw [m83_line] at hc'
          rw [← Option.some.inj hc'] at hc
          exact absurd hc (by decide)
      · refine .cons ?_ ?_ ?_ ih
        · rw [k1, k2, k3]; exact h1
        · intro hmv
          rw [k2]
          exact h2 ((isMove_congr k1).1 hmv)
        · rw [k3]; exact h3

theorem run_m82 {home : Home α} {m m' : Machine α} {raws : List Str} {out : List (PyLine α)} (h : Run home m (bare raws) m' out) :
    ∀ l ∈ out, HasCmd l c!"M82" → l.e = none := by
  generalize hb : bare raws = ls at h
  induction h generalizing raws with
  | nil m => intro l hl; simp at hl
  | cons hp _ ih =>
    rename_i m m1 m' l l' ls out _
    cases raws with
    | nil => simp [bare] at hb
    | cons r raws =>
      simp only [bare, List.map_cons, List.cons.injEq] at hb
      obtain ⟨rfl, hb⟩ := hb
      intro x hx
      rcases List.mem_cons.1 hx with rfl | hx
      · intro hm
        obtain ⟨_, k1, k2, _⟩ := C76_line home hp _ ((findall_reads (lower r) _).1 rfl)
        refine k2 ?_ 'e' (by decide)
        rw [← k1, hm]; decide
      · exact ih hb x hx

theorem load_m82 {env : Env α} {data : List Str} {home : Home α} {g : GCode α} (h : GCode.load env data false home = .ok g) :
    ∀ l ∈ program g, HasCmd l c!"M82" → l.e = none := by
  obtain ⟨out, hr, hout⟩ := load_run' h
  have e : out = program g := by rw [← hout rfl, (load_indexed h).flat]; rfl
  rw [← e]
  exact run_m82 hr

/-- The filament trace of a converted program. -/
theorem converted_etrace {env : Env α} {data : List Str} {home : Home α} {g c : GCode α} (h : GCode.load env data false home = .ok g)
    (hc : g.toRelativeE = .ok c) : ETrace 0 (program c) ∧ c.allLayers ≠ [] := by
  obtain ⟨c', k1, k2, k3⟩ := toRelativeE_program g
  rw [hc] at k1
  obtain rfl := Except.ok.inj k1
  obtain ⟨out, hr, hout⟩ := load_run' h
  have e : out = program g := by rw [← hout rfl, (load_indexed h).flat]; rfl
  have htr := run_etrace hr
  rw [e] at htr
  refine ⟨by rw [k3]; exact etrace_rel _ htr (load_m82 h), ?_⟩
  have := toRelativeE_eq g
  rw [hc] at this
  have := Except.ok.inj this
  intro h0
  rw [this] at h0
  simp only at h0
  have hl := (scanLayers_flat relLine g.allLayers RelSt.init).2
  rw [h0] at hl
  exact load_layers_ne h (by simpa using hl.symm)

theorem etrace_commentE {e : α} {ls : List (PyLine α)} (h : ETrace e ls) : ∀ l ∈ ls, l.command = none → l.e = none := by
  induction h with
  | nil => simp
  | cons h1 _ _ _ ih =>
    intro l hl
    rcases List.mem_cons.1 hl with rfl | hl
    · exact fun hc => (h1 hc).1
    · exact ih l hl

/-- A program without `M83` has only relative E words after conversion. -/
theorem converted_relative {ls : List (PyLine α)} : ∀ (s : RelSt α), s.relative = false → (∀ l ∈ ls, ¬ HasCmd l c!"M83") →
    ∀ l ∈ (scan relLine s ls).2, IsMove l → l.e ≠ none → l.relativeE = some true := by
  induction ls with
  | nil => intro s _ _ l hl; simp [scan] at hl
  | cons k ls ih =>
    intro s hs hm l hl
    have h83 := hm k (by simp)
    have key : (relLine s k).1.relative = false ∧ (IsMove (relLine s k).2 → (relLine s k).2.e ≠ none → (relLine s k).2.relativeE = some true) := by
      unfold relLine
      rw [if_neg h83]
      by_cases h2 : HasCmd k c!"M82"
      · rw [if_pos h2]
        refine ⟨rfl, fun _ he => absurd rfl he⟩
      rw [if_neg h2]
      by_cases h3 : HasCmd k c!"G92"
      · rw [if_pos h3]
        have hnm : ¬ IsMove k := by
          rintro ⟨c, hc, hc'⟩
          rw [h3] at hc'
          rw [← Option.some.inj hc'] at hc
          exact absurd hc (by decide)
        cases he : k.e with
        | some e => exact ⟨hs, fun hh => absurd hh hnm⟩
        | none =>
          simp only
          by_cases h4 : k.x = none ∧ k.y = none ∧ k.z = none
          · rw [if_pos h4]; exact ⟨hs, fun hh => absurd hh hnm⟩
          · rw [if_neg h4]; exact ⟨hs, fun hh => absurd hh hnm⟩
      rw [if_neg h3]
      by_cases h4 : IsMove k ∧ s.relative = false
      · rw [if_pos h4]
        cases he : k.e with
        | some e => exact ⟨hs, fun _ _ => rfl⟩
        | none => exact ⟨hs, fun _ hh => absurd he hh⟩
      · rw [if_neg h4]
        exact ⟨hs, fun hh => absurd ⟨hh, hs⟩ h4⟩
    rcases List.mem_cons.1 hl with rfl | hl
    · exact key.2
    · exact ih _ key.1 (fun x hx => hm x (List.mem_cons_of_mem _ hx)) l hl

/-! ### filament of relative windows -/

theorem window_filament {mode : RoundMode} {start : PyLine ℝ} {w gen : List (PyLine ℝ)} (h : ArcReplacement (realTrig mode) start w gen) (hE : ∀ l ∈ w, l.e ≠ none)
    (hrel : ∀ l ∈ w, l.relativeE = some true) : ∃ pts c arc rest e, gen = arc :: rest ∧ arc.e = some e ∧ List.Forall₂ At (start :: w) pts ∧
      8 ≤ w.length ∧ (∀ a ∈ angles (realTrig mode) c pts, a - mean (angles (realTrig mode) c pts) ≤ 5 * Real.pi / 180) ∧
      (angles (realTrig mode) c pts).length = w.length ∧
      (∃ p, pts.head? = some p ∧ arc.i = some (pyRound mode 3 (c.1 - p.1)) ∧ arc.j = some (pyRound mode 3 (c.2 - p.2))) ∧
      0 < (w.map (fun l => l.e.getD 0)).sum ∧ (w.map (fun l => l.e.getD 0)).sum ≤ e ∧ e ≤ Real.pi / 2 * (w.map (fun l => l.e.getD 0)).sum ∧
      ((∀ a ∈ angles (realTrig mode) c pts, |a| ≤ 5 * Real.pi / 18) → e ≤ 104 / 100 * (w.map (fun l => l.e.getD 0)).sum) := by
  obtain ⟨hw, pts, c, r, paths, fils, arc, rest, ho, ha, _, rfl⟩ := h
  obtain ⟨last, hlast, h1, _⟩ := ha.filament
  have hne : w ≠ [] := by rintro rfl; simp at hlast
  obtain ⟨hfp, hfs, _, hlen, _⟩ := onArc_positive ho hE hne
  obtain ⟨hn, he⟩ := h1 (hrel last (List.mem_of_getLast? hlast))
  have hfils := relative_fils w start fils hrel ho.fils_eq
  rw [hfils]
  refine ⟨pts, c, arc, rest, _, rfl, he, ho.at_points, hw.1, ho.even, ?_, ha.centre, hfs, ?_, ?_, ?_⟩
  · unfold angles steps
    rw [List.length_map, List.length_zip, List.length_tail, ← ho.at_points.length_eq]
    simp
  all_goals unfold arcFilament
  · apply sum_zipWith_ge _ _ hlen
    intro s hs a ha'
    obtain ⟨st, _, rfl⟩ := List.mem_map.1 ha'
    obtain ⟨b1, b2⟩ := turn_bounds (mode := mode) c st.1 st.2
    exact arc_ge_chord b1 b2 (hn _ ha') (hfp s hs).le
  · apply sum_zipWith_le _ _ hlen
    intro s hs a ha'
    obtain ⟨st, _, rfl⟩ := List.mem_map.1 ha'
    exact arc_le_chord (A := Real.pi) (abs_le.2 (turn_bounds (mode := mode) c st.1 st.2)) le_rfl (fun x h0 h1 => half_over_sin h0 h1) (hn _ ha') (hfp s hs).le
  · intro hA
    apply sum_zipWith_le _ _ hlen
    intro s hs a ha'
    exact arc_le_chord (A := 5 * Real.pi / 18) (hA a ha') (by linarith [Real.pi_pos]) (fun x h0 h1 => small_over_sin h0 (by linarith)) (hn _ ha') (hfp s hs).le

end GCodeUtils
