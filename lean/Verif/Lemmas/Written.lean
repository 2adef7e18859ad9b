import Verif.Lemmas.Exec
import Verif.Lemmas.Filter
import Verif.Spec.Close

/-
  How far a run over rounded values can drift from a run over exact ones.
-/

set_option linter.unusedSectionVars false

namespace GCodeUtils

open Spec

variable {α : Type} [Field α] [LinearOrder α] [IsStrictOrderedRing α] [FloorRing α]

/-- Two printers in the same modes whose positions differ by at most `tp`, origins by at most `tg` and filament by at
most `te`. -/
structure Near (tp tg te : α) (w q : Printer α) : Prop where
  inch : w.inch = q.inch
  rel : w.rel = q.rel
  relE : w.relE = q.relE
  tool : w.tool = q.tool
  px : |w.pos.x - q.pos.x| ≤ tp
  py : |w.pos.y - q.pos.y| ≤ tp
  pz : |w.pos.z - q.pos.z| ≤ tp
  ox : |w.org.x - q.org.x| ≤ tg
  oy : |w.org.y - q.org.y| ≤ tg
  oz : |w.org.z - q.org.z| ≤ tg
  e : |w.e - q.e| ≤ te
  eo : |w.eOrg - q.eOrg| ≤ te
  push : w.pushed - q.pushed = w.e - q.e
  tp0 : 0 ≤ tp
  to0 : 0 ≤ tg
  te0 : 0 ≤ te

theorem Near.self (p : Printer α) : Near 0 0 0 p p :=
  ⟨rfl, rfl, rfl, rfl, by simp, by simp, by simp, by simp, by simp, by simp, by simp, by simp, by simp, le_refl _, le_refl _, le_refl _⟩

theorem Near.mono {tp tg te tp' tg' te' : α} {w q : Printer α} (h : Near tp tg te w q) (h1 : tp ≤ tp') (h2 : tg ≤ tg') (h3 : te ≤ te') :
    Near tp' tg' te' w q :=
  ⟨h.inch, h.rel, h.relE, h.tool, h.px.trans h1, h.py.trans h1, h.pz.trans h1, h.ox.trans h2, h.oy.trans h2, h.oz.trans h2,
    h.e.trans h3, h.eo.trans h3, h.push, h.tp0.trans h1, h.to0.trans h2, h.te0.trans h3⟩

/-- One axis of a move, with values `d` apart. -/
theorem axis_near {rel : Bool} {p p' o o' tp tg d t : α} {v v' : Option α} (hv : Within d v' v) (hp : |p' - p| ≤ tp) (ho : |o' - o| ≤ tg)
    (_hd : 0 ≤ d) (h1 : tp ≤ t) (h2 : rel = true → tp + d ≤ t) (h3 : rel = false → tg + d ≤ t) : |axis rel p' o' v' - axis rel p o v| ≤ t := by
  rcases hv with ⟨rfl, rfl⟩ | ⟨a, b, rfl, rfl, hab⟩
  · simp only [axis]; linarith
  · cases rel with
    | true =>
      simp only [axis, if_true]
      have : p' + a - (p + b) = (p' - p) + (a - b) := by ring
      rw [this]
      exact (abs_add_le _ _).trans (by have := h2 rfl; linarith)
    | false =>
      simp only [axis, Bool.false_eq_true, if_false]
      have : o' + a - (o + b) = (o' - o) + (a - b) := by ring
      rw [this]
      exact (abs_add_le _ _).trans (by have := h3 rfl; linarith)

theorem relabel_near {p p' o o' tp tg d t : α} {v v' : Option α} (hv : Within d v' v) (hp : |p' - p| ≤ tp) (ho : |o' - o| ≤ tg)
    (h1 : tg ≤ t) (h2 : tp + d ≤ t) : |relabel p' o' v' - relabel p o v| ≤ t := by
  rcases hv with ⟨rfl, rfl⟩ | ⟨a, b, rfl, rfl, hab⟩
  · simp only [relabel]; linarith
  · simp only [relabel]
    have : p' - a - (p - b) = (p' - p) - (a - b) := by ring
    rw [this]
    exact (abs_sub _ _).trans (by linarith)

theorem push_eq (p : Printer α) (v : Option α) : p.push v = axis p.relE p.e p.eOrg v - p.e := by
  cases v with
  | none => simp [Printer.push, axis]
  | some k => rfl

/-- A move with values close tg each other. -/
theorem Near.moveTo {tp tg te d de tp' te' : α} {w q : Printer α} (h : Near tp tg te w q) {x y z e f x' y' z' e' f' : Option α}
    (hx : Within d x' x) (hy : Within d y' y) (hz : Within d z' z) (he : Within de e' e) (hd : 0 ≤ d) (hde : 0 ≤ de)
    (h1 : tp ≤ tp') (h2 : q.rel = true → tp + d ≤ tp') (h3 : q.rel = false → tg + d ≤ tp') (h4 : te + de ≤ te') :
    Near tp' tg te' (w.moveTo x' y' z' e' f') (q.moveTo x y z e f) := by
  have hE : |axis w.relE w.e w.eOrg e' - axis q.relE q.e q.eOrg e| ≤ te' := by
    rw [h.relE]
    exact axis_near he h.e h.eo hde (by linarith) (fun _ => h4) (fun _ => h4)
  refine ⟨h.inch, h.rel, h.relE, h.tool, ?_, ?_, ?_, h.ox, h.oy, h.oz, ?_, h.eo.trans (by linarith), ?_, h.tp0.trans h1, h.to0,
    by have := h.te0; linarith⟩
  · simp only [Printer.moveTo, h.rel]; exact axis_near hx h.px h.ox hd h1 h2 h3
  · simp only [Printer.moveTo, h.rel]; exact axis_near hy h.py h.oy hd h1 h2 h3
  · simp only [Printer.moveTo, h.rel]; exact axis_near hz h.pz h.oz hd h1 h2 h3
  · simp only [Printer.moveTo, push_eq]
    have : w.e + (axis w.relE w.e w.eOrg e' - w.e) - (q.e + (axis q.relE q.e q.eOrg e - q.e)) = axis w.relE w.e w.eOrg e' - axis q.relE q.e q.eOrg e := by ring
    rw [this]; exact hE
  · simp only [Printer.moveTo]
    have := h.push
    linarith

theorem Near.relabelTo {tp tg te d de tg' te' : α} {w q : Printer α} (h : Near tp tg te w q) {x y z e x' y' z' e' : Option α}
    (hx : Within d x' x) (hy : Within d y' y) (hz : Within d z' z) (he : Within de e' e)
    (h1 : tg ≤ tg') (h2 : tp + d ≤ tg') (hde : 0 ≤ de) (h4 : te + de ≤ te') :
    Near tp tg' te' (w.relabelTo x' y' z' e') (q.relabelTo x y z e) :=
  ⟨h.inch, h.rel, h.relE, h.tool, h.px, h.py, h.pz, relabel_near hx h.px h.ox h1 h2, relabel_near hy h.py h.oy h1 h2,
    relabel_near hz h.pz h.oz h1 h2, h.e.trans (by linarith), relabel_near he h.e h.eo (by linarith) h4, h.push, h.tp0, h.to0.trans h1,
    by have := h.te0; linarith⟩

theorem Near.homeAxes {tp tg te : α} {w q : Printer α} (h : Near tp tg te w q) (home : Pos3 α) (x y z : Bool) :
    Near tp tg te (w.homeAxes home x y z) (q.homeAxes home x y z) := by
  have aux : ∀ (b : Bool) (a p p' t : α), 0 ≤ t → |p' - p| ≤ t → |(if b then a else p') - (if b then a else p)| ≤ t := by
    intro b a p p' t ht h
    cases b <;> simp [ht, h]
  exact ⟨h.inch, h.rel, h.relE, h.tool, aux _ _ _ _ _ h.tp0 h.px, aux _ _ _ _ _ h.tp0 h.py, aux _ _ _ _ _ h.tp0 h.pz, aux _ _ _ _ _ h.to0 h.ox,
    aux _ _ _ _ _ h.to0 h.oy, aux _ _ _ _ _ h.to0 h.oz, h.e, h.eo, h.push, h.tp0, h.to0, h.te0⟩

theorem within_self {d : α} (hd : 0 ≤ d) (v : Option α) : Within d v v := by
  cases v with
  | none => exact .inl ⟨rfl, rfl⟩
  | some a => exact .inr ⟨a, a, rfl, rfl, by simpa using hd⟩

/-- The same line on both sides. -/
theorem Near.exec {tp tg te : α} {w q : Printer α} (h : Near tp tg te w q) (home : Pos3 α) (l : PyLine α) (hot : tg ≤ tp)
    (h92 : HasCmd l c!"G92" → tg = tp) : Near tp tg te (w.exec home l) (q.exec home l) := by
  have h0 : (0 : α) ≤ 0 := le_refl _
  unfold Printer.exec
  cases hc : l.command with
  | none => exact h
  | some cmd =>
    simp only
    by_cases a0 : cmd ∈ [c!"G0", c!"G1", c!"G2", c!"G3"]
    · rw [if_pos a0, if_pos a0]
      exact h.moveTo (within_self h0 _) (within_self h0 _) (within_self h0 _) (within_self h0 _) h0 h0 (le_refl _) (fun _ => by simp)
        (fun _ => by simpa using hot) (by simp)
    · rw [if_neg a0, if_neg a0]
      by_cases b1 : cmd = c!"G20"
      · rw [if_pos b1, if_pos b1]; exact { h with inch := rfl }
      · rw [if_neg b1, if_neg b1]
        by_cases b2 : cmd = c!"G21"
        · rw [if_pos b2, if_pos b2]; exact { h with inch := rfl }
        · rw [if_neg b2, if_neg b2]
          by_cases a1 : cmd = c!"G28"
          · rw [if_pos a1, if_pos a1]; exact h.homeAxes _ _ _ _
          · rw [if_neg a1, if_neg a1]
            by_cases a2 : cmd = c!"G90"
            · rw [if_pos a2, if_pos a2]; exact { h with rel := rfl, relE := rfl }
            · rw [if_neg a2, if_neg a2]
              by_cases a3 : cmd = c!"G91"
              · rw [if_pos a3, if_pos a3]; exact { h with rel := rfl, relE := rfl }
              · rw [if_neg a3, if_neg a3]
                by_cases a4 : cmd = c!"G92"
                · rw [if_pos a4, if_pos a4]
                  have := h92 (by rw [HasCmd, hc, a4])
                  exact h.relabelTo (within_self h0 _) (within_self h0 _) (within_self h0 _) (within_self h0 _) (le_refl _) (by rw [this]; simp) h0 (by simp)
                · rw [if_neg a4, if_neg a4]
                  by_cases a5 : cmd = c!"M82"
                  · rw [if_pos a5, if_pos a5]; exact { h with relE := rfl }
                  · rw [if_neg a5, if_neg a5]
                    by_cases a6 : cmd = c!"M83"
                    · rw [if_pos a6, if_pos a6]; exact { h with relE := rfl }
                    · rw [if_neg a6, if_neg a6]
                      split
                      · exact { h with tool := by simp only [h.tool] }
                      · exact h

theorem within_fixed3 (a : Option α) : Within (5 / 10 ^ 4) ((a.map (fun a => 1 * fixedVal 3 a)).or none) a := by
  cases a with
  | none => exact .inl ⟨rfl, rfl⟩
  | some a =>
    refine .inr ⟨1 * fixedVal 3 a, a, rfl, rfl, ?_⟩
    have e3 : (1 : α) / (2 * 10 ^ 3) = 5 / 10 ^ 4 := by norm_num
    rw [one_mul, ← e3]
    exact fixedVal_bound 3 a

theorem within_fixed5 (a : Option α) : Within (5 / 10 ^ 6) ((a.map (fun a => 1 * fixedVal 5 a)).or none) a := by
  cases a with
  | none => exact .inl ⟨rfl, rfl⟩
  | some a =>
    refine .inr ⟨1 * fixedVal 5 a, a, rfl, rfl, ?_⟩
    have e5 : (1 : α) / (2 * 10 ^ 5) = 5 / 10 ^ 6 := by norm_num
    rw [one_mul, ← e5]
    exact fixedVal_bound 5 a

theorem exec_move (home : Pos3 α) (p : Printer α) {l : PyLine α} (h : IsMove l) : p.exec home l = p.moveTo l.x l.y l.z l.e l.f := by
  obtain ⟨c, hc, hl⟩ := h
  unfold Printer.exec
  rw [hl]
  simp only [if_pos hc]

theorem line_unsplit_move (home : Pos3 α) {l : PyLine α} (h : IsMove l) (w : Printer α) (hw : w.inch = false) :
    w.line home (unsplit l).raw = w.moveTo ((l.x.map (fun a => 1 * fixedVal 3 a)).or none) ((l.y.map (fun a => 1 * fixedVal 3 a)).or none)
      ((l.z.map (fun a => 1 * fixedVal 3 a)).or none) ((l.e.map (fun a => 1 * fixedVal 5 a)).or none) ((l.f.map (fun a => 1 * fixedVal 3 a)).or none) := by
  have hm : IsMove (reread 1 l { command := l.command }) := h
  obtain ⟨c, hc, hl⟩ := h
  have : ∃ n, c = 'G' :: n ∧ numLen n = n.length ∧ n ≠ c!"28" := by
    simp only [List.mem_cons, List.not_mem_nil, or_false] at hc
    rcases hc with rfl | rfl | rfl | rfl
    · exact ⟨c!"0", rfl, by decide, by decide⟩
    · exact ⟨c!"1", rfl, by decide, by decide⟩
    · exact ⟨c!"2", rfl, by decide, by decide⟩
    · exact ⟨c!"3", rfl, by decide, by decide⟩
  obtain ⟨n, rfl, hn, h28⟩ := this
  rw [line_unsplit home hl hn h28 w hw, exec_move home w hm]
  rfl

/-- A rewritten move, text against values. -/
theorem Near.written_move {tp tg te tp' : α} {w q : Printer α} (h : Near tp tg te w q) (home : Pos3 α) {l : PyLine α} (hm : IsMove l)
    (hw : w.inch = false) (h1 : tp ≤ tp') (h2 : q.rel = true → tp + 5 / 10 ^ 4 ≤ tp') (h3 : q.rel = false → tg + 5 / 10 ^ 4 ≤ tp') :
    Near tp' tg (te + 5 / 10 ^ 6) (w.line home (unsplit l).raw) (q.exec home (unsplit l)) := by
  have hm' : IsMove (unsplit l) := hm
  rw [line_unsplit_move home hm w hw, exec_move home q hm']
  exact h.moveTo (within_fixed3 _) (within_fixed3 _) (within_fixed3 _) (within_fixed5 _) (by norm_num) (by norm_num) h1 h2 h3 (le_refl _)

theorem translateMove_form (s : TransSt α) (l : PyLine α) :
    translateMove s l = l ∨ ∃ l2, translateMove s l = unsplit l2 ∧ l2.command = l.command := by
  unfold translateMove
  cases hx : l.x with
  | none =>
    simp only
    cases hy : l.y with
    | none => exact .inl rfl
    | some y =>
      simp only
      by_cases h : s.ty ≠ 0
      · rw [if_pos h]; exact .inr ⟨_, rfl, rfl⟩
      · rw [if_neg h]; exact .inl rfl
  | some x =>
    simp only
    by_cases h : s.tx ≠ 0
    · rw [if_pos h]
      have hy : (unsplit { l with x := some (x + s.tx) }).y = l.y := rfl
      rw [hy]
      cases l.y with
      | none => exact .inr ⟨_, rfl, rfl⟩
      | some y =>
        simp only
        by_cases h : s.ty ≠ 0
        · rw [if_pos h]; exact .inr ⟨_, rfl, rfl⟩
        · rw [if_neg h]; exact .inr ⟨_, rfl, rfl⟩
    · rw [if_neg h]
      cases hy : l.y with
      | none => exact .inl rfl
      | some y =>
        simp only
        by_cases h : s.ty ≠ 0
        · rw [if_pos h]; exact .inr ⟨_, rfl, rfl⟩
        · rw [if_neg h]; exact .inl rfl

/-- The relative flag after a line. -/
theorem exec_rel (home : Pos3 α) (p : Printer α) (l : PyLine α) :
    (p.exec home l).rel = if HasCmd l c!"G90" then false else if HasCmd l c!"G91" then true else p.rel := by
  by_cases hm : IsMove l
  · have h90 : ¬ HasCmd l c!"G90" := by
      obtain ⟨c, hc, hl⟩ := hm
      rw [HasCmd, hl, Option.some.injEq]; rintro rfl; simp at hc
    have h91 : ¬ HasCmd l c!"G91" := by
      obtain ⟨c, hc, hl⟩ := hm
      rw [HasCmd, hl, Option.some.injEq]; rintro rfl; simp at hc
    rw [exec_move home p hm, if_neg h90, if_neg h91]; rfl
  · by_cases h90 : HasCmd l c!"G90"
    · rw [if_pos h90]
      unfold Printer.exec; rw [h90]; simp
    · rw [if_neg h90]
      by_cases h91 : HasCmd l c!"G91"
      · rw [if_pos h91]
        unfold Printer.exec; rw [h91]; simp
      · rw [if_neg h91]
        by_cases h28 : HasCmd l c!"G28"
        · unfold Printer.exec; rw [h28]; simp [Printer.homeAxes]
        · by_cases h92 : HasCmd l c!"G92"
          · unfold Printer.exec; rw [h92]; simp [Printer.relabelTo]
          · exact (exec_other home p p.pos p.org hm h28 h90 h91 h92).2.2.2

/-- The translated program as text against the translated program as values: without `G92`, positions are off by at
most half a thousandth, the filament by `5e-6` per line. -/
theorem trans_written {home : Pos3 α} (ls : List (PyLine α)) : ∀ {s : TransSt α} {w q : Printer α} {k : ℕ},
    Near (5 / 10 ^ 4) 0 ((k : α) * (5 / 10 ^ 6)) w q → w.inch = false → (∀ b, s.absMode = some b → q.rel = !b) →
    (∀ l ∈ ls, Textual home l) → (∀ l ∈ ls, ¬ HasCmd l c!"G92") → (∀ l ∈ ls, ¬ HasCmd l c!"G20") →
    Near (5 / 10 ^ 4) 0 (((k + ls.length : ℕ) : α) * (5 / 10 ^ 6)) (w.final home ((scan transLine s ls).2.map (·.raw)))
      (q.run home (scan transLine s ls).2) := by
  induction ls with
  | nil => intro s w q k h _ _ _ _ _; simpa [scan, Printer.final, Printer.run] using h
  | cons l ls ih =>
    intro s w q k h hw hs ht h92 h20
    have ht0 := ht l (by simp)
    have h920 := h92 l (by simp)
    have h200 := h20 l (by simp)
    have hq : q.inch = false := by rw [← h.inch]; exact hw
    have hcmd := transLine_command s l
    have key : Near (5 / 10 ^ 4) 0 (((k + 1 : ℕ) : α) * (5 / 10 ^ 6)) (w.line home (transLine s l).2.raw) (q.exec home (transLine s l).2) := by
      have hk : ((k + 1 : ℕ) : α) * (5 / 10 ^ 6) = k * (5 / 10 ^ 6) + 5 / 10 ^ 6 := by push_cast; ring
      have stay : Near (5 / 10 ^ 4) 0 (((k + 1 : ℕ) : α) * (5 / 10 ^ 6)) (w.line home l.raw) (q.exec home l) := by
        rw [← ht0 w hw, hk]
        exact (h.exec home l (by norm_num) (fun h' => absurd h' h920)).mono (le_refl _) (le_refl _) (by norm_num)
      by_cases hm : IsMove l
      · rw [transLine_move hm]
        by_cases ha : s.absMode = some true
        · simp only [if_pos ha]
          rcases translateMove_form s l with h1 | ⟨l2, h1, h2⟩
          · rw [h1]; exact stay
          · rw [h1, hk]
            have hm2 : IsMove l2 := (isMove_congr h2).2 hm
            have hr : q.rel = false := hs true ha
            exact h.written_move home hm2 hw (le_refl _) (fun h' => by rw [hr] at h'; simp at h') (fun _ => by simp)
        · simp only [if_neg ha]; exact stay
      · rw [transLine_stay hm h920]; exact stay
    have := ih (s := (transLine s l).1) key (by rw [key.inch]; exact exec_inch home q _ (by rw [hasCmd_congr hcmd]; exact h200) hq) ?_
      (fun l' hl => ht l' (by simp [hl])) (fun l' hl => h92 l' (by simp [hl])) (fun l' hl => h20 l' (by simp [hl]))
    · have hk : k + 1 + ls.length = k + (l :: ls).length := by simp; omega
      rw [hk] at this
      simpa [scan, Printer.final, Printer.run] using this
    · intro b hb
      rw [exec_rel]
      simp only [hasCmd_congr hcmd]
      by_cases hm : IsMove l
      · have h90 : ¬ HasCmd l c!"G90" := by
          obtain ⟨c, hc, hl⟩ := hm
          rw [HasCmd, hl, Option.some.injEq]; rintro rfl; simp at hc
        have h91 : ¬ HasCmd l c!"G91" := by
          obtain ⟨c, hc, hl⟩ := hm
          rw [HasCmd, hl, Option.some.injEq]; rintro rfl; simp at hc
        rw [if_neg h90, if_neg h91]
        rw [transLine_move hm] at hb
        exact hs b hb
      · rw [transLine_stay hm h920] at hb
        simp only at hb
        by_cases h90 : HasCmd l c!"G90"
        · rw [if_pos h90] at hb ⊢; cases hb; rfl
        · rw [if_neg h90] at hb ⊢
          by_cases h91 : HasCmd l c!"G91"
          · rw [if_pos h91] at hb ⊢; cases hb; rfl
          · rw [if_neg h91] at hb ⊢; exact hs b hb

/-- Number of absolute `E` moves: the lines the conversion to relative extrusion rewrites. -/
theorem rel_written {home : Pos3 α} (ls : List (PyLine α)) : ∀ {s : RelSt α} {w q : Printer α} {k : ℕ},
    Near ((k : α) * (5 / 10 ^ 4)) ((k : α) * (5 / 10 ^ 4)) ((k : α) * (5 / 10 ^ 6)) w q → w.inch = false →
    (∀ l ∈ ls, Textual home l) → (∀ l ∈ ls, ¬ HasCmd l c!"G20") →
    Near (((k + (ls.filter (fun l => IsMove l ∧ l.e ≠ none)).length : ℕ) : α) * (5 / 10 ^ 4))
      (((k + (ls.filter (fun l => IsMove l ∧ l.e ≠ none)).length : ℕ) : α) * (5 / 10 ^ 4))
      (((k + (ls.filter (fun l => IsMove l ∧ l.e ≠ none)).length : ℕ) : α) * (5 / 10 ^ 6))
      (w.final home ((scan relLine s ls).2.map (·.raw))) (q.run home (scan relLine s ls).2) := by
  induction ls with
  | nil => intro s w q k h _ _ _; simpa [scan, Printer.final, Printer.run] using h
  | cons l ls ih =>
    intro s w q k h hw ht h20
    have ht0 := ht l (by simp)
    have h200 := h20 l (by simp)
    have hq : q.inch = false := by rw [← h.inch]; exact hw
    have stay : Near ((k : α) * (5 / 10 ^ 4)) ((k : α) * (5 / 10 ^ 4)) ((k : α) * (5 / 10 ^ 6)) (w.line home l.raw) (q.exec home l) := by
      rw [← ht0 w hw]
      exact h.exec home l (le_refl _) (fun _ => rfl)
    have stay' : (w.line home l.raw).inch = false := by
      rw [stay.inch]; exact exec_inch home q l h200 hq
    by_cases hm : IsMove l ∧ l.e ≠ none
    · have hf : ((l :: ls).filter (fun l => IsMove l ∧ l.e ≠ none)).length = 1 + (ls.filter (fun l => IsMove l ∧ l.e ≠ none)).length := by
        rw [List.filter_cons_of_pos (by simpa using hm), List.length_cons]; omega
      rw [hf, ← Nat.add_assoc]
      obtain ⟨hm, he⟩ := hm
      have n1 : ¬ HasCmd l c!"M83" := by
        obtain ⟨c, hc, hl⟩ := hm
        rw [HasCmd, hl, Option.some.injEq]; rintro rfl; simp at hc
      have n2 : ¬ HasCmd l c!"M82" := by
        obtain ⟨c, hc, hl⟩ := hm
        rw [HasCmd, hl, Option.some.injEq]; rintro rfl; simp at hc
      have n3 : ¬ HasCmd l c!"G92" := by
        obtain ⟨c, hc, hl⟩ := hm
        rw [HasCmd, hl, Option.some.injEq]; rintro rfl; simp at hc
      have k4 : ((k + 1 : ℕ) : α) * (5 / 10 ^ 4) = k * (5 / 10 ^ 4) + 5 / 10 ^ 4 := by push_cast; ring
      have k6 : ((k + 1 : ℕ) : α) * (5 / 10 ^ 6) = k * (5 / 10 ^ 6) + 5 / 10 ^ 6 := by push_cast; ring
      have key : Near (((k + 1 : ℕ) : α) * (5 / 10 ^ 4)) (((k + 1 : ℕ) : α) * (5 / 10 ^ 4)) (((k + 1 : ℕ) : α) * (5 / 10 ^ 6)) (w.line home (relLine s l).2.raw)
          (q.exec home (relLine s l).2) ∧ (w.line home (relLine s l).2.raw).inch = false := by
        unfold relLine
        rw [if_neg n1, if_neg n2, if_neg n3]
        by_cases hr : s.relative = false
        · rw [if_pos ⟨hm, hr⟩]
          obtain ⟨e, hE⟩ := Option.ne_none_iff_exists'.1 he
          rw [hE]
          simp only
          have hm2 : IsMove ({ l with e := some (e - s.current), relativeE := some true } : PyLine α) := hm
          refine ⟨?_, ?_⟩
          · rw [k4, k6]
            refine Near.mono (h.written_move home hm2 hw (by norm_num) (fun _ => le_refl _) (fun _ => le_refl _)) (le_refl _) (by norm_num) (le_refl _)
          · rw [line_unsplit_move home hm2 w hw]; exact hw
        · rw [if_neg (fun h' => hr h'.2)]
          refine ⟨stay.mono ?_ ?_ ?_, stay'⟩ <;> first | (rw [k4]; norm_num) | (rw [k6]; norm_num)
      have := ih (s := (relLine s l).1) key.1 key.2 (fun l' hl => ht l' (by simp [hl])) (fun l' hl => h20 l' (by simp [hl]))
      simpa [scan, Printer.final, Printer.run] using this
    · have hf : (l :: ls).filter (fun l => IsMove l ∧ l.e ≠ none) = ls.filter (fun l => IsMove l ∧ l.e ≠ none) :=
        List.filter_cons_of_neg (by simpa using hm)
      rw [hf]
      have key : Near ((k : α) * (5 / 10 ^ 4)) ((k : α) * (5 / 10 ^ 4)) ((k : α) * (5 / 10 ^ 6)) (w.line home (relLine s l).2.raw)
          (q.exec home (relLine s l).2) ∧ (w.line home (relLine s l).2.raw).inch = false := by
        unfold relLine
        by_cases n1 : HasCmd l c!"M83"
        · rw [if_pos n1]; exact ⟨stay, stay'⟩
        · rw [if_neg n1]
          by_cases n2 : HasCmd l c!"M82"
          · rw [if_pos n2]
            have e1 : ∀ r : Printer α, r.exec home (rawToLine c!"M83") = { r with relE := true } := by
              intro r; unfold Printer.exec; rw [m83_line]; simp
            have e2 : w.line home (rawToLine c!"M83" : PyLine α).raw = { w with relE := true } := by
              have : instr (rawToLine c!"M83" : PyLine α).raw = some (c!"M83", [('m', c!"83")]) := by
                rw [show (rawToLine c!"M83" : PyLine α).raw = c!"M83" from rfl]; decide
              unfold Printer.line; rw [this]; simp [Printer.step]
            simp only
            rw [e1, e2]
            exact ⟨{ h with relE := rfl }, hw⟩
          · rw [if_neg n2]
            by_cases n3 : HasCmd l c!"G92"
            · rw [if_pos n3]
              cases l.e with
              | some e => exact ⟨stay, stay'⟩
              | none =>
                simp only
                split <;> exact ⟨stay, stay'⟩
            · rw [if_neg n3]
              split
              · cases hE : l.e with
                | some e => exact absurd ⟨by tauto, by rw [hE]; simp⟩ hm
                | none => exact ⟨stay, stay'⟩
              · exact ⟨stay, stay'⟩
      have := ih (s := (relLine s l).1) key.1 key.2 (fun l' hl => ht l' (by simp [hl])) (fun l' hl => h20 l' (by simp [hl]))
      simpa [scan, Printer.final, Printer.run] using this

end GCodeUtils
