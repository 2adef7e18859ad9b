import Verif.Spec.StretchTrack
import Verif.Lemmas.Written
import Verif.Lemmas.Duration
import Verif.Props.Stretch

/-
  Following a stretched program.
-/

set_option linter.unusedSectionVars false

namespace GCodeUtils

open Spec

variable {α : Type} [Field α] [LinearOrder α] [IsStrictOrderedRing α] [FloorRing α]

/-- The text of the line does what its values say, or is the written form of them. -/
def Faithful (home : Pos3 α) (l : PyLine α) : Prop := Textual home l ∨ (IsMove l ∧ l.raw = (unsplit l).raw)

theorem axis_abs_near {pos pos' org d t : α} {v v' : Option α} (hv : Within d v' v) (hp : |pos' - pos| ≤ t) (hd : d ≤ t) :
    |axis false pos' org v' - axis false pos org v| ≤ t := by
  rcases hv with ⟨rfl, rfl⟩ | ⟨a, b, rfl, rfl, hab⟩
  · exact hp
  · simp only [axis, Bool.false_eq_true, if_false]
    have : org + a - (org + b) = a - b := by ring
    rw [this]
    exact hab.trans hd

/-- Filament of a move in the class. -/
theorem push_rel (p : Printer α) {e : Option α} (h : e ≠ none → p.relE = true) : p.push e = e.getD 0 := by
  cases e with
  | none => rfl
  | some v => simp [Printer.push, axis, h (by simp)]

/-- Two moves with values close to each other. -/
theorem Spec.Beside.moveTo {t : α} {a b : Printer α} (h : Beside t a b) {x y z e f x' y' z' e' f' : Option α}
    (hx : Within (t + 5 / 10 ^ 4) x' x) (hy : Within (t + 5 / 10 ^ 4) y' y) (hz : Within (5 / 10 ^ 4) z' z) :
    Beside t (a.moveTo x y z e f) (b.moveTo x' y' z' e' f') := by
  refine ⟨h.inch, h.rel, h.relE, h.tool, h.org, ?_, ?_, ?_⟩
  · simp only [Printer.moveTo, h.rel.1, h.rel.2, h.org.1]; exact axis_abs_near hx h.x (le_refl _)
  · simp only [Printer.moveTo, h.rel.1, h.rel.2, h.org.1]; exact axis_abs_near hy h.y (le_refl _)
  · simp only [Printer.moveTo, h.rel.1, h.rel.2, h.org.1]; exact axis_abs_near hz h.z (le_refl _)

theorem Spec.Within.wider {d d' : α} {a b : Option α} (h : Within d a b) (hd : d ≤ d') : Within d' a b := by
  rcases h with h | ⟨x, y, h1, h2, h3⟩
  · exact .inl h
  · exact .inr ⟨x, y, h1, h2, h3.trans hd⟩

/-- The same line on both sides. -/
theorem Spec.Beside.exec {t : α} (ht : 0 ≤ t) {a b : Printer α} (h : Beside t a b) (home : Pos3 α) {l : PyLine α} (hl : Straight l)
    (he : IsMove l → l.e ≠ none → a.relE = true) :
    Beside t (a.exec home l) (b.exec home l) ∧ (b.exec home l).pushed - b.pushed = (a.exec home l).pushed - a.pushed := by
  obtain ⟨n20, n91, n92⟩ := hl
  have h0 : (0 : α) ≤ t + 5 / 10 ^ 4 := by positivity
  by_cases hm : IsMove l
  · rw [exec_moves hm, exec_moves hm]
    refine ⟨h.moveTo (within_self h0 _) (within_self h0 _) (within_self (by norm_num) _), ?_⟩
    simp only [Printer.moveTo]
    rw [push_rel a (he hm), push_rel b (fun k => by rw [h.relE]; exact he hm k)]
    ring
  unfold Printer.exec
  cases hc : l.command with
  | none => exact ⟨h, by simp⟩
  | some cmd =>
    have hm' : cmd ∉ [c!"G0", c!"G1", c!"G2", c!"G3"] := fun h => hm ⟨cmd, h, hc⟩
    simp only
    have c1 : ¬ cmd = c!"G20" := fun h => n20 (by rw [HasCmd, hc, h])
    have c9 : ¬ cmd = c!"G91" := fun h => n91 (by rw [HasCmd, hc, h])
    rw [if_neg hm', if_neg hm', if_neg c1, if_neg c1]
    by_cases c2 : cmd = c!"G21"
    · rw [if_pos c2, if_pos c2]; exact ⟨⟨⟨rfl, rfl⟩, h.rel, h.relE, h.tool, h.org, h.x, h.y, h.z⟩, by simp⟩
    rw [if_neg c2, if_neg c2]
    by_cases c3 : cmd = c!"G28"
    · rw [if_pos c3, if_pos c3]
      have aux : ∀ (b : Bool) (a p p' t : α), 0 ≤ t → |p' - p| ≤ t → |(if b then a else p') - (if b then a else p)| ≤ t := by
        intro b a p p' t ht h
        cases b <;> simp [ht, h]
      refine ⟨⟨h.inch, h.rel, h.relE, h.tool, ?_, aux _ _ _ _ _ h0 h.x, aux _ _ _ _ _ h0 h.y, aux _ _ _ _ _ (by norm_num) h.z⟩, by simp [Printer.homeAxes]⟩
      refine ⟨by simp only [Printer.homeAxes, h.org.1], ?_, ?_⟩
      · simp only [Printer.homeAxes]; split
        · rfl
        · exact h.org.2.1
      · simp only [Printer.homeAxes]; split
        · rfl
        · exact h.org.2.2
    rw [if_neg c3, if_neg c3]
    by_cases c4 : cmd = c!"G90"
    · rw [if_pos c4, if_pos c4]; exact ⟨⟨h.inch, ⟨rfl, rfl⟩, rfl, h.tool, h.org, h.x, h.y, h.z⟩, by simp⟩
    rw [if_neg c4, if_neg c4, if_neg c9, if_neg c9]
    by_cases c5 : cmd = c!"G92"
    · rw [if_pos c5, if_pos c5]
      obtain ⟨e1, e2, e3⟩ := n92 (by rw [HasCmd, hc, c5])
      rw [e1, e2, e3]
      exact ⟨⟨h.inch, h.rel, h.relE, h.tool, h.org, h.x, h.y, h.z⟩, by simp [Printer.relabelTo]⟩
    rw [if_neg c5, if_neg c5]
    by_cases c6 : cmd = c!"M82"
    · rw [if_pos c6, if_pos c6]; exact ⟨⟨h.inch, h.rel, rfl, h.tool, h.org, h.x, h.y, h.z⟩, by simp⟩
    rw [if_neg c6, if_neg c6]
    by_cases c7 : cmd = c!"M83"
    · rw [if_pos c7, if_pos c7]; exact ⟨⟨h.inch, h.rel, rfl, h.tool, h.org, h.x, h.y, h.z⟩, by simp⟩
    rw [if_neg c7, if_neg c7]
    split
    · exact ⟨⟨h.inch, h.rel, h.relE, by simp only [h.tool], h.org, h.x, h.y, h.z⟩, by simp⟩
    · exact ⟨h, by simp⟩

theorem abs_le_of_sq {d m : α} (hm : 0 ≤ m) (h : d ^ 2 ≤ m ^ 2) : |d| ≤ m := by
  have := abs_le_abs_of_sq_le_sq' h
  rwa [abs_of_nonneg hm] at this
where abs_le_abs_of_sq_le_sq' {a b : α} (h : a ^ 2 ≤ b ^ 2) : |a| ≤ |b| := sq_le_sq.1 h

/-- One line of the stretched program. -/
theorem beside_step {ε t : α} (hε : 0 ≤ ε) {most : LoopKind → α} (ht : 0 ≤ t) (hmost : ∀ k, (1 + ε) * most k ≤ t) {home : Pos3 α} {a b : Printer α}
    (h : Beside t a b) {before : List (PyLine α)} {l0 l l' : PyLine α} (hmk : MarkedUp l0 l) (hl : Straight l0) (hf : Faithful home l0)
    (hn : ¬ Nested l0.raw ∧ '\n' ∉ l0.raw) (he : IsMove l0 → l0.e ≠ none → a.relE = true)
    (hxy : loopAt (before ++ [l]) ≠ none → XYMove l0 → l0.x ≠ none ∧ l0.y ≠ none)
    (hL : LineStretch ε most (before ++ [l]) l l') :
    Beside t (a.exec home l0) (b.line home l'.raw) ∧
    ∃ q, q ≤ 1 ∧ 1 - (1 + ε) * t ≤ q ∧
      |((b.line home l'.raw).pushed - b.pushed) - q * ((a.exec home l0).pushed - a.pushed)| ≤ 5 / 10 ^ 6 := by
  have ht' : 1 - (1 + ε) * t ≤ 1 := by
    have : 0 ≤ (1 + ε) * t := by positivity
    linarith
  obtain ⟨s, hs, rfl⟩ := hmk
  have keep : l'.raw = l0.raw ++ s → Beside t (a.exec home l0) (b.line home l'.raw) ∧
      ∃ q, q ≤ 1 ∧ 1 - (1 + ε) * t ≤ q ∧ |((b.line home l'.raw).pushed - b.pushed) - q * ((a.exec home l0).pushed - a.pushed)| ≤ 5 / 10 ^ 6 := by
    intro hr
    rw [hr, C66_printer_partial hs hn.1 hn.2]
    rcases hf with hf | ⟨hm, hf⟩
    · rw [← hf b h.inch.2]
      obtain ⟨k1, k2⟩ := h.exec ht home hl he
      exact ⟨k1, 1, le_refl _, ht', by rw [k2]; norm_num⟩
    · rw [hf, line_unsplit_move home hm b h.inch.2, exec_moves hm]
      have w3 : ∀ v : Option α, Within (t + 5 / 10 ^ 4) ((v.map (fun a => 1 * fixedVal 3 a)).or none) v := fun v => (within_fixed3 v).wider (by linarith)
      refine ⟨h.moveTo (w3 _) (w3 _) (within_fixed3 _), 1, le_refl _, ht', ?_⟩
      simp only [Printer.moveTo]
      rw [push_rel a (he hm), push_rel b]
      · have := within_fixed5 l0.e
        cases hE : l0.e with
        | none => norm_num
        | some v =>
          rw [hE] at this
          rcases this with ⟨h1, _⟩ | ⟨u, w, h1, h2, h3⟩
          · simp at h1
          · rw [h1]
            obtain rfl := Option.some.inj h2
            simp only [Option.getD_some]
            have : b.pushed + u - b.pushed - 1 * (a.pushed + v - a.pushed) = u - v := by ring
            rw [this]; exact h3
      · intro k
        rw [h.relE]
        refine he hm ?_
        intro hE
        rw [hE] at k
        exact k rfl
  unfold LineStretch at hL
  cases hk : loopAt (before ++ [{ l0 with raw := l0.raw ++ s }]) with
  | none => rw [hk] at hL; exact keep hL
  | some k =>
    rw [hk] at hL
    simp only at hL
    by_cases hc : XYMove ({ l0 with raw := l0.raw ++ s } : PyLine α) ∧ 0 < most k
    · rw [if_pos hc] at hL
      obtain ⟨dx, dy, n, n0, _, _, hd, hn1, m, hr, mc, mx, my, mz, me, _, _, _, _, _⟩ := hL
      have hc0 : XYMove l0 := hc.1
      obtain ⟨vx, vy⟩ := hxy (by rw [hk]; simp) hc0
      obtain ⟨x, hx⟩ := Option.ne_none_iff_exists'.1 vx
      obtain ⟨y, hy⟩ := Option.ne_none_iff_exists'.1 vy
      obtain ⟨e1, e2, _⟩ := loop_aims hk hc.1
      have a1 : aimX before ({ l0 with raw := l0.raw ++ s } : PyLine α) = x := by simp [aimX, hx]
      have a2 : aimY before ({ l0 with raw := l0.raw ++ s } : PyLine α) = y := by simp [aimY, hy]
      rw [e1, a1] at mx
      rw [e2, a2] at my
      have hm0 : IsMove l0 := by
        rcases hc0.1 with h | h
        · exact ⟨_, by decide, h⟩
        · exact ⟨_, by decide, h⟩
      have hmm : IsMove m := (isMove_congr (show m.command = l0.command from mc)).2 hm0
      have hmk : 0 ≤ (1 + ε) * most k := mul_nonneg (by linarith) hc.2.le
      have bx : |dx| ≤ t := (abs_le_of_sq hmk (by nlinarith [sq_nonneg dy])).trans (hmost k)
      have bY : |dy| ≤ t := (abs_le_of_sq hmk (by nlinarith [sq_nonneg dx])).trans (hmost k)
      have off : ∀ {c d : α} {v : Option α}, v = some (c + d) → |d| ≤ t → Within (t + 5 / 10 ^ 4) ((v.map (fun a => 1 * fixedVal 3 a)).or none) (some c) := by
        intro c d v hv hd
        have := within_fixed3 v
        rw [hv] at this ⊢
        rcases this with ⟨h1, _⟩ | ⟨u, w, h1, h2, h3⟩
        · simp at h1
        · refine .inr ⟨u, c, h1, rfl, ?_⟩
          obtain rfl := Option.some.inj h2
          have : u - c = (u - (c + d)) + d := by ring
          rw [this]
          exact (abs_add_le _ _).trans (by linarith)
      rw [hr, line_unsplit_move home hmm b h.inch.2, exec_moves hm0]
      refine ⟨h.moveTo (by rw [hx]; exact off mx bx) (by rw [hy]; exact off my bY) ?_, 1 - n, by linarith, ?_, ?_⟩
      · have := within_fixed3 m.z
        rw [mz] at this ⊢
        exact this
      · have : (1 + ε) ^ 2 * most k ≤ (1 + ε) * t := by
          have := mul_le_mul_of_nonneg_left (hmost k) (by linarith : 0 ≤ 1 + ε)
          calc _ = (1 + ε) * ((1 + ε) * most k) := by ring
            _ ≤ _ := this
        linarith
      · simp only [Printer.moveTo]
        rw [push_rel a (he hm0), push_rel b]
        · have hw := within_fixed5 m.e
          rw [me] at hw ⊢
          show |_ - (1 - n) * (a.pushed + (l0.e).getD 0 - a.pushed)| ≤ _
          have me' : ({ l0 with raw := l0.raw ++ s } : PyLine α).e = l0.e := rfl
          rw [me'] at hw ⊢
          cases hE : l0.e with
          | none => norm_num
          | some v =>
            rw [hE] at hw
            rcases hw with ⟨h1, _⟩ | ⟨u, w, h1, h2, h3⟩
            · simp at h1
            · rw [h1]
              obtain rfl := Option.some.inj h2
              simp only [Option.getD_some]
              have : b.pushed + u - b.pushed - (1 - n) * (a.pushed + v - a.pushed) = u - v * (1 - n) := by ring
              rw [this]; exact h3
        · intro k
          rw [h.relE]
          refine he hm0 ?_
          intro hE
          apply k
          rw [me]
          show ((Option.map _ (Option.map _ l0.e)).or none) = none
          rw [hE]
          rfl
    · rw [if_neg hc] at hL; exact keep hL

/-- A list of lines, one at a time. -/
theorem take_succ_get {β : Type} {A : List β} {k : ℕ} {a : β} (h : A[k]? = some a) : A.take (k + 1) = A.take k ++ [a] := by
  rw [List.take_add_one, h]; rfl

theorem shape_length {A B : List (Layer α)}
    (h : List.Forall₂ (fun L L' => L' = { L with lines := L'.lines } ∧ L'.lines.length = L.lines.length) A B) :
    (linesOf B).length = (linesOf A).length := by
  unfold linesOf
  induction h with
  | nil => rfl
  | cons h1 _ ih => rw [List.flatMap_cons, List.flatMap_cons, List.length_append, List.length_append, ih, h1.2]

/-- Following the whole program. -/
theorem stretch_track {ε : α} {sqrt : α → α} (hs : IsSqrt ε sqrt) {fuel : ℕ} {slicer : Slicer} {repo : StretchRepo α}
    {profile : ProfileOracle α} {g g' : GCode α} {d : Option (StretchDist α)} {ann : List (Layer α)}
    (ha : setupFilter slicer repo profile g.allLayers = .ok (d, ann)) (h : g.stretch sqrt fuel slicer repo profile = .ok g')
    {home : Pos3 α} {p : Printer α} (hp : ∀ t, 0 ≤ t → Beside t p p)
    (hl : ∀ l ∈ linesOf g.allLayers, Straight l ∧ Faithful home l ∧ ¬ Nested l.raw ∧ '\n' ∉ l.raw)
    (he : ∀ k l, (linesOf g.allLayers)[k]? = some l → IsMove l → l.e ≠ none → (p.run home ((linesOf g.allLayers).take k)).relE = true)
    (hxy : ∀ k l0 l, (linesOf g.allLayers)[k]? = some l0 → (linesOf ann)[k]? = some l → loopAt ((linesOf ann).take k ++ [l]) ≠ none →
      XYMove l0 → l0.x ≠ none ∧ l0.y ≠ none) :
    (linesOf g'.allLayers).length = (linesOf g.allLayers).length ∧ ∃ w, WidthUsed slicer profile (linesOf g.allLayers) (linesOf ann) w ∧
    ∀ t, 0 ≤ t → (∀ k, (1 + ε) * reach repo w k ≤ t) → ∀ k,
      Beside t (p.run home ((linesOf g.allLayers).take k)) (p.final home (((linesOf g'.allLayers).take k).map (·.raw))) ∧
      (k < (linesOf g.allLayers).length → ∃ q, q ≤ 1 ∧ 1 - (1 + ε) * t ≤ q ∧
        |((p.final home (((linesOf g'.allLayers).take (k + 1)).map (·.raw))).pushed - (p.final home (((linesOf g'.allLayers).take k).map (·.raw))).pushed) -
          q * ((p.run home ((linesOf g.allLayers).take (k + 1))).pushed - (p.run home ((linesOf g.allLayers).take k)).pushed)| ≤ 5 / 10 ^ 6) := by
  obtain ⟨w, hw1, hL, hsh, -⟩ := stretch_lines hs ha h
  have hm := flat_marked (setupFilter_marked ha)
  have len1 : (linesOf ann).length = (linesOf g.allLayers).length := hm.length_eq.symm
  have len2 : (linesOf g'.allLayers).length = (linesOf ann).length := by
    exact shape_length hsh
  refine ⟨len2.trans len1, w, hw1, ?_⟩
  intro t ht hw
  have step : ∀ k, k < (linesOf g.allLayers).length →
      Beside t (p.run home ((linesOf g.allLayers).take k)) (p.final home (((linesOf g'.allLayers).take k).map (·.raw))) →
      Beside t (p.run home ((linesOf g.allLayers).take (k + 1))) (p.final home (((linesOf g'.allLayers).take (k + 1)).map (·.raw))) ∧
      ∃ q, q ≤ 1 ∧ 1 - (1 + ε) * t ≤ q ∧
        |((p.final home (((linesOf g'.allLayers).take (k + 1)).map (·.raw))).pushed - (p.final home (((linesOf g'.allLayers).take k).map (·.raw))).pushed) -
          q * ((p.run home ((linesOf g.allLayers).take (k + 1))).pushed - (p.run home ((linesOf g.allLayers).take k)).pushed)| ≤ 5 / 10 ^ 6 := by
    intro k hk hB
    obtain ⟨l0, e0⟩ : ∃ l, (linesOf g.allLayers)[k]? = some l := ⟨_, List.getElem?_eq_getElem hk⟩
    obtain ⟨l, e1⟩ : ∃ l, (linesOf ann)[k]? = some l := ⟨_, List.getElem?_eq_getElem (by omega)⟩
    obtain ⟨l', e2⟩ : ∃ l, (linesOf g'.allLayers)[k]? = some l := ⟨_, List.getElem?_eq_getElem (by omega)⟩
    obtain ⟨c1, c2, c3⟩ := hl l0 (List.mem_of_getElem? e0)
    have := beside_step hs.1 ht hw hB (marked_at hm e0 e1) c1 c2 c3 (he k l0 e0) (hxy k l0 l e0 e1) (hL k l l' e1 e2)
    rw [take_succ_get e0, take_succ_get e2, run_snoc, List.map_append, final_append]
    exact this
  have all : ∀ k, Beside t (p.run home ((linesOf g.allLayers).take k)) (p.final home (((linesOf g'.allLayers).take k).map (·.raw))) := by
    intro k
    induction k with
    | zero => simpa [Printer.run, Printer.final] using hp t ht
    | succ k ih =>
      by_cases hk : k < (linesOf g.allLayers).length
      · exact (step k hk ih).1
      · rw [List.take_of_length_le (by omega), List.take_of_length_le (by omega)] at ih ⊢
        exact ih
  exact fun k => ⟨all k, fun hk => (step k hk (all k)).2⟩

/-! ### after conversion to relative extrusion -/

theorem fmtArg_noNewline (c : Char) (hc : c ≠ '\n') (d : ℕ) (v : Option α) : '\n' ∉ fmtArg c d v := by
  cases v with
  | none => simp [fmtArg]
  | some a =>
    simp only [fmtArg, List.mem_cons, not_or]
    exact ⟨by decide, fun h => hc h.symm, fun h => absurd (fmtFixed_chars d a _ h) (by decide)⟩

theorem unsplit_clean {l : PyLine α} (hm : IsMove l) : ¬ Nested (unsplit l).raw ∧ '\n' ∉ (unsplit l).raw := by
  obtain ⟨cmd, h1, h2⟩ := hm
  have hG : cmd.head? = some 'G' ∧ '\n' ∉ cmd := by
    revert h1; clear h2; revert cmd; decide
  constructor
  · intro h
    have := h.1
    obtain ⟨t, ht⟩ : ∃ t, cmd = 'G' :: t := by
      cases cmd with
      | nil => simp at hG
      | cons c t => simp at hG; exact ⟨t, by rw [hG.1]⟩
    simp [unsplit, h2, ht] at this
  · simp only [unsplit, h2, Option.getD_some, List.mem_append, not_or]
    exact ⟨⟨⟨⟨⟨⟨⟨hG.2, fmtArg_noNewline _ (by decide) _ _⟩, fmtArg_noNewline _ (by decide) _ _⟩, fmtArg_noNewline _ (by decide) _ _⟩,
      fmtArg_noNewline _ (by decide) _ _⟩, fmtArg_noNewline _ (by decide) _ _⟩, fmtArg_noNewline _ (by decide) _ _⟩, fmtArg_noNewline _ (by decide) _ _⟩

/-- What following a line needs. -/
def Fit (home : Pos3 α) (l : PyLine α) : Prop :=
  (Straight l ∧ Faithful home l ∧ ¬ Nested l.raw ∧ '\n' ∉ l.raw) ∧ (XYMove l → l.x ≠ none ∧ l.y ≠ none)

theorem fit_m83 (home : Pos3 α) : Fit home (rawToLine c!"M83" : PyLine α) := by
  have hr : (rawToLine c!"M83" : PyLine α).raw = c!"M83" := rfl
  have hn : ∀ c : Str, c ≠ c!"M83" → ¬ HasCmd (rawToLine c!"M83" : PyLine α) c := by
    intro c hc h
    rw [HasCmd, m83_line, Option.some.injEq] at h
    exact hc h.symm
  refine ⟨⟨⟨hn _ (by decide), hn _ (by decide), fun h => absurd h (hn _ (by decide))⟩, .inl ?_, ?_, by rw [hr]; decide⟩, ?_⟩
  · intro w _
    have e2 : instr (rawToLine c!"M83" : PyLine α).raw = some (c!"M83", [('m', c!"83")]) := by rw [hr]; decide
    unfold Printer.line Printer.exec
    rw [e2, m83_line]
    simp [Printer.step]
  · rw [hr]; intro h; have := h.1; simp at this
  · intro h
    rcases h.1 with h | h
    · exact absurd h (hn _ (by decide))
    · exact absurd h (hn _ (by decide))

theorem fit_relLine {home : Pos3 α} {l : PyLine α} (h : Fit home l) (s : RelSt α) : Fit home (relLine s l).2 := by
  unfold relLine
  by_cases c1 : HasCmd l c!"M83"
  · rw [if_pos c1]; exact h
  rw [if_neg c1]
  by_cases c2 : HasCmd l c!"M82"
  · rw [if_pos c2]; exact fit_m83 home
  rw [if_neg c2]
  by_cases c3 : HasCmd l c!"G92"
  · rw [if_pos c3]
    cases l.e with
    | some e => exact h
    | none => simp only; split_ifs <;> exact h
  rw [if_neg c3]
  by_cases c4 : IsMove l ∧ s.relative = false
  · rw [if_pos c4]
    cases he : l.e with
    | none => exact h
    | some e =>
      simp only
      have hm : IsMove ({ l with e := some (e - s.current), relativeE := some true } : PyLine α) := c4.1
      exact ⟨⟨h.1.1, .inr ⟨hm, rfl⟩, unsplit_clean hm⟩, h.2⟩
  · rw [if_neg c4]; exact h

theorem fit_scan {home : Pos3 α} {ls : List (PyLine α)} (h : ∀ l ∈ ls, Fit home l) : ∀ s, ∀ l ∈ (scan relLine s ls).2, Fit home l := by
  induction ls with
  | nil => intro s l hl; simp [scan] at hl
  | cons a ls ih =>
    intro s l hl
    simp only [scan, List.mem_cons] at hl
    rcases hl with rfl | hl
    · exact fit_relLine (h a (by simp)) s
    · exact ih (fun l hl => h l (by simp [hl])) _ l hl

/-- A move with E word of the converted program is one of the original. -/
theorem relLine_emove {s : RelSt α} {l : PyLine α} (hm : IsMove (relLine s l).2) (he : (relLine s l).2.e ≠ none) : IsMove l ∧ l.e ≠ none := by
  unfold relLine at hm he
  by_cases c1 : HasCmd l c!"M83"
  · rw [if_pos c1] at hm he; exact ⟨hm, he⟩
  rw [if_neg c1] at hm he
  by_cases c2 : HasCmd l c!"M82"
  · rw [if_pos c2] at hm
    obtain ⟨c, hc, hl⟩ := hm
    simp only at hl
    rw [m83_line, Option.some.injEq] at hl
    rw [← hl] at hc
    simp at hc
  rw [if_neg c2] at hm he
  by_cases c3 : HasCmd l c!"G92"
  · rw [if_pos c3] at hm he
    cases hE : l.e with
    | some e => rw [hE] at hm; exact ⟨hm, by simp⟩
    | none =>
      rw [hE] at he
      simp only at he
      split_ifs at he <;> exact absurd hE he
  rw [if_neg c3] at hm he
  by_cases c4 : IsMove l ∧ s.relative = false
  · rw [if_pos c4] at he
    refine ⟨c4.1, fun hE => ?_⟩
    rw [hE] at he
    exact he hE
  · rw [if_neg c4] at hm he; exact ⟨hm, he⟩

theorem scan_get {ls : List (PyLine α)} : ∀ {s : RelSt α} {k : ℕ} {l' : PyLine α}, (scan relLine s ls).2[k]? = some l' →
    ∃ l, ls[k]? = some l ∧ l' = (relLine (scan relLine s (ls.take k)).1 l).2 := by
  induction ls with
  | nil => intro s k l' h; simp [scan] at h
  | cons a ls ih =>
    intro s k l' h
    cases k with
    | zero => simp only [scan, List.getElem?_cons_zero, Option.some.injEq] at h; exact ⟨a, rfl, by simp [scan, h]⟩
    | succ k =>
      simp only [scan, List.getElem?_cons_succ] at h
      obtain ⟨l, h1, h2⟩ := ih h
      exact ⟨l, by simpa using h1, by simpa [scan] using h2⟩

end GCodeUtils
