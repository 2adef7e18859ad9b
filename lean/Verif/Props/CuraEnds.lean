import Verif.Lemmas.SavedStretch
import Verif.Props.CuraWalk

/-
  C64: the Cura filter ends on loaded programs whose loops begin and end with X/Y moves.
-/

set_option linter.unusedSectionVars false

namespace GCodeUtils

open Spec

variable {α : Type} [Field α] [LinearOrder α] [IsStrictOrderedRing α] [FloorRing α]

theorem parseTok_xy {u : α} {l l' : PyLine α} {t : Tok} (h : parseTok u l t = .ok l') (hx : l.x ≠ none ∨ l.y ≠ none) : l'.x ≠ none ∨ l'.y ≠ none := by
  unfold parseTok at h
  cases t with
  | none => cases h; exact hx
  | some p =>
    obtain ⟨c, v⟩ := p
    simp only at h
    split_ifs at h with hc
    · cases hp : (parseFloat v : Option α) with
      | none => rw [hp] at h; simp at h
      | some a =>
        rw [hp] at h
        simp only [Except.ok.injEq] at h
        rw [← h]
        unfold PyLine.setArg
        split_ifs <;> first | exact hx | exact .inl (Option.some_ne_none _) | exact .inr (Option.some_ne_none _)
    · cases h; exact hx

theorem parseToks_xy {u : α} : ∀ (toks : List Tok) {l l' : PyLine α}, toks.foldlM (parseTok u) l = .ok l' → (l.x ≠ none ∨ l.y ≠ none) → l'.x ≠ none ∨ l'.y ≠ none := by
  intro toks
  induction toks with
  | nil => intro l l' h hx; simp only [List.foldlM_nil, pure, Except.pure, Except.ok.injEq] at h; rw [← h]; exact hx
  | cons t ts ih =>
    intro l l' h hx
    rw [List.foldlM_cons] at h
    cases e : parseTok u l t with
    | error er => rw [e] at h; cases h
    | ok l1 => rw [e] at h; exact ih h (parseTok_xy e hx)

theorem parseCoordinates_xy {l l' : PyLine α} {toks : List Tok} {imp : Bool} (h : parseCoordinates l toks imp = .ok l') (hx : XYMove l) : XYMove l' := by
  have hc : l'.command = l.command := by
    obtain ⟨x, y, z, e, f, i, j, rfl⟩ := parseCoordinates_argsOnly h
    rfl
  refine ⟨by rw [hc]; exact hx.1, ?_⟩
  unfold parseCoordinates at h
  cases hcm : l.command with
  | none => rcases hx.1 with k | k <;> rw [hcm] at k <;> cases k
  | some c =>
    rw [hcm] at h
    simp only at h
    by_cases hG : c.head? ≠ some 'G'
    · rw [if_pos hG] at h; cases h; exact hx.2
    · rw [if_neg hG] at h; exact parseToks_xy _ h hx.2

/-- An X/Y move that was loaded and marked is an X/Y move when it is read again. -/
theorem marked_again {l l1 l' : PyLine α} (h : Saves l) (hN : ¬ Nested l.raw) (hm : MarkedUp l l1) (hx : XYMove l) (hr : reparse l1 = .ok l') : XYMove l' := by
  obtain ⟨m0, k0, p0, q0⟩ := h.reads Home.init Machine.init rfl
  have hfresh : (split ({ raw := l.raw } : PyLine α)).1.command = l.command := by
    rw [← (processLine_keeps p0).2.1, eq_command q0]
  obtain ⟨s, hs, rfl⟩ := hm
  have hj : ∃ j, findall (lower (l.raw ++ s)) = findall (lower l.raw) ++ List.replicate j none := by
    rcases marks_trailing hs with rfl | ht
    · exact ⟨0, by simp⟩
    · exact findall_trailing ht hN h.text.2.2
  obtain ⟨j, hj⟩ := hj
  have hw : ∃ c v rest, dropN (findall (lower l.raw)) = some (c, v) :: rest ∧ l.command = some (c.toUpper :: v) := by
    unfold split at hfresh
    simp only at hfresh
    cases hd : dropN (findall (lower l.raw)) with
    | nil =>
      rw [hd] at hfresh
      simp only at hfresh
      exfalso
      rcases hx.1 with k | k <;> rw [k] at hfresh <;> rw [Option.some.inj hfresh] at hd <;> exact absurd hd (by decide)
    | cons t rest =>
      rw [hd] at hfresh
      cases t with
      | none => simp only at hfresh; rcases hx.1 with k | k <;> rw [k] at hfresh <;> cases hfresh
      | some w => exact ⟨w.1, w.2, rest, rfl, hfresh.symm⟩
  obtain ⟨c, v, rest, hd, hcmd⟩ := hw
  have hd' : dropN (findall (lower (l.raw ++ s))) = some (c, v) :: (rest ++ List.replicate j none) := by
    rw [hj]
    cases hf : findall (lower l.raw) with
    | nil => rw [hf] at hd; simp [dropN] at hd
    | cons t ts =>
      rw [hf] at hd
      cases t with
      | none => simp [dropN] at hd
      | some w =>
        obtain ⟨c', v'⟩ := w
        by_cases hc : c' = 'n'
        · subst hc
          simp only [dropN, if_true, List.cons_append] at hd ⊢
          rw [hd]; rfl
        · simp only [dropN, hc, if_false, List.cons_append] at hd ⊢
          cases hd
          rfl
  unfold reparse split at hr
  simp only [hd'] at hr
  exact parseCoordinates_xy hr ⟨by simp only; rw [← hcmd]; exact hx.1, hx.2⟩

theorem xy_marked {l l1 : PyLine α} (hm : MarkedUp l l1) : XYMove l1 ↔ XYMove l := by
  obtain ⟨s, _, rfl⟩ := hm
  rfl

theorem forall₂_source {β γ : Type} {R : β → γ → Prop} {as : List β} {bs : List γ} (h : List.Forall₂ R as bs) : ∀ b ∈ bs, ∃ a ∈ as, R a b := by
  induction h with
  | nil => intro b hb; cases hb
  | @cons a b as bs h1 _ ih =>
    intro x hx
    rcases List.mem_cons.1 hx with rfl | hx
    · exact ⟨a, by simp, h1⟩
    · obtain ⟨y, hy, r⟩ := ih x hx
      exact ⟨y, by simp [hy], r⟩

/-- C64, the Cura filter on loaded programs in millimetres without nested comments: if, with the marks, no loop is open at the end of a layer and the loops that
X/Y moves belong to begin and end with X/Y moves, then the filter ends. Missing: other loops, for which it is false (`C64_cura_refuted`). -/
theorem C64_cura_loaded_partial {env : Env α} {data : List Str} {home : Home α} {g : GCode α} (h : GCode.load env data false home = .ok g)
    (h20 : ∀ l ∈ g.lines, ¬ HasCmd l c!"G20") (hn : ∀ l ∈ g.lines, '\n' ∉ l.raw) (hN : ∀ l ∈ g.lines, ¬ Nested l.raw)
    {sqrt : α → α} {repo : StretchRepo α} {profile : ProfileOracle α} {d : Option (StretchDist α)} {Ls : List (Layer α)}
    (hs : setupFilter .cura repo profile g.allLayers = .ok (d, Ls)) (hc : ∀ L ∈ Ls, loopAt L.lines = none)
    (hw : ∀ L ∈ Ls, ∀ n l, L.lines[n]? = some l → XYMove l → loopAt (L.lines.take (n + 1)) ≠ none → ∃ a s, WholeLoop L.lines a s ∧ a ≤ n ∧ n < s)
    {fuel : ℕ} (hf : ∀ L ∈ Ls, 2 * L.lines.length + 3 ≤ fuel) : g.stretch sqrt fuel .cura repo profile ≠ .error .outOfFuel := by
  refine C64_cura_whole_partial hs (fun L hL => ⟨hc L hL, hw L hL, fun l1 hl1 hx l' hr => ?_⟩) hf
  obtain ⟨L0, hL0, hsame⟩ := forall₂_source (setupFilter_marked hs) L hL
  obtain ⟨l, hl, hm⟩ := forall₂_source hsame.2 l1 hl1
  have hmem : l ∈ g.lines := by
    rw [show g.lines = program g from (load_indexed h).flat, program_def]
    exact List.mem_flatMap.2 ⟨L0, hL0, hl⟩
  exact marked_again (saves_loaded h h20 hn l hmem) (hN l hmem) hm ((xy_marked hm).1 hx) hr

example : GCode.load qEnv squareC = .ok (loadQ squareC) ∧ (∀ l ∈ (loadQ squareC).lines, ¬ HasCmd l c!"G20") ∧ (∀ l ∈ (loadQ squareC).lines, '\n' ∉ l.raw) ∧
    (∀ L ∈ marksQ .cura 1 squareC, loopAt L.lines = none) := by unfold HasCmd; decide +kernel

example : ∀ l ∈ (loadQ squareC).lines, ¬ Nested l.raw := by
  have h : ∀ l ∈ (loadQ squareC).lines, l.raw.head? ≠ some '(' := by decide +kernel
  intro l hl hN
  exact h l hl hN.1

end GCodeUtils
