import Verif.Lemmas.Saved
import Verif.Spec.Saved
import Verif.Props.Filter
import Verif.Props.RelExt
import Verif.Props.Arc

/-
  The filters keep lines that can be read back.
-/

set_option linter.unusedSectionVars false

namespace GCodeUtils

open Spec

variable {α : Type} [Field α] [LinearOrder α] [IsStrictOrderedRing α] [FloorRing α]

theorem saves_of_text {l l' : PyLine α} (h : Saves l) (h1 : l'.raw = l.raw) (h2 : SameArgs l l') : Saves l' := by
  have hc : l'.command = l.command := h2.1.symm
  refine ⟨by rw [h1]; exact h.text, by unfold HasCmd; rw [hc]; exact h.metric, ?_, ?_⟩
  · intro home m hm
    obtain ⟨m', k, p1, p2⟩ := h.reads home m hm
    refine ⟨m', k, by rw [h1]; exact p1, ?_⟩
    obtain ⟨e1, e2, e3, e4, e5, e6, e7, e8⟩ := h2
    unfold PyLine.eq at p2 ⊢
    rw [← e1, ← e2, ← e3, ← e4, ← e5, ← e6, ← e7, ← e8]
    exact p2
  · intro h4
    obtain ⟨v, hv⟩ := h.dwell (hc.symm.trans h4)
    exact ⟨v, by rw [h1]; exact hv⟩

/-- A property of lines that rebuilt lines have, the lines the filters insert, and lines with the text and arguments of one that has it. -/
structure Stable (P : PyLine α → Prop) : Prop where
  rebuilt : ∀ l, Rebuilds l → P (unsplit l)
  comment : ∀ l t, Rebuilds l → Trailing t → (∀ c, t.getLast? = some c → isSpace c = false) → P { unsplit l with raw := (unsplit l).raw ++ t }
  m83 : P (rawToLine c!"M83")
  pause : P (insertedLine pauseCommand)
  text : ∀ l l', P l → l'.raw = l.raw → SameArgs l l' → P l'

theorem scan_inv {σ : Type} {P : PyLine α → Prop} {f : σ → PyLine α → σ × PyLine α} (hf : ∀ s l, P l → P (f s l).2) (ls : List (PyLine α)) :
    ∀ s, (∀ l ∈ ls, P l) → ∀ l ∈ (scan f s ls).2, P l := by
  induction ls with
  | nil => intro s _ l hl; cases hl
  | cons a ls ih =>
    intro s h l hl
    simp only [scan, List.mem_cons] at hl
    rcases hl with rfl | hl
    · exact hf s a (h a (by simp))
    · exact ih _ (fun l hl => h l (by simp [hl])) l hl

theorem rebuilds_of_command {l l' : PyLine α} (h : Rebuilds l) (hc : l'.command = l.command) : Rebuilds l' := by
  unfold Rebuilds IsMove HasCmd at *
  rw [hc]; exact h

theorem transLine_inv {P : PyLine α → Prop} (hP : Stable P) (s : TransSt α) (l : PyLine α) (h : P l) : P (transLine s l).2 := by
  unfold transLine
  by_cases h1 : IsMove l
  · rw [if_pos h1]
    simp only
    split_ifs
    · have hm : ∀ l : PyLine α, IsMove l → P l → ∀ y, P (match y with
          | some y => if s.ty ≠ 0 then unsplit { l with y := some (y + s.ty) } else l
          | none => l) := by
        intro l hl hs y
        cases y with
        | none => exact hs
        | some y =>
          simp only
          split_ifs
          · exact hP.rebuilt _ (rebuilds_of_command (.inl hl) rfl)
          · exact hs
      unfold translateMove
      simp only
      refine hm _ ?_ ?_ _
      · cases l.x with
        | none => exact h1
        | some x => simp only; split_ifs <;> exact h1
      · cases l.x with
        | none => exact h
        | some x =>
          simp only
          split_ifs
          · exact hP.rebuilt _ (rebuilds_of_command (.inl h1) rfl)
          · exact h
    · exact h
  · rw [if_neg h1]
    split_ifs with h2 h3 h4
    · exact h
    · exact h
    · have hr : Rebuilds l := .inr h4
      rcases l with ⟨raw, command, x, y, z, e, f, i, j, im, rel, relE, cx, cy, cz, ce, cf, ct, ex⟩
      unfold translateG92
      split_ifs
      · exact hP.rebuilt _ (rebuilds_of_command hr rfl)
      · cases x <;> cases y <;> exact hP.rebuilt _ (rebuilds_of_command hr rfl)
    · exact h

theorem saves_m83 : Saves (rawToLine c!"M83" : PyLine α) := by
  have hr : (rawToLine c!"M83" : PyLine α).raw = c!"M83" := rfl
  have hc : ∀ c : Str, c ≠ c!"M83" → ¬ HasCmd (rawToLine c!"M83" : PyLine α) c := by
    intro c hc h
    rw [HasCmd, m83_line, Option.some.injEq] at h
    exact hc h.symm
  refine ⟨by rw [hr]; decide, hc _ (by decide), ?_, fun h => absurd h (hc _ (by decide))⟩
  intro home m _
  exact ⟨_, _, by with_unfolding_all rfl, eq_of_sameArgs (by with_unfolding_all exact ⟨rfl, rfl, rfl, rfl, rfl, rfl, rfl, rfl⟩)⟩

theorem relLine_inv {P : PyLine α → Prop} (hP : Stable P) (s : RelSt α) (l : PyLine α) (h : P l) : P (relLine s l).2 := by
  unfold relLine
  by_cases h1 : HasCmd l c!"M83"
  · rw [if_pos h1]; exact h
  rw [if_neg h1]
  by_cases h2 : HasCmd l c!"M82"
  · rw [if_pos h2]; exact hP.m83
  rw [if_neg h2]
  by_cases h3 : HasCmd l c!"G92"
  · rw [if_pos h3]
    cases l.e with
    | some e => exact h
    | none => simp only; split_ifs <;> exact h
  rw [if_neg h3]
  by_cases h4 : IsMove l ∧ s.relative = false
  · rw [if_pos h4]
    cases l.e with
    | some e => exact hP.rebuilt _ (rebuilds_of_command (.inl h4.1) rfl)
    | none => exact h
  · rw [if_neg h4]; exact h

/-! ### pauses -/

theorem saves_pause : Saves (insertedLine pauseCommand : PyLine α) := by
  have hcm : (insertedLine pauseCommand : PyLine α).command = some c!"M226" := by with_unfolding_all rfl
  have hr : (insertedLine pauseCommand : PyLine α).raw = c!"M226" := by with_unfolding_all rfl
  have hc : ∀ c : Str, c ≠ c!"M226" → ¬ HasCmd (insertedLine pauseCommand : PyLine α) c := by
    intro c hc h
    rw [HasCmd, hcm, Option.some.injEq] at h
    exact hc h.symm
  refine ⟨by rw [hr]; decide, hc _ (by decide), ?_, fun h => absurd h (hc _ (by decide))⟩
  intro home m _
  exact ⟨_, _, by with_unfolding_all rfl, eq_of_sameArgs (by with_unfolding_all exact ⟨rfl, rfl, rfl, rfl, rfl, rfl, rfl, rfl⟩)⟩

theorem mem_program {g : GCode α} {l : PyLine α} : l ∈ program g ↔ ∃ L ∈ g.allLayers, l ∈ L.lines := by
  rw [program_def, List.mem_flatMap]

theorem pauseAt_inv {Q : GCode α → Prop} (step : ∀ (g g' : GCode α) s k, Q g → g.prependToLayer [pauseCommand] k = .ok (g', s) → Q g')
    {g g' : GCode α} {mode : RoundMode} {digits : ℕ} {pauses : List ℤ} (h : g.pauseAt mode digits pauses = .ok g') (hg : Q g) : Q g' := by
  have loop : ∀ (zs : List α) n i lineNo (g g' : GCode α) u, Q g →
      acceptFrom mode digits zs (pauseVisitor pauses) n i () lineNo g = .ok (u, g') → Q g' := by
    intro zs n
    induction n with
    | zero =>
      intro i lineNo g g' u hg h
      simp only [acceptFrom, Except.ok.injEq, Prod.mk.injEq] at h
      rw [← h.2]; exact hg
    | succ n ih =>
      intro i lineNo g g' u hg h
      rw [acceptFrom] at h
      cases hi : g.allLayers[i]? with
      | none =>
        rw [hi] at h
        simp only [Except.ok.injEq, Prod.mk.injEq] at h
        rw [← h.2]; exact hg
      | some L =>
        rw [hi] at h
        simp only at h
        split at h
        · simp at h
        · rename_i s2 g2 hd
          refine ih _ _ g2 g' u ?_ h
          simp only [pauseVisitor] at hd
          split_ifs at hd
          · cases hq : g.prependToLayer [pauseCommand] (layerIndex g i L) with
            | error e => rw [hq] at hd; simp at hd
            | ok q =>
              obtain ⟨g3, s3⟩ := q
              rw [hq] at hd
              simp only [Except.ok.injEq, Prod.mk.injEq] at hd
              rw [← hd.2]
              exact step g g3 s3 _ hg hq
          · simp only [Except.ok.injEq, Prod.mk.injEq] at hd
            rw [← hd.2]; exact hg
  unfold GCode.pauseAt at h
  cases hz : iteratorZs mode digits g with
  | error e => rw [hz] at h; simp at h
  | ok zs =>
    rw [hz] at h
    simp only at h
    cases ha : accept mode digits zs (pauseVisitor pauses) () g with
    | error e => rw [ha] at h; simp at h
    | ok q =>
      obtain ⟨u, g2⟩ := q
      rw [ha] at h
      simp only [Except.ok.injEq] at h
      rw [← h]
      exact loop zs _ _ _ g g2 u hg ha

/-- Whatever holds of the lines and of the pause command holds after pausing; no layer is lost. -/
theorem pauseAt_lines {P : PyLine α → Prop} (hP : P (insertedLine pauseCommand)) {g g' : GCode α} {mode : RoundMode} {digits : ℕ} {pauses : List ℤ}
    (h : g.pauseAt mode digits pauses = .ok g') (hg : (∀ l ∈ program g, P l) ∧ g.allLayers ≠ []) : (∀ l ∈ program g', P l) ∧ g'.allLayers ≠ [] := by
  have step : ∀ (g g' : GCode α) s k, ((∀ l ∈ program g, P l) ∧ g.allLayers ≠ []) → g.prependToLayer [pauseCommand] k = .ok (g', s) → (∀ l ∈ program g', P l) ∧ g'.allLayers ≠ [] := by
    intro g g' s k hg h
    have hcl : cleanCommands [pauseCommand] = [pauseCommand] := by decide
    unfold GCode.prependToLayer at h
    rw [hcl] at h
    simp only at h
    cases hk : g.allLayers[k]? with
    | none => rw [hk] at h; simp at h
    | some L =>
      rw [hk] at h
      simp only at h
      by_cases hi : k ∈ g.layerIdxs
      · rw [if_pos hi] at h
        cases he : g.lineIdxs[endIndex g.layerIdxs (g.layerIdxs.idxOf k) k - 1]? with
        | none => rw [he] at h; simp at h
        | some eL =>
          rw [he] at h
          simp only [List.zipIdx_cons, List.zipIdx_nil, List.foldl_cons, List.foldl_nil, Except.ok.injEq, Prod.mk.injEq] at h
          obtain ⟨rfl, _⟩ := h
          refine ⟨?_, by
            intro hc
            apply hg.2
            have := congrArg List.length hc
            simpa [prependOne] using this⟩
          intro l hl
          obtain ⟨M, hM, hlM⟩ := mem_program.1 hl
          simp only [prependOne] at hM
          rcases List.mem_or_eq_of_mem_set hM with hM | rfl
          · exact hg.1 l (mem_program.2 ⟨M, hM, hlM⟩)
          · simp only [List.mem_cons] at hlM
            rcases hlM with rfl | hlM
            · exact hP
            · exact hg.1 l (mem_program.2 ⟨L, List.mem_of_getElem? hk, hlM⟩)
      · rw [if_neg hi] at h; simp at h
  exact pauseAt_inv (Q := fun g => (∀ l ∈ program g, P l) ∧ g.allLayers ≠ []) step h hg

/-! ### arcs -/

theorem unsplit_command {l : PyLine α} (h : Rebuilds l) : ∃ w rest, dropN (findall (lower (unsplit l).raw)) = some w :: rest := by
  obtain ⟨n, hcmd, hn⟩ := rebuilds_number h
  have hf := findall_unsplit l 'G' n (by decide) hcmd (numLen_rebuilds hn).1
  exact ⟨('g', n), lineToks l, by rw [hf]; rfl⟩

theorem arcComment_trailing (n : ℕ) : Trailing (arcComment n) ∧ ∀ c, (arcComment n).getLast? = some c → isSpace c = false := by
  refine ⟨⟨⟨[], _, rfl, by simp⟩, ?_⟩, ?_⟩
  · intro c hc
    unfold arcComment at hc
    rcases List.mem_append.1 hc with hc | hc
    · rcases List.mem_append.1 hc with hc | hc
      · exact (by decide : ∀ c ∈ c!"; generated from ", c ≠ '(' ∧ c ≠ ')' ∧ c ≠ '\n') c hc
      · have := (natDigits_spec n).2.1 c hc
        refine ⟨?_, ?_, ?_⟩ <;> rintro rfl <;> exact absurd this (by decide)
    · exact (by decide : ∀ c ∈ c!" segments", c ≠ '(' ∧ c ≠ ')' ∧ c ≠ '\n') c hc
  · intro c hc
    unfold arcComment at hc
    rw [List.getLast?_append_of_ne_nil _ (by decide)] at hc
    have : c = 's' := by simpa using hc.symm
    subst this; decide

theorem relComment_trailing (v : α) : Trailing (c!"; generated as arc to path relation is " ++ fmtFixed 6 v) ∧
    ∀ c, (c!"; generated as arc to path relation is " ++ fmtFixed 6 v).getLast? = some c → isSpace c = false := by
  have hch := fmtFixed_chars 6 v
  refine ⟨⟨⟨[], _, rfl, by simp⟩, ?_⟩, ?_⟩
  · intro c hc
    rcases List.mem_append.1 hc with hc | hc
    · exact (by decide : ∀ c ∈ c!"; generated as arc to path relation is ", c ≠ '(' ∧ c ≠ ')' ∧ c ≠ '\n') c hc
    · exact (by decide : ∀ c ∈ c!"0123456789.+-", c ≠ '(' ∧ c ≠ ')' ∧ c ≠ '\n') c (hch c hc)
  · intro c hc
    rw [List.getLast?_append_of_ne_nil _ (fmtFixed_ne_nil 6 v)] at hc
    have := hch c (List.mem_of_getLast? hc)
    have hs : ∀ c ∈ c!"0123456789.+-", isSpace c = false := by decide
    exact hs c this

theorem saves_rebuilt_comment {l : PyLine α} (h : Rebuilds l) {t : Str} (ht : Trailing t) (hlast : ∀ c, t.getLast? = some c → isSpace c = false) :
    Saves ({ unsplit l with raw := (unsplit l).raw ++ t } : PyLine α) :=
  saves_comment (saves_unsplit h) (unsplit_text h).2.2.2 (unsplit_command h) ht hlast

theorem toGcode_inv {P : PyLine α → Prop} (hP : Stable P) {t : Trig α} {first : PyLine α} {w : List (PyLine α)} {last : PyLine α} {r : List (PyLine α)}
    (h : toGcode t (first :: w) last = .ok r) : ∃ gen, r = first :: (gen ++ [last]) ∧ ∀ l ∈ gen, P l := by
  unfold toGcode at h
  obtain ⟨lw, hlw⟩ : ∃ lw, (first :: w).getLast? = some lw := by
    cases hw : (first :: w).getLast? with
    | some x => exact ⟨x, rfl⟩
    | none => rw [List.getLast?_eq_none_iff] at hw; simp at hw
  rw [hlw] at h
  simp only [List.head?_cons] at h
  cases hp : points (first :: w) with
  | error e => rw [hp] at h; simp at h
  | ok pts0 =>
    rw [hp] at h
    simp only at h
    cases hc : getCircle t pts0 with
    | error e => rw [hc] at h; simp at h
    | ok p =>
      obtain ⟨b, oc⟩ := p
      rw [hc] at h
      simp only at h
      cases hd : getDistances t (first :: w) with
      | error e => rw [hd] at h; simp at h
      | ok d =>
        rw [hd] at h
        simp only at h
        cases oc with
        | none => simp at h
        | some c =>
          simp only at h
          have hcmd : ∀ x : PyLine α, x.command = some (if 0 < c.direction then c!"G3" else c!"G2") →
              P ({ unsplit x with raw := (unsplit x).raw ++ arcComment ((first :: w).length - 1) } : PyLine α) := by
            intro x hx
            refine hP.comment _ _ (.inl ?_) (arcComment_trailing _).1 (arcComment_trailing _).2
            refine ⟨_, ?_, hx⟩
            split_ifs <;> decide
          by_cases hrel : lw.relativeE.getD false = true
          · rw [if_pos hrel] at h
            cases hra : relArcE t c.radius d.segs (phaseDiffs t c pts0) with
            | error e => rw [hra] at h; simp at h
            | ok ev =>
              rw [hra] at h
              simp only [Except.ok.injEq] at h
              exact ⟨[_], h.symm, fun l hl => by rw [List.mem_singleton] at hl; subst hl; exact hcmd _ rfl⟩
          · rw [if_neg hrel] at h
            cases he : first.currentE with
            | none => rw [he] at h; simp at h
            | some e0 =>
              rw [he] at h
              unfold divE at h
              by_cases h0 : d.totalFilament = 0
              · rw [if_pos h0] at h; simp at h
              · rw [if_neg h0] at h
                simp only at h
                by_cases hcor : correctionLimit < (phaseDiffs t c pts0 |>.map (fun a => a * c.radius)).sum * d.avgRatio / d.totalFilament - 1
                · rw [if_pos hcor] at h
                  simp only [Except.ok.injEq] at h
                  refine ⟨[_, _], h.symm, fun l hl => ?_⟩
                  simp only [List.mem_cons, List.not_mem_nil, or_false] at hl
                  rcases hl with rfl | rfl
                  · exact hcmd _ rfl
                  · have := hP.comment ({ command := some c!"G92", e := lw.currentE, currentE := lw.currentE } : PyLine α) _ (.inr rfl)
                      (relComment_trailing ((phaseDiffs t c pts0 |>.map (fun a => a * c.radius)).sum * d.avgRatio / d.totalFilament)).1
                      (relComment_trailing ((phaseDiffs t c pts0 |>.map (fun a => a * c.radius)).sum * d.avgRatio / d.totalFilament)).2
                    rw [← List.append_assoc] at this
                    exact this
                · rw [if_neg hcor] at h
                  simp only [Except.ok.injEq] at h
                  exact ⟨[_], h.symm, fun l hl => by rw [List.mem_singleton] at hl; subst hl; exact hcmd _ rfl⟩

theorem kept_inv {P : PyLine α → Prop} (hP : Stable P) {l l' : PyLine α} (h : P l) (hk : Kept l l') : P l' := by
  rcases hk with rfl | ⟨_, x, y, z, e, f, rfl⟩
  · exact h
  · exact hP.text _ _ h rfl ⟨rfl, rfl, rfl, rfl, rfl, rfl, rfl, rfl⟩

theorem rewrites_inv {P : PyLine α → Prop} (hP : Stable P) {a b : List (PyLine α)} (h : Rewrites (fun _ _ gen => ∀ l ∈ gen, P l) a b) (ha : ∀ l ∈ a, P l) : ∀ l ∈ b, P l := by
  induction h with
  | done => exact ha
  | keep hk _ ih =>
    intro l hl
    rcases List.mem_cons.1 hl with rfl | hl
    · exact kept_inv hP (ha _ (by simp)) hk
    · exact ih (fun l hl => ha l (by simp [hl])) l hl
  | arc hk _ hgen _ ih =>
    intro l hl
    rcases List.mem_cons.1 hl with rfl | hl
    · exact kept_inv hP (ha _ (by simp)) hk
    · rcases List.mem_append.1 hl with hl | hl
      · exact hgen l hl
      · exact ih (fun l hl => ha l (by simp [hl])) l hl

theorem optimizeArcs_inv {P : PyLine α → Prop} (hP : Stable P) {t : Trig α} {g g' : GCode α} (hne : g.allLayers ≠ []) (h : g.optimizeArcs t = .ok g') (hg : ∀ l ∈ program g, P l) :
    ∀ l ∈ program g', P l := by
  obtain ⟨s, hs⟩ := optimizeArcs_run h
  have := (arcRun_rewrites (R := fun _ _ gen => ∀ l ∈ gen, P l) (fun _ _ _ _ _ _ _ he => toGcode_inv hP he) (queueInv_fresh _) hne hs).2
  exact rewrites_inv hP this hg

theorem saves_stable : Stable (Saves : PyLine α → Prop) where
  rebuilt _ h := saves_unsplit h
  comment _ _ h ht hl := saves_rebuilt_comment h ht hl
  m83 := saves_m83
  pause := saves_pause
  text _ _ h h1 h2 := saves_of_text h h1 h2

theorem optimizeArcs_saves {t : Trig α} {g g' : GCode α} (hne : g.allLayers ≠ []) (h : g.optimizeArcs t = .ok g') (hg : ∀ l ∈ program g, Saves l) :
    ∀ l ∈ program g', Saves l := optimizeArcs_inv saves_stable hne h hg

theorem modifyLast_ne {β : Type} (f : β → β) (ls : List β) (h : ls ≠ []) : modifyLast f ls ≠ [] := by
  cases ls with
  | nil => exact absurd rfl h
  | cons a ls => cases ls <;> simp [modifyLast]

theorem optimizeArcs_ne {t : Trig α} {g g' : GCode α} (hne : g.allLayers ≠ []) (h : g.optimizeArcs t = .ok g') : g'.allLayers ≠ [] := by
  obtain ⟨s, h⟩ := optimizeArcs_run h
  unfold arcRun runFilter at h
  rw [parseLayers_eq] at h
  cases hf : filterLayers (arcFilter (arcOps t)) {} g.allLayers with
  | error e => rw [hf] at h; simp at h
  | ok p =>
    obtain ⟨s1, Ls⟩ := p
    rw [hf] at h
    simp only [Except.ok.injEq, Prod.mk.injEq] at h
    obtain ⟨rfl, rfl⟩ := h
    obtain ⟨f1, f2, _⟩ := filterLayers_flat _ _ _ _ _ hf
    have hLs : Ls ≠ [] := by
      intro hc
      rw [hc] at f2
      exact hne (by simpa using f2.symm)
    split_ifs
    · exact hLs
    · exact modifyLast_ne _ _ hLs

theorem scanLayers_ne {σ : Type} (f : σ → PyLine α → σ × PyLine α) (ls : List (Layer α)) (s : σ) (h : ls ≠ []) : (scanLayers f s ls).2 ≠ [] := by
  cases ls with
  | nil => exact absurd rfl h
  | cons a ls => simp [scanLayers]

theorem translate_inv {P : PyLine α → Prop} (hP : Stable P) {h k : GCode α} {x y : Option α} (hk : h.translate x y = .ok k)
    (hh : (∀ l ∈ program h, P l) ∧ h.allLayers ≠ []) : (∀ l ∈ program k, P l) ∧ k.allLayers ≠ [] := by
  obtain ⟨k', p1, p2, p3⟩ := translate_program h x y
  have e := translate_eq h x y
  rw [hk] at p1 e
  obtain rfl := Except.ok.inj p1
  refine ⟨by rw [p3]; exact scan_inv (transLine_inv hP) _ _ hh.1, ?_⟩
  rw [Except.ok.inj e]
  exact scanLayers_ne _ _ _ hh.2

theorem toRelativeE_inv {P : PyLine α → Prop} (hP : Stable P) {h k : GCode α} (hk : h.toRelativeE = .ok k)
    (hh : (∀ l ∈ program h, P l) ∧ h.allLayers ≠ []) : (∀ l ∈ program k, P l) ∧ k.allLayers ≠ [] := by
  obtain ⟨k', p1, p2, p3⟩ := toRelativeE_program h
  have e := toRelativeE_eq h
  rw [hk] at p1 e
  obtain rfl := Except.ok.inj p1
  refine ⟨by rw [p3]; exact scan_inv (relLine_inv hP) _ _ hh.1, ?_⟩
  rw [Except.ok.inj e]
  exact scanLayers_ne _ _ _ hh.2

theorem passes_saves {t : Trig α} {g g' : GCode α} (h : Passes t g g') (hg : (∀ l ∈ program g, Saves l) ∧ g.allLayers ≠ []) :
    (∀ l ∈ program g', Saves l) ∧ g'.allLayers ≠ [] := by
  induction h with
  | none => exact hg
  | translated x y _ hk ih => exact translate_inv saves_stable hk ih
  | relative _ hk ih => exact toRelativeE_inv saves_stable hk ih
  | paused mode digits pauses _ hk ih => exact pauseAt_lines saves_pause hk ih
  | arcs _ hk ih => exact ⟨optimizeArcs_saves ih.2 hk ih.1, optimizeArcs_ne ih.2 hk⟩

end GCodeUtils
