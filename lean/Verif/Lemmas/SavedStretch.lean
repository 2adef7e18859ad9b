import Verif.Spec.SavedStretch
import Verif.Lemmas.SavedFilters
import Verif.Props.KeptLayers

/-
  Stretching keeps lines that can be read back.
-/

set_option linter.unusedSectionVars false

namespace GCodeUtils

open Spec

variable {α : Type} [Field α] [LinearOrder α] [IsStrictOrderedRing α] [FloorRing α]

/-- A line that can be read back, also with a comment behind it. -/
structure Sound (l : PyLine α) : Prop where
  saves : Saves l
  plain : ¬ Nested l.raw
  worded : dropN (findall (lower l.raw)) ≠ []

theorem nested_marked {r t : Str} (ht : Trailing t) : ¬ Nested (r ++ t) := by
  rintro ⟨_, h, _⟩
  have hne : t ≠ [] := by
    obtain ⟨sp, u, rfl, _⟩ := ht.form
    simp
  rw [List.getLast?_append_of_ne_nil _ hne] at h
  exact (ht.clean _ (List.mem_of_getLast? h)).2.1 rfl

theorem worded_append {ws : List Tok} {j : ℕ} (h : dropN ws ≠ []) : dropN (ws ++ List.replicate j none) ≠ [] := by
  cases ws with
  | nil => exact absurd rfl h
  | cons t ws =>
    cases t with
    | none => simp [dropN]
    | some w =>
      obtain ⟨c, v⟩ := w
      simp only [List.cons_append, dropN] at h ⊢
      split_ifs at h ⊢ with hc
      · simp [h]
      · simp

theorem sound_stable : Stable (Sound : PyLine α → Prop) where
  rebuilt l h := ⟨saves_unsplit h, (unsplit_text h).2.2.2, by obtain ⟨w, rest, e⟩ := unsplit_command h; rw [e]; simp⟩
  comment l t h ht hl := by
    refine ⟨saves_rebuilt_comment h ht hl, nested_marked ht, ?_⟩
    obtain ⟨j, hj⟩ := findall_trailing ht (unsplit_text h).2.2.2 (unsplit_text h).2.2.1
    show dropN (findall (lower ((unsplit l).raw ++ t))) ≠ []
    rw [hj]
    refine worded_append ?_
    obtain ⟨w, rest, e⟩ := unsplit_command h
    rw [e]; simp
  m83 := by
    have hr : (rawToLine c!"M83" : PyLine α).raw = c!"M83" := rfl
    refine ⟨saves_m83, ?_, by rw [hr]; decide⟩
    rw [hr]
    rintro ⟨h, _⟩; revert h; decide
  pause := by
    have hr : (insertedLine pauseCommand : PyLine α).raw = c!"M226" := by with_unfolding_all rfl
    refine ⟨saves_pause, ?_, by rw [hr]; decide⟩
    rw [hr]
    rintro ⟨h, _⟩; revert h; decide
  text l l' h h1 h2 := ⟨saves_of_text h.saves h1 h2, by rw [h1]; exact h.plain, by rw [h1]; exact h.worded⟩

/-- Marks change nothing. -/
theorem sound_marked {l l' : PyLine α} (h : Sound l) (hm : MarkedUp l l') : Sound l' := by
  obtain ⟨s, hs, rfl⟩ := hm
  rcases marks_trailing hs with rfl | ht
  · simpa using h
  obtain ⟨j, hj⟩ := findall_trailing ht h.plain h.saves.text.2.2
  refine ⟨?_, nested_marked ht, by show dropN (findall (lower (l.raw ++ s))) ≠ []; rw [hj]; exact worded_append h.worded⟩
  cases hd : dropN (findall (lower l.raw)) with
  | nil => exact absurd hd h.worded
  | cons w rest =>
    cases w with
    | some w => exact saves_comment h.saves h.plain ⟨w, rest, hd⟩ ht (marks_last hs)
    | none =>
      have hd' : ∃ rest, dropN (findall (lower (l.raw ++ s))) = none :: rest := by
        rw [hj]
        cases hf : findall (lower l.raw) with
        | nil => rw [hf] at hd; simp [dropN] at hd
        | cons t ts =>
          rw [hf] at hd
          cases t with
          | none => exact ⟨_, rfl⟩
          | some w =>
            obtain ⟨c, v⟩ := w
            by_cases hc : c = 'n'
            · subst hc
              simp only [dropN, if_true, List.cons_append] at hd ⊢
              rw [hd]; exact ⟨_, rfl⟩
            · simp [dropN, hc] at hd
      have read : ∀ r : Str, (∃ rest, dropN (findall (lower r)) = none :: rest) → ∀ (home : Home α) (m : Machine α),
          ∃ l', processLine home m { raw := r } = .ok (m, l') ∧ l'.command = none ∧ ∀ k ∈ argLetters, l'.arg k = none := by
        rintro r ⟨rest, hr⟩ home m
        obtain ⟨l', p, _⟩ := processLine_bystander (bystander_dead (.inr ⟨rest, hr⟩)) home m
        obtain ⟨_, e2, e3, _⟩ := C76_line home p _ ((findall_reads (lower r) _).1 rfl)
        have hc : commandOf r (findall (lower r)) = none := by
          unfold commandOf
          rw [← afterNumber_eq, hr]
        rw [hc] at e2 e3
        exact ⟨l', p, e2, fun k hk => e3 (by simp) k hk⟩
      have hw := whole_marked h.saves.text hs
      have hcn : l.command = none := by
        obtain ⟨m', l', p1, p2⟩ := h.saves.reads Home.init Machine.init rfl
        obtain ⟨l1, q1, q2, _⟩ := read l.raw ⟨rest, hd⟩ Home.init Machine.init
        rw [p1] at q1
        obtain ⟨_, rfl⟩ := Prod.mk.inj (Except.ok.inj q1)
        rw [eq_command p2, q2]
      refine ⟨hw, h.saves.metric, ?_, ?_⟩
      · intro home m hm
        obtain ⟨m', l', p1, p2⟩ := h.saves.reads home m hm
        obtain ⟨l1, q1, q2, q3⟩ := read l.raw ⟨rest, hd⟩ home m
        obtain ⟨l2, r1, r2, r3⟩ := read (l.raw ++ s) hd' home m
        rw [p1] at q1
        obtain ⟨_, rfl⟩ := Prod.mk.inj (Except.ok.inj q1)
        refine ⟨m, l2, r1, ?_⟩
        have key : ∀ k ∈ argLetters, l'.arg k = l2.arg k := fun k hk => by rw [q3 k hk, r3 k hk]
        have hsame : SameArgs l' l2 := ⟨by rw [q2, r2], key 'x' (by decide), key 'y' (by decide), key 'z' (by decide), key 'e' (by decide), key 'f' (by decide), key 'i' (by decide), key 'j' (by decide)⟩
        obtain ⟨h1, h2, h3, h4, h5, h6, h7, h8⟩ := hsame
        unfold PyLine.eq at p2 ⊢
        rw [← h1, ← h2, ← h3, ← h4, ← h5, ← h6, ← h7, ← h8]
        exact p2
      · intro h4
        rw [HasCmd] at h4
        have : l.command = some c!"G4" := h4
        rw [hcn] at this
        cases this

theorem value_dropN {r : Str} {k : Char} (hk : k ∈ c!"xyzefij") (u : α) : value u (words r) k = value u ((dropN (findall (lower r))).filterMap id) k := by
  unfold words dropN
  cases findall (lower r) with
  | nil => rfl
  | cons t ts =>
    cases t with
    | none => rfl
    | some q =>
      obtain ⟨c, v⟩ := q
      by_cases hc : c = 'n'
      · subst hc
        simp only [List.filterMap_cons, id, value]
        rw [if_neg]
        · simp
        · rintro ⟨rfl, _⟩; revert hk; decide
      · simp only [hc, if_false]

/-- Reading a line again from its own text keeps it. -/
theorem sound_reparse {l l' : PyLine α} (h : Sound l) (hr : reparse l = .ok l') : Sound l' := by
  have hraw := reparse_raw hr
  obtain ⟨m0, k0, p0, q0⟩ := h.saves.reads Home.init Machine.init rfl
  have hfresh : (split ({ raw := l.raw } : PyLine α)).1.command = l.command := by
    rw [← (processLine_keeps p0).2.1, eq_command q0]
  have hs : ∃ im, split l = ({ l with isMove := im }, dropN (findall (lower l.raw))) := by
    unfold split at hfresh ⊢
    simp only at hfresh ⊢
    cases hd : dropN (findall (lower l.raw)) with
    | nil => exact absurd hd h.worded
    | cons t rest =>
      rw [hd] at hfresh
      cases t with
      | none => exact ⟨_, rfl⟩
      | some w =>
        simp only at hfresh ⊢
        rw [hfresh]
        exact ⟨_, rfl⟩
  obtain ⟨im, hs⟩ := hs
  unfold reparse at hr
  rw [hs] at hr
  simp only at hr
  have hcmd0 : l'.command = l.command := by
    obtain ⟨x, y, z, e, f, i, j, rfl⟩ := parseCoordinates_argsOnly hr
    rfl
  unfold parseCoordinates at hr
  simp only at hr
  have base : Sound ({ l with isMove := im } : PyLine α) := sound_stable.text l _ h rfl ⟨rfl, rfl, rfl, rfl, rfl, rfl, rfl, rfl⟩
  cases hc : l.command with
  | none =>
    rw [hc] at hr
    simp only [Except.ok.injEq] at hr
    rw [← hr]; rw [hc] at base; exact base
  | some c =>
    rw [hc] at hr
    simp only at hr
    by_cases hG : c.head? = some 'G'
    swap
    · rw [if_pos hG] at hr
      simp only [Except.ok.injEq] at hr
      rw [← hr]; rw [hc] at base; exact base
    rw [if_neg (by simpa using hG)] at hr
    simp only [Bool.false_eq_true, if_false] at hr
    have hcmd : l'.command = some c := by rw [hcmd0, hc]
    refine ⟨⟨by rw [hraw]; exact h.saves.text, by rw [HasCmd, hcmd, ← hc]; exact h.saves.metric, ?_, ?_⟩, by rw [hraw]; exact h.plain, by rw [hraw]; exact h.worded⟩
    · intro home m hm
      obtain ⟨m', k, p1, p2⟩ := h.saves.reads home m hm
      refine ⟨m', k, by rw [hraw]; exact p1, eq_of_sameArgs ?_⟩
      have hkc : k.command = some c := by rw [← eq_command p2, hc]
      have him := saves_imperial h.saves p1 p2 hm
      have hargs := (C13_eq_iff l k).1 p2
      have hnone : ∀ q ∈ c!"xyzefij", k.arg q = none → l.arg q = none := by
        have hw : ∀ a b : Option α, Spec.Within eqEpsilon a b → b = none → a = none := by
          intro a b h hb
          subst hb
          cases a with
          | none => rfl
          | some a => simp [Spec.Within] at h
        intro q hq
        obtain ⟨_, a1, a2, a3, a4, a5, a6, a7⟩ := hargs
        simp only [List.mem_cons, List.not_mem_nil, or_false] at hq
        rcases hq with rfl | rfl | rfl | rfl | rfl | rfl | rfl
        · exact hw _ _ a1
        · exact hw _ _ a2
        · exact hw _ _ a3
        · exact hw _ _ a4
        · exact hw _ _ a5
        · exact hw _ _ a6
        · exact hw _ _ a7
      have key : ∀ q ∈ c!"xyzefij", l'.arg q = k.arg q := by
        intro q hq
        have e1 := fold_arg _ hr q hq
        have e2 := (process_imperial p1).2 c hkc hG q hq
        rw [him] at e2
        simp only [Bool.false_eq_true, if_false] at e2
        rw [value_dropN hq] at e2
        rw [e1, ← e2]
        cases hv : k.arg q with
        | some v => rfl
        | none => exact hnone q hq hv
      exact ⟨by rw [hcmd, hkc], key 'x' (by decide), key 'y' (by decide), key 'z' (by decide), key 'e' (by decide), key 'f' (by decide), key 'i' (by decide), key 'j' (by decide)⟩
    · intro h4
      rw [hraw]
      exact h.saves.dwell (by rw [HasCmd, hc, ← hcmd]; exact h4)

theorem stretchLayer_sound {sqrt : α → α} {fuel : ℕ} {kf kb : ItKind} (todo : List (PyLine α)) : ∀ {st st' : StretchSt α} {cur : List (PyLine α)} {n : ℕ} {out : List (PyLine α)},
    stretchLayer sqrt fuel kf kb st cur n todo = .ok (st', out) → (∀ l ∈ todo, Sound l) → ∀ l ∈ out, Sound l := by
  induction todo with
  | nil =>
    intro st st' cur n out h _ l hl
    simp only [stretchLayer, Except.ok.injEq, Prod.mk.injEq] at h
    rw [← h.2] at hl; cases hl
  | cons a todo ih =>
    intro st st' cur n out h ha l hl
    rw [stretchLayer] at h
    split at h
    · simp at h
    · rename_i st1 r same hp
      have hsr : Sound r := by
        have h0 := ha a (by simp)
        unfold stretchParseLine at hp
        split at hp
        · simp at hp
        · split_ifs at hp with hx
          · have hm : Rebuilds a := by
              simp only [Bool.and_eq_true] at hx
              have := hx.1
              unfold isXYMove PyLine.inLinear at this
              left
              cases hc : a.command with
              | none => rw [hc] at this; simp at this
              | some c =>
                rw [hc] at this
                simp only [Bool.and_eq_true, linearMoveGcodes, List.contains_eq_mem, decide_eq_true_eq, List.mem_cons, List.not_mem_nil, or_false] at this
                refine ⟨c, ?_, hc⟩
                rcases this.1 with rfl | rfl <;> decide
            unfold stretchLine at hp
            simp only at hp
            split_ifs at hp
            · split at hp
              · simp at hp
              · split at hp
                · simp at hp
                · rename_i r' hst
                  simp only [Except.ok.injEq, Prod.mk.injEq] at hp
                  obtain ⟨_, rfl, _⟩ := hp
                  unfold stretchedLine at hst
                  cases hd : displacement sqrt fuel _ _ kf kb cur n _ _ with
                  | error e => rw [hd] at hst; simp [bind, Except.bind] at hst
                  | ok q =>
                    rw [hd] at hst
                    simp only [bind, Except.bind, Except.ok.injEq] at hst
                    rw [← hst]
                    exact sound_stable.rebuilt _ (rebuilds_of_command hm rfl)
            · simp only [Except.ok.injEq, Prod.mk.injEq] at hp
              rw [← hp.2.1]; exact h0
          · simp only [Except.ok.injEq, Prod.mk.injEq] at hp
            rw [← hp.2.1]; exact h0
      split at h
      · simp at h
      · rename_i r2 hrp
        split at h
        · simp at h
        · rename_i st2 out2 hrec
          simp only [Except.ok.injEq, Prod.mk.injEq] at h
          obtain ⟨_, rfl⟩ := h
          rcases List.mem_cons.1 hl with rfl | hl
          · exact sound_reparse hsr hrp
          · exact ih hrec (fun k hk => ha k (by simp [hk])) l hl

theorem stretchLayers_sound {sqrt : α → α} {fuel : ℕ} {kf kb : ItKind} (Ls : List (Layer α)) : ∀ {st st' : StretchSt α} {Ls' : List (Layer α)},
    stretchLayers sqrt fuel kf kb st Ls = .ok (st', Ls') → (∀ L ∈ Ls, ∀ l ∈ L.lines, Sound l) → (∀ L ∈ Ls', ∀ l ∈ L.lines, Sound l) ∧ Ls'.length = Ls.length := by
  induction Ls with
  | nil =>
    intro st st' Ls' h _
    simp only [stretchLayers, Except.ok.injEq, Prod.mk.injEq] at h
    rw [← h.2]
    exact ⟨fun L hL => absurd hL (by simp), rfl⟩
  | cons A Ls ih =>
    intro st st' Ls' h hA
    rw [stretchLayers] at h
    split at h
    · simp at h
    · rename_i st1 ls h1
      split at h
      · simp at h
      · rename_i st2 Ls2 h2
        simp only [Except.ok.injEq, Prod.mk.injEq] at h
        obtain ⟨_, rfl⟩ := h
        obtain ⟨i1, i2⟩ := ih h2 (fun L hL => hA L (by simp [hL]))
        refine ⟨?_, by simp [i2]⟩
        intro L hL
        rcases List.mem_cons.1 hL with rfl | hL
        · exact stretchLayer_sound _ h1 (hA A (by simp))
        · exact i1 L hL

theorem stretch_sound {sqrt : α → α} {fuel : ℕ} {slicer : Slicer} {repo : StretchRepo α} {profile : ProfileOracle α} {g g' : GCode α}
    (h : g.stretch sqrt fuel slicer repo profile = .ok g') (hg : (∀ l ∈ program g, Sound l) ∧ g.allLayers ≠ []) : (∀ l ∈ program g', Sound l) ∧ g'.allLayers ≠ [] := by
  unfold GCode.stretch at h
  cases hs : setupFilter slicer repo profile g.allLayers with
  | error e => rw [hs] at h; simp at h
  | ok p =>
    obtain ⟨d, Ls⟩ := p
    rw [hs] at h
    simp only at h
    split at h
    · simp at h
    · rename_i st Ls' h1
      simp only [Except.ok.injEq] at h
      subst h
      have hm := setupFilter_marked hs
      have hS : ∀ L ∈ Ls, ∀ l ∈ L.lines, Sound l := by
        have : ∀ L ∈ g.allLayers, ∀ l ∈ L.lines, Sound l := fun L hL l hl => hg.1 l (mem_program.2 ⟨L, hL, hl⟩)
        clear hs h1 hg
        generalize g.allLayers = A at hm this
        induction hm with
        | nil => intro L hL; cases hL
        | @cons M N A B hMN _ ih =>
          intro L hL
          rcases List.mem_cons.1 hL with rfl | hL
          · have h0 := this M (by simp)
            have := hMN.2
            generalize M.lines = a at this h0
            generalize L.lines = b at this
            induction this with
            | nil => intro l hl; cases hl
            | cons hx _ ih2 =>
              intro l hl
              rcases List.mem_cons.1 hl with rfl | hl
              · exact sound_marked (h0 _ (by simp)) hx
              · exact ih2 (fun k hk => h0 k (by simp [hk])) l hl
          · exact ih (fun K hK => this K (by simp [hK])) L hL
      obtain ⟨s1, s2⟩ := stretchLayers_sound _ h1 hS
      refine ⟨?_, ?_⟩
      · intro l hl
        obtain ⟨L, hL, hl⟩ := mem_program.1 hl
        exact s1 L hL l hl
      · show Ls' ≠ []
        rw [← List.length_pos_iff, s2, ← hm.length_eq]
        exact List.length_pos_iff.2 hg.2

theorem allPasses_sound {t : Trig α} {sqrt : α → α} {g g' : GCode α} (h : AllPasses t sqrt g g') (hg : (∀ l ∈ program g, Sound l) ∧ g.allLayers ≠ []) :
    (∀ l ∈ program g', Sound l) ∧ g'.allLayers ≠ [] := by
  induction h with
  | none => exact hg
  | translated x y _ hk ih => exact translate_inv sound_stable hk ih
  | relative _ hk ih => exact toRelativeE_inv sound_stable hk ih
  | paused mode digits pauses _ hk ih => exact pauseAt_lines sound_stable.pause hk ih
  | arcs _ hk ih => exact ⟨optimizeArcs_inv sound_stable ih.2 hk ih.1, optimizeArcs_ne ih.2 hk⟩
  | stretched fuel slicer repo profile _ hk ih => exact stretch_sound hk ih

end GCodeUtils
