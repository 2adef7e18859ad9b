import Verif.Lemmas.Stretch

set_option linter.unusedSectionVars false

namespace GCodeUtils

open Spec

variable {α : Type} [Field α] [LinearOrder α] [IsStrictOrderedRing α] [FloorRing α]

theorem le_of_sq_le_sq' {a b : α} (h : a ^ 2 ≤ b ^ 2) (hb : 0 ≤ b) : a ≤ b :=
  le_of_not_gt (fun hc => absurd h (not_le.2 (pow_lt_pow_left₀ hc hb (by norm_num))))

theorem Cx.abs_sqrt {ε : α} {sqrt : α → α} (hs : IsSqrt ε sqrt) (a : Cx α) : 0 ≤ a.abs sqrt ∧
    a.abs sqrt ^ 2 ≤ (1 + ε) ^ 2 * (a.re ^ 2 + a.im ^ 2) ∧ a.re ^ 2 + a.im ^ 2 ≤ (1 + ε) ^ 2 * a.abs sqrt ^ 2 := by
  have := hs.2 (a.re * a.re + a.im * a.im) (add_nonneg (mul_self_nonneg _) (mul_self_nonneg _))
  rw [pow_two a.re, pow_two a.im]
  exact this

theorem displacement_bound {ε : α} {sqrt : α → α} (hs : IsSqrt ε sqrt) {fuel : ℕ} {d : StretchDist α} {old : Option (Vec3 α)} {kf kb : ItKind}
    {lines : List (PyLine α)} {n : ℕ} {tmax : α} {loc a : Cx α} (ht : 0 ≤ tmax)
    (h : displacement sqrt fuel d old kf kb lines n tmax loc = .ok a) :
    a.re ^ 2 + a.im ^ 2 ≤ ((1 + ε) * tmax) ^ 2 ∧ a.abs sqrt ≤ (1 + ε) ^ 2 * tmax := by
  unfold displacement at h
  simp only [bind, Except.bind] at h
  cases h1 : relStretch sqrt fuel d old kf lines ((n : ℤ) + 1) loc with
  | error er => rw [h1] at h; cases h
  | ok f =>
    rw [h1] at h
    simp only at h
    cases h2 : relStretch sqrt fuel d old kb lines ((n : ℤ) - 1) loc with
    | error er => rw [h2] at h; cases h
    | ok b =>
      rw [h2] at h
      simp only at h
      cases h3 : crossLimited sqrt fuel d old kf lines ((n : ℤ) + 1) loc (Cx.smul (8 / 10) (f.add b)) with
      | error er => rw [h3] at h; cases h
      | ok s1 =>
        rw [h3] at h
        simp only at h
        cases h4 : crossLimited sqrt fuel d old kb lines ((n : ℤ) - 1) loc s1 with
        | error er => rw [h4] at h; cases h
        | ok s =>
          rw [h4] at h
          simp only at h
          obtain ⟨hs0, hs1, hs2⟩ := Cx.abs_sqrt hs s
          have he := hs.1
          have he1 : (0 : α) ≤ 1 + ε := by linarith
          -- the unit-length bound
          have key : ∀ u : Cx α, u.re ^ 2 + u.im ^ 2 ≤ (1 + ε) ^ 2 →
              (Cx.smul tmax u).re ^ 2 + (Cx.smul tmax u).im ^ 2 ≤ ((1 + ε) * tmax) ^ 2 ∧ (Cx.smul tmax u).abs sqrt ≤ (1 + ε) ^ 2 * tmax := by
            intro u hu
            obtain ⟨k0, k1, _⟩ := Cx.abs_sqrt hs (Cx.smul tmax u)
            have hsq : (Cx.smul tmax u).re ^ 2 + (Cx.smul tmax u).im ^ 2 ≤ ((1 + ε) * tmax) ^ 2 := by
              show (tmax * u.re) ^ 2 + (tmax * u.im) ^ 2 ≤ _
              have : tmax ^ 2 * (u.re ^ 2 + u.im ^ 2) ≤ tmax ^ 2 * (1 + ε) ^ 2 := mul_le_mul_of_nonneg_left hu (sq_nonneg _)
              nlinarith [this]
            refine ⟨hsq, ?_⟩
            have h5 : (Cx.smul tmax u).abs sqrt ^ 2 ≤ ((1 + ε) ^ 2 * tmax) ^ 2 := by
              refine k1.trans ?_
              have : (1 + ε) ^ 2 * ((Cx.smul tmax u).re ^ 2 + (Cx.smul tmax u).im ^ 2) ≤ (1 + ε) ^ 2 * ((1 + ε) * tmax) ^ 2 :=
                mul_le_mul_of_nonneg_left hsq (sq_nonneg _)
              refine this.trans (le_of_eq ?_)
              ring
            exact le_of_sq_le_sq' h5 (mul_nonneg (sq_nonneg _) ht)
          by_cases hl : 1 < s.abs sqrt
          · rw [if_pos hl] at h
            have hpos : 0 < s.abs sqrt := by linarith
            unfold Cx.div at h
            rw [if_neg hpos.ne'] at h
            simp only [Except.ok.injEq] at h
            rw [← h]
            apply key
            show (s.re / s.abs sqrt) ^ 2 + (s.im / s.abs sqrt) ^ 2 ≤ _
            rw [div_pow, div_pow, ← add_div, div_le_iff₀ (by positivity)]
            exact hs2
          · rw [if_neg hl] at h
            simp only [Except.ok.injEq] at h
            rw [← h]
            apply key
            refine hs2.trans ?_
            have h6 := not_lt.1 hl
            have : s.abs sqrt ^ 2 ≤ 1 := by nlinarith
            nlinarith [mul_le_mul_of_nonneg_left this (sq_nonneg (1 + ε))]

/-! ### text of untouched and of moved lines -/

theorem reparse_raw {l l' : PyLine α} (h : reparse l = .ok l') : l'.raw = l.raw := by
  have hsplit : (split l).1.raw = l.raw := by
    unfold split
    cases dropN (findall (lower l.raw)) with
    | nil => rfl
    | cons t rest => cases t <;> rfl
  have htok : ∀ (u : α) (toks : List Tok) (l l' : PyLine α), toks.foldlM (parseTok u) l = .ok l' → l'.raw = l.raw := by
    intro u toks
    induction toks with
    | nil => intro l l' h; simp only [List.foldlM_nil, pure, Except.pure, Except.ok.injEq] at h; rw [h]
    | cons t ts ih =>
      intro l l' h
      rw [List.foldlM_cons] at h
      cases hp : parseTok u l t with
      | error er => rw [hp] at h; cases h
      | ok l1 =>
        rw [hp] at h
        rw [ih l1 l' h]
        unfold parseTok at hp
        cases t with
        | none => cases hp; rfl
        | some p =>
          simp only at hp
          split_ifs at hp
          · cases hf : (parseFloat p.2 : Option α) with
            | none => rw [hf] at hp; cases hp
            | some a =>
              rw [hf] at hp
              simp only [Except.ok.injEq] at hp
              rw [← hp]
              unfold PyLine.setArg
              split_ifs <;> rfl
          · cases hp; rfl
  unfold reparse at h
  simp only at h
  rw [← hsplit]
  unfold parseCoordinates at h
  cases hc : (split l).1.command with
  | none => rw [hc] at h; cases h; rfl
  | some c =>
    rw [hc] at h
    simp only at h
    by_cases hg : c.head? ≠ some 'G'
    · rw [if_pos hg] at h; cases h; rfl
    · rw [if_neg hg] at h
      exact htok _ _ _ _ h

theorem reparse_unsplit (m : PyLine α) (n : Str) (hcmd : m.command = some ('G' :: n)) (hn : numLen n = n.length) :
    reparse (unsplit m) = .ok (reread 1 m { unsplit m with command := some ('G' :: n), isMove := moveGcodes.contains ('G' :: n) }) := by
  have hf := findall_unsplit m 'G' n (by decide) hcmd hn
  have hd : dropN (findall (lower (unsplit m).raw)) = some ('g', n) :: lineToks m := by
    rw [hf]; rfl
  unfold reparse
  simp only
  rw [split_eq (unsplit m) hd]
  unfold parseCoordinates
  simp only
  have hg : (Char.toUpper 'g' :: n).head? = some 'G' := by
    simp only [List.head?_cons]; decide
  rw [if_neg (by rw [hg]; simp), List.foldlM_cons]
  have hp : ∀ (u : α) (l0 : PyLine α), parseTok u l0 (some ('g', n)) = .ok l0 := by
    intro u l0
    unfold parseTok
    simp only
    rw [if_neg (by simp [nonArgLetters])]
  rw [hp]
  simp only [bind, Except.bind]
  rw [fold_lineToks]
  rfl

/-! ### the state and the history -/

theorem loopAt_snoc (hist : List (PyLine α)) (l : PyLine α) : loopAt (hist ++ [l]) = loopStep (loopAt hist) l := by
  unfold loopAt; rw [List.foldl_append]; rfl

theorem loopMoves_append (s : Option LoopKind) (a b : List (PyLine α)) :
    loopMoves s (a ++ b) = loopMoves s a ++ loopMoves (a.foldl loopStep s) b := by
  induction a generalizing s with
  | nil => rfl
  | cons l a ih =>
    simp only [List.cons_append, loopMoves, List.foldl_cons, ih]
    split_ifs <;> simp

theorem loopMoves_snoc (hist : List (PyLine α)) (l : PyLine α) : loopMoves none (hist ++ [l]) =
    if loopAt (hist ++ [l]) ≠ none ∧ XYMove l then loopMoves none hist ++ [l] else loopMoves none hist := by
  rw [loopMoves_append, loopAt_snoc]
  show loopMoves none hist ++ loopMoves (loopAt hist) [l] = _
  simp only [loopMoves]
  split_ifs <;> simp

theorem isXYMove_iff (l : PyLine α) : isXYMove l = true ↔ XYMove l := by
  unfold isXYMove XYMove PyLine.inLinear
  have hm : ∀ c : Str, linearMoveGcodes.contains c = true ↔ c = c!"G0" ∨ c = c!"G1" := by
    intro c; unfold linearMoveGcodes; simp
  rw [Bool.and_eq_true, Bool.or_eq_true, Option.isSome_iff_ne_none, Option.isSome_iff_ne_none]
  cases hc : l.command with
  | none => simp
  | some c => simp only [hm, Option.some.injEq]

theorem marked_iff (m : Str) (l : PyLine α) : marked m l = true ↔ m <:+: l.raw := hasSub_iff m l.raw

/-- The filter state after the lines `hist`. -/
structure StInv (most : LoopKind → α) (d : Option (StretchDist α)) (hist : List (PyLine α)) (st : StretchSt α) : Prop where
  dist : st.dist = d
  loop : st.isLoop = (loopAt hist).isSome
  tmax : st.tmax = match loopAt hist with | some k => most k | none => 0
  feed : st.feed = lastOr 959 ((loopMoves none hist).filterMap (fun l => l.f.filter (· ≠ 0)))
  oldx : (st.old.getD Vec3.zero).x = lastOr 0 ((loopMoves none hist).filterMap (·.x))
  oldy : (st.old.getD Vec3.zero).y = lastOr 0 ((loopMoves none hist).filterMap (·.y))

theorem stInv_init (most : LoopKind → α) (d : Option (StretchDist α)) : StInv most d [] { StretchSt.init with dist := d } :=
  ⟨rfl, rfl, rfl, rfl, rfl, rfl⟩

/-- The limits of a set of distances. -/
def Limits (most : LoopKind → α) (d : Option (StretchDist α)) : Prop :=
  ∀ D, d = some D → most .inner = D.insideMax ∧ most .outer = D.outsideMax ∧ most .other = D.loopMax

theorem loopStep_eq (s : Option LoopKind) (l : PyLine α) : loopStep s l =
    if innerEdgeMarker <:+: l.raw then some .inner else if outerEdgeMarker <:+: l.raw then some .outer
    else if loopStartMarker <:+: l.raw then some .other else if loopStopMarker <:+: l.raw then none else s := by
  have h1 : innerEdgeMarker = c!"stretch-loop-start stretch-inner-edge-start" := by decide
  have h2 : outerEdgeMarker = c!"stretch-loop-start stretch-outer-edge-start" := by decide
  have h3 : loopStartMarker = c!"stretch-loop-start" := rfl
  have h4 : loopStopMarker = c!"stretch-loop-stop" := rfl
  rw [h1, h2, h3, h4]
  unfold loopStep
  split_ifs <;> rfl

theorem loopSwitch_inv {most : LoopKind → α} {d : Option (StretchDist α)} (hlim : Limits most d) {hist : List (PyLine α)}
    {st st' : StretchSt α} {l : PyLine α} (hi : StInv most d hist st) (h : loopSwitch st l = .ok st') :
    st'.dist = d ∧ st'.isLoop = (loopAt (hist ++ [l])).isSome ∧
      st'.tmax = (match loopAt (hist ++ [l]) with | some k => most k | none => 0) ∧ st'.feed = st.feed ∧ st'.old = st.old := by
  rw [loopAt_snoc]
  unfold loopSwitch at h
  rw [loopStep_eq]
  have henter : ∀ (f : StretchDist α → α) (k : LoopKind), (∀ D, d = some D → most k = f D) →
      (match st.dist with | none => .error .attributeError | some d => .ok { st with isLoop := true, tmax := f d }) = (.ok st' : Except Err (StretchSt α)) →
      st'.dist = d ∧ st'.isLoop = (some k).isSome ∧ st'.tmax = most k ∧ st'.feed = st.feed ∧ st'.old = st.old := by
    intro f k hk he
    rw [hi.dist] at he
    cases d with
    | none => cases he
    | some D =>
      simp only [Except.ok.injEq] at he
      rw [← he]
      exact ⟨by simp only, rfl, (hk D rfl).symm, rfl, rfl⟩
  by_cases h1 : marked innerEdgeMarker l = true
  · rw [if_pos h1] at h
    rw [if_pos ((marked_iff _ _).1 h1)]
    exact henter (·.insideMax) .inner (fun D hD => (hlim D hD).1) h
  · rw [if_neg h1] at h
    rw [if_neg (fun hc => h1 ((marked_iff _ _).2 hc))]
    by_cases h2 : marked outerEdgeMarker l = true
    · rw [if_pos h2] at h
      rw [if_pos ((marked_iff _ _).1 h2)]
      exact henter (·.outsideMax) .outer (fun D hD => (hlim D hD).2.1) h
    · rw [if_neg h2] at h
      rw [if_neg (fun hc => h2 ((marked_iff _ _).2 hc))]
      by_cases h3 : marked loopStartMarker l = true
      · rw [if_pos h3] at h
        rw [if_pos ((marked_iff _ _).1 h3)]
        exact henter (·.loopMax) .other (fun D hD => (hlim D hD).2.2) h
      · rw [if_neg h3] at h
        rw [if_neg (fun hc => h3 ((marked_iff _ _).2 hc))]
        by_cases h4 : marked loopStopMarker l = true
        · rw [if_pos h4] at h
          rw [if_pos ((marked_iff _ _).1 h4)]
          simp only [Except.ok.injEq] at h
          rw [← h]
          exact ⟨hi.dist, rfl, rfl, rfl, rfl⟩
        · rw [if_neg h4] at h
          rw [if_neg (fun hc => h4 ((marked_iff _ _).2 hc))]
          simp only [Except.ok.injEq] at h
          rw [← h]
          exact ⟨hi.dist, hi.loop, hi.tmax, rfl, rfl⟩

theorem lastOr_snoc (d : α) (vs : List α) (o : Option α) : lastOr d (vs ++ o.toList) = o.getD (lastOr d vs) := by
  unfold lastOr
  cases o with
  | none => simp
  | some v => simp

theorem filterMap_snoc {β γ : Type} (f : β → Option γ) (ls : List β) (l : β) : (ls ++ [l]).filterMap f = ls.filterMap f ++ (f l).toList := by
  rw [List.filterMap_append]
  congr 1

theorem linear_gcode {l : PyLine α} (h : XYMove l) : ∃ n, l.command = some ('G' :: n) ∧ numLen n = n.length := by
  rcases h.1 with h | h
  · exact ⟨c!"0", h, by decide⟩
  · exact ⟨c!"1", h, by decide⟩

theorem within_reread (d : ℕ) (a : Option α) : Within (1 / (2 * 10 ^ d)) a ((a.map (fun a => 1 * fixedVal d a)).or a) := by
  have := within_fixed d a
  cases a with
  | none => exact this
  | some a => exact this

theorem parseLine_spec {ε : α} {sqrt : α → α} (hs : IsSqrt ε sqrt) {fuel : ℕ} {kf kb : ItKind} {cur : List (PyLine α)} {n : ℕ}
    {most : LoopKind → α} {d : Option (StretchDist α)} (hlim : Limits most d) {hist : List (PyLine α)}
    {st st' : StretchSt α} {l r : PyLine α} {same : Bool} (hi : StInv most d hist st)
    (h : stretchParseLine sqrt fuel kf kb cur n st l = .ok (st', r, same)) {l' : PyLine α} (hr : reparse r = .ok l') :
    StInv most d (hist ++ [l]) st' ∧ LineStretch ε most (hist ++ [l]) l l' := by
  unfold stretchParseLine at h
  cases hsw : loopSwitch st l with
  | error er => rw [hsw] at h; cases h
  | ok s1 =>
    rw [hsw] at h
    simp only at h
    obtain ⟨e1, e2, e3, e4, e5⟩ := loopSwitch_inv hlim hi hsw
    by_cases hb : (isXYMove l && s1.isLoop) = true
    · rw [if_pos hb] at h
      rw [Bool.and_eq_true] at hb
      have hxy := (isXYMove_iff l).1 hb.1
      obtain ⟨k, hk⟩ : ∃ k, loopAt (hist ++ [l]) = some k := Option.isSome_iff_exists.1 (by rw [← e2]; exact hb.2)
      have hsn := loopMoves_snoc hist l
      rw [if_pos ⟨by rw [hk]; simp, hxy⟩] at hsn
      have hfeed : (match l.f with | some f => if f ≠ 0 then f else s1.feed | none => s1.feed) =
          lastOr 959 ((loopMoves none (hist ++ [l])).filterMap (fun l => l.f.filter (· ≠ 0))) := by
        rw [hsn, filterMap_snoc, lastOr_snoc, e4, hi.feed]
        cases l.f with
        | none => rfl
        | some f =>
          by_cases hf : f ≠ 0
          · simp [Option.filter, hf]
          · simp [Option.filter, hf]
      have hx : (locationFromLine s1.old l).x = lastOr 0 ((loopMoves none (hist ++ [l])).filterMap (·.x)) := by
        rw [hsn, filterMap_snoc, lastOr_snoc, ← hi.oldx, e5]; rfl
      have hy : (locationFromLine s1.old l).y = lastOr 0 ((loopMoves none (hist ++ [l])).filterMap (·.y)) := by
        rw [hsn, filterMap_snoc, lastOr_snoc, ← hi.oldy, e5]; rfl
      unfold stretchLine at h
      simp only at h
      have hinv : ∀ s2 : StretchSt α, s2.dist = s1.dist → s2.isLoop = s1.isLoop → s2.tmax = s1.tmax →
          s2.feed = (match l.f with | some f => if f ≠ 0 then f else s1.feed | none => s1.feed) → s2.old = some (locationFromLine s1.old l) →
          StInv most d (hist ++ [l]) s2 := by
        intro s2 k1 k2 k3 k4 k5
        exact ⟨k1.trans e1, k2.trans e2, k3.trans e3, k4.trans hfeed, by rw [k5]; exact hx, by rw [k5]; exact hy⟩
      have htm : s1.tmax = most k := by rw [e3, hk]
      by_cases ht : 0 < s1.tmax
      · rw [if_pos ht, e1] at h
        cases d with
        | none => cases h
        | some D =>
          simp only at h
          generalize hq : stretchedLine sqrt fuel D (some (locationFromLine s1.old l)) kf kb cur n s1.tmax (match l.f with | some f => if f ≠ 0 then f else s1.feed | none => s1.feed) (locationFromLine s1.old l) l = q at h
          cases q with
          | error er => cases h
          | ok q =>
            simp only [Except.ok.injEq, Prod.mk.injEq] at h
            obtain ⟨h1, h2, _⟩ := h
            refine ⟨by rw [← h1]; exact hinv _ (by rw [e1]) rfl rfl rfl rfl, ?_⟩
            unfold LineStretch
            rw [hk]
            simp only
            rw [if_pos ⟨hxy, by rw [← htm]; exact ht⟩]
            subst h2
            unfold stretchedLine at hq
            simp only [bind, Except.bind] at hq
            generalize hdd : displacement sqrt fuel D (some (locationFromLine s1.old l)) kf kb cur n s1.tmax ⟨(locationFromLine s1.old l).x, (locationFromLine s1.old l).y⟩ = dd at hq
            cases dd with
            | error er => cases hq
            | ok a =>
              simp only [Except.ok.injEq] at hq
              have hbd := displacement_bound hs ht.le hdd
              obtain ⟨ha0, ha1, ha2⟩ := Cx.abs_sqrt hs a
              obtain ⟨nn, hcmd, hnn⟩ := linear_gcode hxy
              obtain ⟨m, hm⟩ : ∃ m : PyLine α, m = ({ command := l.command, x := some ((locationFromLine s1.old l).x + a.re), y := some ((locationFromLine s1.old l).y + a.im), z := l.z, f := some (match l.f with | some f => if f ≠ 0 then f else s1.feed | none => s1.feed), e := l.e.map (fun e => e * (1 - a.abs sqrt)) } : PyLine α) := ⟨_, rfl⟩
              rw [← hm] at hq
              have hmc : m.command = some ('G' :: nn) := by rw [hm]; exact hcmd
              rw [← hq, reparse_unsplit m nn hmc hnn] at hr
              simp only [Except.ok.injEq] at hr
              have hraw : l'.raw = (unsplit m).raw := by rw [← hr]; rfl
              have e3' : (1 : α) / (2 * 10 ^ 3) = 5 / 10 ^ 4 := by norm_num
              have e5' : (1 : α) / (2 * 10 ^ 5) = 5 / 10 ^ 6 := by norm_num
              have mi : m.i = none := by rw [hm]
              have mj : m.j = none := by rw [hm]
              refine ⟨a.re, a.im, a.abs sqrt, ha0, ha1, ha2, by rw [← htm]; exact hbd.1, by rw [← htm]; exact hbd.2, m, hraw, by rw [hm], by rw [hm, ← hx], by rw [hm, ← hy], by rw [hm], by rw [hm], by rw [hm, ← hfeed], mi, mj, ?_, ?_, ?_, ?_, ?_, ?_, ?_, ?_⟩
              · rw [← hr]; exact hmc.symm
              · rw [← hr, ← e3']; exact within_reread 3 _
              · rw [← hr, ← e3']; exact within_reread 3 _
              · rw [← hr, ← e3']; exact within_reread 3 _
              · rw [← hr, ← e5']; exact within_reread 5 _
              · rw [← hr, ← e3']; exact within_reread 3 _
              · rw [← hr]; simp [reread, unsplit, mi]
              · rw [← hr]; simp [reread, unsplit, mj]
      · rw [if_neg ht] at h
        simp only [Except.ok.injEq, Prod.mk.injEq] at h
        obtain ⟨h1, h2, _⟩ := h
        refine ⟨by rw [← h1]; exact hinv _ rfl rfl rfl rfl rfl, ?_⟩
        unfold LineStretch
        rw [hk]
        simp only
        rw [if_neg (fun hc => ht (by rw [htm]; exact hc.2)), reparse_raw hr, ← h2]
    · rw [if_neg hb] at h
      simp only [Except.ok.injEq, Prod.mk.injEq] at h
      obtain ⟨h1, h2, _⟩ := h
      have hno : ¬ (loopAt (hist ++ [l]) ≠ none ∧ XYMove l) := by
        rintro ⟨h3, h4⟩
        apply hb
        rw [Bool.and_eq_true]
        exact ⟨(isXYMove_iff l).2 h4, by rw [e2]; exact Option.isSome_iff_ne_none.2 h3⟩
      have hsn := loopMoves_snoc hist l
      rw [if_neg hno] at hsn
      refine ⟨?_, ?_⟩
      · rw [← h1]
        exact ⟨e1, e2, e3, by rw [hsn, e4, hi.feed], by rw [hsn, e5, hi.oldx], by rw [hsn, e5, hi.oldy]⟩
      · have hraw : l'.raw = l.raw := by rw [reparse_raw hr, h2]
        unfold LineStretch
        cases hk : loopAt (hist ++ [l]) with
        | none => exact hraw
        | some k =>
          simp only
          rw [if_neg (fun hc => hno ⟨by rw [hk]; simp, hc.1⟩)]
          exact hraw

theorem stretchLayer_spec {ε : α} {sqrt : α → α} (hs : IsSqrt ε sqrt) {fuel : ℕ} {kf kb : ItKind} {most : LoopKind → α}
    {d : Option (StretchDist α)} (hlim : Limits most d) {ls : List (PyLine α)} : ∀ {cur : List (PyLine α)} {n : ℕ} {hist : List (PyLine α)}
    {st st' : StretchSt α} {out : List (PyLine α)}, StInv most d hist st → stretchLayer sqrt fuel kf kb st cur n ls = .ok (st', out) →
    StInv most d (hist ++ ls) st' ∧ Stretches ε most hist ls out := by
  induction ls with
  | nil =>
    intro cur n hist st st' out hi h
    simp only [stretchLayer, Except.ok.injEq, Prod.mk.injEq] at h
    rw [← h.1, ← h.2, List.append_nil]
    exact ⟨hi, .done⟩
  | cons l ls ih =>
    intro cur n hist st st' out hi h
    rw [stretchLayer] at h
    cases h1 : stretchParseLine sqrt fuel kf kb cur n st l with
    | error er => rw [h1] at h; cases h
    | ok p =>
      obtain ⟨s1, r, same⟩ := p
      rw [h1] at h
      simp only at h
      cases h2 : reparse r with
      | error er => rw [h2] at h; cases h
      | ok l' =>
        rw [h2] at h
        simp only at h
        obtain ⟨hi', hl⟩ := parseLine_spec hs hlim hi h1 h2
        cases h3 : stretchLayer sqrt fuel kf kb s1 (if same = true then cur.set n l' else cur) (n + 1) ls with
        | error er => rw [h3] at h; cases h
        | ok q =>
          rw [h3] at h
          simp only [Except.ok.injEq, Prod.mk.injEq] at h
          obtain ⟨k1, k2⟩ := ih hi' h3
          rw [← h.1, ← h.2]
          rw [List.append_assoc] at k1
          exact ⟨k1, .step hl k2⟩

theorem stretches_append {ε : α} {most : LoopKind → α} {hist a a' b b' : List (PyLine α)} (h1 : Stretches ε most hist a a')
    (h2 : Stretches ε most (hist ++ a) b b') : Stretches ε most hist (a ++ b) (a' ++ b') := by
  induction h1 with
  | done => simpa using h2
  | @step hist l l' a c hl _ ih =>
    exact .step hl (ih (by rwa [List.append_assoc]))

theorem stretches_length {ε : α} {most : LoopKind → α} {hist a b : List (PyLine α)} (h : Stretches ε most hist a b) : a.length = b.length := by
  induction h with
  | done => rfl
  | step _ _ ih => simp [ih]

theorem stretchLayers_spec {ε : α} {sqrt : α → α} (hs : IsSqrt ε sqrt) {fuel : ℕ} {kf kb : ItKind} {most : LoopKind → α}
    {d : Option (StretchDist α)} (hlim : Limits most d) {Ls : List (Layer α)} : ∀ {hist : List (PyLine α)}
    {st st' : StretchSt α} {out : List (Layer α)}, StInv most d hist st → stretchLayers sqrt fuel kf kb st Ls = .ok (st', out) →
    Stretches ε most hist (Ls.flatMap (·.lines)) (out.flatMap (·.lines)) ∧
      List.Forall₂ (fun L L' => L' = { L with lines := L'.lines } ∧ L'.lines.length = L.lines.length) Ls out := by
  induction Ls with
  | nil =>
    intro hist st st' out hi h
    simp only [stretchLayers, Except.ok.injEq, Prod.mk.injEq] at h
    rw [← h.2]
    exact ⟨.done, .nil⟩
  | cons L Ls ih =>
    intro hist st st' out hi h
    rw [stretchLayers] at h
    cases h1 : stretchLayer sqrt fuel kf kb st L.lines 0 L.lines with
    | error er => rw [h1] at h; cases h
    | ok p =>
      rw [h1] at h
      simp only at h
      obtain ⟨k1, k2⟩ := stretchLayer_spec hs hlim hi h1
      cases h3 : stretchLayers sqrt fuel kf kb p.1 Ls with
      | error er => rw [h3] at h; cases h
      | ok q =>
        rw [h3] at h
        simp only [Except.ok.injEq, Prod.mk.injEq] at h
        obtain ⟨k3, k4⟩ := ih k1 h3
        rw [← h.2, List.flatMap_cons, List.flatMap_cons]
        exact ⟨stretches_append k2 k3, .cons ⟨rfl, (stretches_length k2).symm⟩ k4⟩

end GCodeUtils
