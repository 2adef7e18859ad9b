import Verif.Lemmas.Push
import Verif.Lemmas.StretchWidth

/-
  The displacements of a whole run of the filter.
-/

set_option linter.unusedSectionVars false

namespace GCodeUtils

open Spec

variable {α : Type} [Field α] [LinearOrder α] [IsStrictOrderedRing α] [FloorRing α]

theorem parseLine_push {sqrt : α → α} {fuel : ℕ} {kf kb : ItKind} {cur : List (PyLine α)} {n : ℕ}
    {most : LoopKind → α} {D : StretchDist α} (hlim : Limits most (some D)) {hist : List (PyLine α)}
    {st st' : StretchSt α} {l r : PyLine α} {same : Bool} (hi : StInv most (some D) hist st)
    (h : stretchParseLine sqrt fuel kf kb cur n st l = .ok (st', r, same)) {l' : PyLine α} (hr : reparse r = .ok l') :
    (∀ k, loopAt (hist ++ [l]) = some k → XYMove l → 0 < most k → same = false ∧
      ∃ (loc : Vec3 α) (a : Cx α), (⟨loc.x, loc.y⟩ : Cx α) = herePt (hist ++ [l]) ∧
        displacement sqrt fuel D (some loc) kf kb cur n (most k) ⟨loc.x, loc.y⟩ = .ok a ∧
        MovedBy a.re a.im (far sqrt a ⟨0, 0⟩) (hist ++ [l]) l l') ∧
    (same = true → r = l) := by
  unfold stretchParseLine at h
  cases hsw : loopSwitch st l with
  | error er => rw [hsw] at h; cases h
  | ok s1 =>
    rw [hsw] at h
    simp only at h
    obtain ⟨e1, e2, e3, e4, e5⟩ := loopSwitch_inv hlim hi hsw
    by_cases hb : (isXYMove l && s1.isLoop) = true
    · rw [if_pos hb] at h
      rw [Bool.and_eq_true] at hb
      have hxy := (isXYMove_iff l).1 hb.1
      obtain ⟨k, hk⟩ : ∃ k, loopAt (hist ++ [l]) = some k := Option.isSome_iff_exists.1 (by rw [← e2]; exact hb.2)
      have hsn := loopMoves_snoc hist l
      rw [if_pos ⟨by rw [hk]; simp, hxy⟩] at hsn
      have hfeed : (match l.f with | some f => if f ≠ 0 then f else s1.feed | none => s1.feed) =
          lastOr 959 ((loopMoves none (hist ++ [l])).filterMap (fun l => l.f.filter (· ≠ 0))) := by
        rw [hsn, filterMap_snoc, lastOr_snoc, e4, hi.feed]
        cases l.f with
        | none => rfl
        | some f =>
          by_cases hf : f ≠ 0
          · simp [Option.filter, hf]
          · simp [Option.filter, hf]
      have hx : (locationFromLine s1.old l).x = lastOr 0 ((loopMoves none (hist ++ [l])).filterMap (·.x)) := by
        rw [hsn, filterMap_snoc, lastOr_snoc, ← hi.oldx, e5]; rfl
      have hy : (locationFromLine s1.old l).y = lastOr 0 ((loopMoves none (hist ++ [l])).filterMap (·.y)) := by
        rw [hsn, filterMap_snoc, lastOr_snoc, ← hi.oldy, e5]; rfl
      unfold stretchLine at h
      simp only at h
      have htm : s1.tmax = most k := by rw [e3, hk]
      by_cases ht : 0 < s1.tmax
      · rw [if_pos ht, e1] at h
        simp only at h
        generalize hq : stretchedLine sqrt fuel D (some (locationFromLine s1.old l)) kf kb cur n s1.tmax (match l.f with | some f => if f ≠ 0 then f else s1.feed | none => s1.feed) (locationFromLine s1.old l) l = q at h
        cases q with
        | error er => cases h
        | ok q =>
          simp only [Except.ok.injEq, Prod.mk.injEq] at h
          obtain ⟨_, h2, h3⟩ := h
          refine ⟨fun k' hk' _ _ => ⟨h3.symm, ?_⟩, fun hc => by rw [← h3] at hc; cases hc⟩
          rw [hk] at hk'
          cases hk'
          subst h2
          unfold stretchedLine at hq
          simp only [bind, Except.bind] at hq
          generalize hdd : displacement sqrt fuel D (some (locationFromLine s1.old l)) kf kb cur n s1.tmax ⟨(locationFromLine s1.old l).x, (locationFromLine s1.old l).y⟩ = dd at hq
          cases dd with
          | error er => cases hq
          | ok a =>
            simp only [Except.ok.injEq] at hq
            have ea : far sqrt a ⟨0, 0⟩ = a.abs sqrt := by unfold far Cx.abs; simp
            refine ⟨locationFromLine s1.old l, a, by unfold herePt; rw [hx, hy], by rw [← htm]; exact hdd, ?_⟩
            rw [ea]
            obtain ⟨nn, hcmd, hnn⟩ := linear_gcode hxy
            obtain ⟨m, hm⟩ : ∃ m : PyLine α, m = ({ command := l.command, x := some ((locationFromLine s1.old l).x + a.re), y := some ((locationFromLine s1.old l).y + a.im), z := l.z, f := some (match l.f with | some f => if f ≠ 0 then f else s1.feed | none => s1.feed), e := l.e.map (fun e => e * (1 - a.abs sqrt)) } : PyLine α) := ⟨_, rfl⟩
            rw [← hm] at hq
            have hmc : m.command = some ('G' :: nn) := by rw [hm]; exact hcmd
            rw [← hq, reparse_unsplit m nn hmc hnn] at hr
            simp only [Except.ok.injEq] at hr
            have hraw : l'.raw = (unsplit m).raw := by rw [← hr]; rfl
            have e3' : (1 : α) / (2 * 10 ^ 3) = 5 / 10 ^ 4 := by norm_num
            have e5' : (1 : α) / (2 * 10 ^ 5) = 5 / 10 ^ 6 := by norm_num
            have mi : m.i = none := by rw [hm]
            have mj : m.j = none := by rw [hm]
            refine ⟨m, hraw, by rw [hm], by rw [hm, ← hx], by rw [hm, ← hy], by rw [hm], by rw [hm], by rw [hm, ← hfeed], mi, mj, ?_, ?_, ?_, ?_, ?_, ?_, ?_, ?_⟩
            · rw [← hr]; exact hmc.symm
            · rw [← hr, ← e3']; exact within_reread 3 _
            · rw [← hr, ← e3']; exact within_reread 3 _
            · rw [← hr, ← e3']; exact within_reread 3 _
            · rw [← hr, ← e5']; exact within_reread 5 _
            · rw [← hr, ← e3']; exact within_reread 3 _
            · rw [← hr]; simp [reread, unsplit, mi]
            · rw [← hr]; simp [reread, unsplit, mj]
      · rw [if_neg ht] at h
        simp only [Except.ok.injEq, Prod.mk.injEq] at h
        refine ⟨fun k' hk' _ hpos => ?_, fun _ => h.2.1.symm⟩
        rw [hk] at hk'
        cases hk'
        exact absurd (by rw [htm]; exact hpos) ht
    · rw [if_neg hb] at h
      simp only [Except.ok.injEq, Prod.mk.injEq] at h
      refine ⟨fun k hk hxy _ => ?_, fun _ => h.2.1.symm⟩
      exact absurd (by rw [Bool.and_eq_true]; exact ⟨(isXYMove_iff l).2 hxy, by rw [e2, hk]; rfl⟩) hb

/-- The list that the iterators look at, when the lines before `n` have been done: lines that were not stretched have been read
again. -/
structure CurInv (most : LoopKind → α) (hist orig : List (PyLine α)) (n : ℕ) (cur : List (PyLine α)) : Prop where
  len : cur.length = orig.length
  later : ∀ j, n ≤ j → cur[j]? = orig[j]?
  earlier : ∀ (j : ℕ) (l c : PyLine α), j < n → orig[j]? = some l → cur[j]? = some c →
    c = l ∨ (reparse l = .ok c ∧ ¬ (XYMove l ∧ ∃ k, loopAt (hist ++ orig.take (j + 1)) = some k ∧ 0 < most k))

theorem layer_push {ε : α} {sqrt : α → α} (hs : IsSqrt ε sqrt) {fuel : ℕ} {kf kb : ItKind} {most : LoopKind → α} {D : StretchDist α}
    (hlim : Limits most (some D)) {hist : List (PyLine α)} {orig : List (PyLine α)} : ∀ (todo done : List (PyLine α)), orig = done ++ todo →
    ∀ {cur : List (PyLine α)} {st st' : StretchSt α} {out : List (PyLine α)}, StInv most (some D) (hist ++ done) st →
    CurInv most hist orig done.length cur → stretchLayer sqrt fuel kf kb st cur done.length todo = .ok (st', out) →
    out.length = todo.length ∧ ∀ (m : ℕ) (l : PyLine α) (k : LoopKind), done.length ≤ m → orig[m]? = some l → loopAt (hist ++ orig.take (m + 1)) = some k → XYMove l → 0 < most k →
      ∃ (c : List (PyLine α)) (loc : Vec3 α) (a : Cx α) (l' : PyLine α), CurInv most hist orig m c ∧ out[m - done.length]? = some l' ∧
        (⟨loc.x, loc.y⟩ : Cx α) = herePt (hist ++ orig.take (m + 1)) ∧
        displacement sqrt fuel D (some loc) kf kb c m (most k) ⟨loc.x, loc.y⟩ = .ok a ∧
        MovedBy a.re a.im (far sqrt a ⟨0, 0⟩) (hist ++ orig.take (m + 1)) l l' := by
  intro todo
  induction todo with
  | nil =>
    intro done ho cur st st' out hi hc h
    simp only [stretchLayer, Except.ok.injEq, Prod.mk.injEq] at h
    refine ⟨by rw [← h.2], fun m l k hm hl => ?_⟩
    have := (List.getElem?_eq_some_iff.1 hl).1
    rw [ho, List.append_nil] at this
    omega
  | cons l todo ih =>
    intro done ho cur st st' out hi hc h
    rw [stretchLayer] at h
    cases h1 : stretchParseLine sqrt fuel kf kb cur done.length st l with
    | error er => rw [h1] at h; cases h
    | ok p =>
      obtain ⟨s1, r, same⟩ := p
      rw [h1] at h
      simp only at h
      cases h2 : reparse r with
      | error er => rw [h2] at h; cases h
      | ok l' =>
        rw [h2] at h
        simp only at h
        obtain ⟨hi', _⟩ := parseLine_spec hs hlim hi h1 h2
        obtain ⟨hp, hsame⟩ := parseLine_push hlim hi h1 h2
        cases h3 : stretchLayer sqrt fuel kf kb s1 (if same = true then cur.set done.length l' else cur) (done.length + 1) todo with
        | error er => rw [h3] at h; cases h
        | ok q =>
          rw [h3] at h
          simp only [Except.ok.injEq, Prod.mk.injEq] at h
          have hol : orig[done.length]? = some l := by rw [ho]; simp
          have hot : hist ++ orig.take (done.length + 1) = (hist ++ done) ++ [l] := by
            rw [ho, List.take_append, List.take_of_length_le (by omega)]
            simp
          have hc' : CurInv most hist orig (done ++ [l]).length (if same = true then cur.set done.length l' else cur) := by
            rw [List.length_append, List.length_singleton]
            refine ⟨?_, ?_, ?_⟩
            · split_ifs
              · rw [List.length_set]; exact hc.len
              · exact hc.len
            · intro j hj
              split_ifs
              · rw [List.getElem?_set_ne (by omega)]; exact hc.later j (by omega)
              · exact hc.later j (by omega)
            · intro j x c hj hx hcj
              by_cases hjd : j = done.length
              · subst hjd
                rw [hol] at hx
                cases hx
                by_cases hsm : same = true
                · rw [if_pos hsm, List.getElem?_set_self (by rw [hc.len]; exact (List.getElem?_eq_some_iff.1 hol).1)] at hcj
                  cases hcj
                  right
                  refine ⟨by rw [← hsame hsm]; exact h2, ?_⟩
                  rintro ⟨hxy, k, hk, hpos⟩
                  rw [hot] at hk
                  have := (hp k hk hxy hpos).1
                  rw [this] at hsm
                  cases hsm
                · rw [if_neg hsm, hc.later _ le_rfl, hol] at hcj
                  cases hcj
                  exact .inl rfl
              · have hcj' : cur[j]? = some c := by
                  split_ifs at hcj
                  · rwa [List.getElem?_set_ne (by omega)] at hcj
                  · exact hcj
                exact hc.earlier j x c (by omega) hx hcj'
          have hlen1 : (done ++ [l]).length = done.length + 1 := by simp
          obtain ⟨k1, k2⟩ := ih (done ++ [l]) (by rw [ho]; simp) (by rw [← List.append_assoc]; exact hi') hc' (by rw [hlen1]; exact h3)
          rw [← h.2]
          refine ⟨by simp [k1], fun m x k hm hx hk hxy hpos => ?_⟩
          by_cases hmd : m = done.length
          · subst hmd
            rw [hol] at hx
            cases hx
            rw [hot] at hk ⊢
            obtain ⟨_, loc, a, b1, b2, b3⟩ := hp k hk hxy hpos
            exact ⟨cur, loc, a, l', hc, by simp, b1, b2, b3⟩
          · obtain ⟨c, loc, a, y, b1, b2, b3, b4, b5⟩ := k2 m x k (by rw [hlen1]; omega) hx hk hxy hpos
            refine ⟨c, loc, a, y, b1, ?_, b3, b4, b5⟩
            rw [hlen1] at b2
            rw [show m - done.length = (m - (done.length + 1)) + 1 by omega, List.getElem?_cons_succ]
            exact b2

theorem layers_push {ε : α} {sqrt : α → α} (hs : IsSqrt ε sqrt) {fuel : ℕ} {kf kb : ItKind} {most : LoopKind → α} {D : StretchDist α}
    (hlim : Limits most (some D)) : ∀ (Ls : List (Layer α)) {hist : List (PyLine α)} {st st' : StretchSt α} {out : List (Layer α)},
    StInv most (some D) hist st → stretchLayers sqrt fuel kf kb st Ls = .ok (st', out) →
    ∀ (i m : ℕ) (L L' : Layer α) (l : PyLine α) (k : LoopKind), Ls[i]? = some L → out[i]? = some L' → L.lines[m]? = some l →
      loopAt (hist ++ linesOf (Ls.take i) ++ L.lines.take (m + 1)) = some k → XYMove l → 0 < most k →
      ∃ (c : List (PyLine α)) (loc : Vec3 α) (a : Cx α) (l' : PyLine α), CurInv most (hist ++ linesOf (Ls.take i)) L.lines m c ∧ L'.lines[m]? = some l' ∧
        (⟨loc.x, loc.y⟩ : Cx α) = herePt (hist ++ linesOf (Ls.take i) ++ L.lines.take (m + 1)) ∧
        displacement sqrt fuel D (some loc) kf kb c m (most k) ⟨loc.x, loc.y⟩ = .ok a ∧
        MovedBy a.re a.im (far sqrt a ⟨0, 0⟩) (hist ++ linesOf (Ls.take i) ++ L.lines.take (m + 1)) l l' := by
  intro Ls
  induction Ls with
  | nil => intro hist st st' out _ _ i m L L' l k hL; simp at hL
  | cons L0 Ls ih =>
    intro hist st st' out hi h i m L L' l k hL hL' hl hk hxy hpos
    rw [stretchLayers] at h
    cases h1 : stretchLayer sqrt fuel kf kb st L0.lines 0 L0.lines with
    | error er => rw [h1] at h; cases h
    | ok p =>
      rw [h1] at h
      simp only at h
      obtain ⟨hi', _⟩ := stretchLayer_spec hs hlim hi h1
      cases h3 : stretchLayers sqrt fuel kf kb p.1 Ls with
      | error er => rw [h3] at h; cases h
      | ok q =>
        rw [h3] at h
        simp only [Except.ok.injEq, Prod.mk.injEq] at h
        rw [← h.2] at hL'
        cases i with
        | zero =>
          simp only [List.getElem?_cons_zero, Option.some.injEq] at hL hL'
          subst hL
          have e : hist ++ linesOf ((L0 :: Ls).take 0) = hist := by simp [linesOf]
          rw [e] at hk ⊢
          have hc0 : CurInv most hist L0.lines ([] : List (PyLine α)).length L0.lines := ⟨rfl, fun _ _ => rfl, fun j x c hj => by simp at hj⟩
          obtain ⟨c, loc, a, y, b1, b2, b3, b4, b5⟩ := (layer_push hs hlim L0.lines [] rfl (by simpa using hi) hc0 h1).2 m l k (by simp) hl hk hxy hpos
          refine ⟨c, loc, a, y, b1, ?_, b3, b4, b5⟩
          rw [← hL']
          simpa using b2
        | succ i =>
          simp only [List.getElem?_cons_succ] at hL hL'
          have e : hist ++ linesOf ((L0 :: Ls).take (i + 1)) = hist ++ L0.lines ++ linesOf (Ls.take i) := by simp [linesOf]
          rw [e] at hk ⊢
          exact ih hi' h3 i m L L' l k hL hL' hl hk hxy hpos

/-! ### what the iterators see -/

/-- Two lists in which the same X/Y moves stand at the same places, from line `s` on, and all texts are the same. -/
structure Alike (s : ℕ) (a b : List (PyLine α)) : Prop where
  len : a.length = b.length
  raw : ∀ (j : ℕ) (x y : PyLine α), a[j]? = some x → b[j]? = some y → x.raw = y.raw
  same : ∀ (j : ℕ) (x y : PyLine α), s ≤ j → a[j]? = some x → b[j]? = some y → (XYMove x ∧ x = y) ∨ (¬ XYMove x ∧ ¬ XYMove y)

theorem alike_get {s : ℕ} {a b : List (PyLine α)} (h : Alike s a b) {j : ℕ} {x : PyLine α} (hx : a[j]? = some x) : ∃ y, b[j]? = some y :=
  ⟨b[j]'(by rw [← h.len]; exact (List.getElem?_eq_some_iff.1 hx).1), List.getElem?_eq_getElem _⟩

theorem alike_symm {s : ℕ} {a b : List (PyLine α)} (h : Alike s a b) : Alike s b a :=
  ⟨h.len.symm, fun j x y hx hy => (h.raw j y x hy hx).symm, fun j x y hj hx hy => by
    rcases h.same j y x hj hy hx with ⟨h1, h2⟩ | ⟨h1, h2⟩
    · exact .inl ⟨h2 ▸ h1, h2.symm⟩
    · exact .inr ⟨h2, h1⟩⟩

theorem alike_moves {s : ℕ} {a b : List (PyLine α)} (h : Alike s a b) : ∀ (d i j : ℕ), j - i = d → s ≤ i → movesIn a i j = movesIn b i j := by
  intro d
  induction d with
  | zero => intro i j hd _; rw [movesIn_nil a (by omega), movesIn_nil b (by omega)]
  | succ d ih =>
    intro i j hd hi
    cases hx : a[i]? with
    | none =>
      have h1 : a.length ≤ i := List.getElem?_eq_none_iff.1 hx
      have h2 : b.length ≤ i := by rw [← h.len]; exact h1
      unfold movesIn
      rw [List.drop_of_length_le (by simp; omega), List.drop_of_length_le (by simp; omega)]
    | some x =>
      obtain ⟨y, hy⟩ := alike_get h hx
      rw [movesIn_cons a (by omega) hx, movesIn_cons b (by omega) hy, ih (i + 1) j (by omega) (by omega)]
      rcases h.same i x y hi hx hy with ⟨h1, h2⟩ | ⟨h1, h2⟩
      · subst h2; rfl
      · rw [if_neg h1, if_neg h2]

theorem alike_cura {s k : ℕ} {a b : List (PyLine α)} (h : Alike s a b) (hl : CuraLoop a s k) : CuraLoop b s k := by
  obtain ⟨x0, a1, a2, a3⟩ := hl.first
  obtain ⟨x1, b1, b2⟩ := hl.last
  obtain ⟨x2, c1, c2⟩ := hl.stop
  obtain ⟨y0, hy0⟩ := alike_get h a1
  obtain ⟨y1, hy1⟩ := alike_get h b1
  obtain ⟨y2, hy2⟩ := alike_get h c1
  have hlt := hl.lt
  refine ⟨hl.lt, ⟨y0, hy0, ?_, by rw [← h.raw _ _ _ a1 hy0]; exact a3⟩, ⟨y1, hy1, ?_⟩, ⟨y2, hy2, by rw [← h.raw _ _ _ c1 hy2]; exact c2⟩, ?_, ?_⟩
  · rcases h.same s x0 y0 le_rfl a1 hy0 with ⟨_, h2⟩ | ⟨h1, _⟩
    · rw [← h2]; exact a2
    · exact absurd a2 h1
  · rcases h.same (k - 1) x1 y1 (by omega) b1 hy1 with ⟨_, h2⟩ | ⟨h1, _⟩
    · rw [← h2]; exact b2
    · exact absurd b2 h1
  · intro i y h1 h2 hy
    obtain ⟨x, hx⟩ := alike_get (alike_symm h) hy
    rw [← h.raw _ _ _ hx hy]
    exact hl.noStart i x h1 h2 hx
  · intro i y h1 h2 hy
    obtain ⟨x, hx⟩ := alike_get (alike_symm h) hy
    rw [← h.raw _ _ _ hx hy]
    exact hl.noStop i x h1 h2 hx

theorem alike_slic3r {s o : ℕ} {a b : List (PyLine α)} (h : Alike s a b) (hl : Slic3rLoop a s o) : Slic3rLoop b s o := by
  obtain ⟨x0, a1, a2, a3⟩ := hl.first
  obtain ⟨x1, b1, b2⟩ := hl.last
  obtain ⟨x2, c1, c2⟩ := hl.off
  obtain ⟨y0, hy0⟩ := alike_get h a1
  obtain ⟨y1, hy1⟩ := alike_get h b1
  obtain ⟨y2, hy2⟩ := alike_get h c1
  have hlt := hl.lt
  refine ⟨hl.lt, ⟨y0, hy0, ?_, by rw [← h.raw _ _ _ a1 hy0]; exact a3⟩, ⟨y1, hy1, ?_⟩, ⟨y2, hy2, by rw [← h.raw _ _ _ c1 hy2]; exact c2⟩, ?_, ?_⟩
  · rcases h.same s x0 y0 le_rfl a1 hy0 with ⟨_, h2⟩ | ⟨h1, _⟩
    · rw [← h2]; exact a2
    · exact absurd a2 h1
  · rcases h.same (o - 1) x1 y1 (by omega) b1 hy1 with ⟨_, h2⟩ | ⟨h1, _⟩
    · rw [← h2]; exact b2
    · exact absurd b2 h1
  · intro i y h1 h2 hy
    obtain ⟨x, hx⟩ := alike_get (alike_symm h) hy
    rw [← h.raw _ _ _ hx hy]
    exact hl.noStart i x h1 h2 hx
  · intro i y h1 h2 hy
    obtain ⟨x, hx⟩ := alike_get (alike_symm h) hy
    rw [← h.raw _ _ _ hx hy]
    exact hl.noOff i x h1 h2 hx

theorem loopStep_back {st : Option LoopKind} {l : PyLine α} {k : LoopKind} (h : loopStep st l = some k) (hl : ¬ c!"stretch-loop-start" <:+: l.raw) : st = some k := by
  unfold loopStep at h
  have e1 : c!"stretch-loop-start" <:+: c!"stretch-loop-start stretch-inner-edge-start" := ⟨[], c!" stretch-inner-edge-start", by decide⟩
  have e2 : c!"stretch-loop-start" <:+: c!"stretch-loop-start stretch-outer-edge-start" := ⟨[], c!" stretch-outer-edge-start", by decide⟩
  rw [if_neg (fun hc => hl (e1.trans hc)), if_neg (fun hc => hl (e2.trans hc)), if_neg hl] at h
  split_ifs at h
  exact h

/-- Between the start of a loop and a line of it, all lines belong to it. -/
theorem loopAt_back {hist orig : List (PyLine α)} {s n : ℕ} {k : LoopKind} (hn : n < orig.length) (hk : loopAt (hist ++ orig.take (n + 1)) = some k)
    (hno : ∀ i l, s < i → i ≤ n → orig[i]? = some l → ¬ c!"stretch-loop-start" <:+: l.raw) : ∀ d j, n - j = d → s ≤ j → j ≤ n → loopAt (hist ++ orig.take (j + 1)) = some k := by
  intro d
  induction d with
  | zero => intro j hd _ hj; rw [show j = n by omega]; exact hk
  | succ d ih =>
    intro j hd hs hj
    have h1 := ih (j + 1) (by omega) (by omega) (by omega)
    have hl : orig[j + 1]? = some (orig[j + 1]'(by omega)) := List.getElem?_eq_getElem _
    rw [List.take_add_one, hl, ← List.append_assoc] at h1
    simp only [Option.toList_some] at h1
    rw [loopAt_snoc] at h1
    exact loopStep_back h1 (hno (j + 1) _ (by omega) (by omega) hl)

theorem cur_alike {most : LoopKind → α} {hist orig cur : List (PyLine α)} {s n : ℕ} (hc : CurInv most hist orig n cur) {k : LoopKind} (hn : n < orig.length)
    (hk : loopAt (hist ++ orig.take (n + 1)) = some k) (hpos : 0 < most k)
    (hno : ∀ i l, s < i → i ≤ n → orig[i]? = some l → ¬ c!"stretch-loop-start" <:+: l.raw)
    (hrb : ∀ j l, s ≤ j → j < n → orig[j]? = some l → ReadsBack l) : Alike s orig cur := by
  refine ⟨hc.len.symm, ?_, ?_⟩
  · intro j x y hx hy
    by_cases hj : j < n
    · rcases hc.earlier j x y hj hx hy with h | ⟨h, _⟩
      · rw [h]
      · exact (reparse_raw h).symm
    · rw [hc.later j (by omega), hx] at hy
      cases hy
      rfl
  · intro j x y hs hx hy
    by_cases hj : j < n
    · rcases hc.earlier j x y hj hx hy with h | ⟨h, hno'⟩
      · subst h
        by_cases hxy : XYMove y
        · exact .inl ⟨hxy, rfl⟩
        · exact .inr ⟨hxy, hxy⟩
      · have hxy : ¬ XYMove x := fun hxy => hno' ⟨hxy, k, loopAt_back hn hk hno (n - j) j rfl hs hj.le, hpos⟩
        exact .inr ⟨hxy, fun hy' => hxy (hrb j x hs hj hx y h hy')⟩
    · rw [hc.later j (by omega), hx] at hy
      cases hy
      by_cases hxy : XYMove x
      · exact .inl ⟨hxy, rfl⟩
      · exact .inr ⟨hxy, hxy⟩

theorem cura_pushed {sqrt : α → α} {fuel : ℕ} {D : StretchDist α} (hp : Proper D) (hd : 0 < D.fromDist) {most : LoopKind → α} {hist orig cur : List (PyLine α)} {s k n : ℕ}
    (hl : CuraLoop orig s k) (h1 : s ≤ n) (h2 : n < k) {l : PyLine α} (hn : orig[n]? = some l) (hx : XYMove l) (hc : CurInv most hist orig n cur) {K : LoopKind}
    (hk : loopAt (hist ++ orig.take (n + 1)) = some K) (hpos : 0 < most K) (hrb : ∀ j l, s ≤ j → j < n → orig[j]? = some l → ReadsBack l) {loc : Vec3 α} {δ : Cx α}
    (h : displacement sqrt fuel D (some loc) .curaFwd .curaBwd cur n (most K) ⟨loc.x, loc.y⟩ = .ok δ) :
    PushedBy sqrt D.fromDist D.crossLimit (most K) ⟨loc.x, loc.y⟩ ((curaAhead orig s k n).map (goal ⟨loc.x, loc.y⟩)) ((curaBehind orig s k n).map (goal ⟨loc.x, loc.y⟩)) δ := by
  have ha := cur_alike hc (List.getElem?_eq_some_iff.1 hn).1 hk hpos (fun i l a b => hl.noStart i l a (by omega)) hrb
  have hl' := alike_cura ha hl
  have hn' : cur[n]? = some l := by rw [hc.later n le_rfl, hn]
  have e1 : curaAhead cur s k n = curaAhead orig s k n := by
    unfold curaAhead
    rw [alike_moves ha _ (n + 1) k rfl (by omega), alike_moves ha _ s (n + 1) rfl le_rfl]
  have e2 : curaBehind cur s k n = curaBehind orig s k n := by
    unfold curaBehind
    rw [alike_moves ha _ s n rfl le_rfl, alike_moves ha _ n k rfl h1]
  rw [← e1, ← e2]
  exact displacement_pushed hp hd (cura_ahead hl' h1 h2 hn' hx) (cura_behind hl' h1 h2 hn' hx) h

theorem slic3r_pushed {sqrt : α → α} {fuel : ℕ} {D : StretchDist α} (hp : Proper D) (hd : 0 < D.fromDist) {most : LoopKind → α} {hist orig cur : List (PyLine α)} {s o n : ℕ}
    (hl : Slic3rLoop orig s o) (h1 : s ≤ n) (h2 : n < o) {l : PyLine α} (hn : orig[n]? = some l) (hx : XYMove l) (hc : CurInv most hist orig n cur) {K : LoopKind}
    (hk : loopAt (hist ++ orig.take (n + 1)) = some K) (hpos : 0 < most K) (hrb : ∀ j l, s ≤ j → j < n → orig[j]? = some l → ReadsBack l) {loc : Vec3 α} {δ : Cx α}
    (h : displacement sqrt fuel D (some loc) .fwd .bwd cur n (most K) ⟨loc.x, loc.y⟩ = .ok δ) :
    PushedBy sqrt D.fromDist D.crossLimit (most K) ⟨loc.x, loc.y⟩ ((slic3rAhead orig s o n).map (goal ⟨loc.x, loc.y⟩)) ((slic3rBehind orig s o n).map (goal ⟨loc.x, loc.y⟩)) δ := by
  have ha := cur_alike hc (List.getElem?_eq_some_iff.1 hn).1 hk hpos (fun i l a b => hl.noStart i l a (by omega)) hrb
  have hl' := alike_slic3r ha hl
  have hn' : cur[n]? = some l := by rw [hc.later n le_rfl, hn]
  have e1 : slic3rAhead cur s o n = slic3rAhead orig s o n := by
    unfold slic3rAhead
    rw [alike_moves ha _ (n + 1) o rfl (by omega), alike_moves ha _ (s + 1) (n + 1) rfl (by omega)]
  have e2 : slic3rBehind cur s o n = slic3rBehind orig s o n := by
    unfold slic3rBehind
    rw [alike_moves ha _ s n rfl le_rfl, alike_moves ha _ n (o - 1) rfl h1]
  rw [← e1, ← e2]
  exact displacement_pushed hp hd (slic3r_ahead hl' h1 h2 hn' hx) (slic3r_behind hl' h1 h2 hn' hx) h

end GCodeUtils
