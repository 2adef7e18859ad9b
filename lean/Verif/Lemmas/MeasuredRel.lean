import Verif.Lemmas.Measured
import Verif.Lemmas.Commute
import Verif.Lemmas.SavedFilters

/-
  The loader on a program and on the same program converted to relative extrusion: one line.
-/

set_option linter.unusedSectionVars false

namespace GCodeUtils

open Spec

variable {α : Type} [Field α] [LinearOrder α] [IsStrictOrderedRing α] [FloorRing α]

/-! ### the two programs in lockstep -/

/-- A rebuilt line, read again: all its words. -/
theorem rebuilt_all {home : Home α} {k l1 : PyLine α} {m m' : Machine α} (h : Rebuilds k)
    (hok : processLine home m { raw := (unsplit k).raw } = .ok (m', l1)) (hm : m.imperial = false) :
    l1.x = k.x.map (fixedVal 3) ∧ l1.y = k.y.map (fixedVal 3) ∧ l1.z = k.z.map (fixedVal 3) ∧ l1.f = k.f.map (fixedVal 3) ∧
      l1.i = k.i.map (fixedVal 3) ∧ l1.j = k.j.map (fixedVal 3) := by
  obtain ⟨n, hcmd, hn⟩ := rebuilds_number h
  have hne20 : ∀ n ∈ [c!"0", c!"1", c!"2", c!"3", c!"92"], 'G' :: n ≠ c!"G20" ∧ 'G' :: n ≠ c!"G4" := by decide
  have hf := findall_unsplit k 'G' n (by decide) hcmd (numLen_rebuilds hn).1
  have hd : dropN (findall (lower (unsplit k).raw)) = some ('g', n) :: lineToks k := by rw [hf]; rfl
  have hG : ('g' : Char).toUpper = 'G' := by decide
  have p1 := parse_unsplit k n hcmd (numLen_rebuilds hn).1 false
  have hc1 : l1.command = some ('G' :: n) := by
    rw [(processLine_keeps hok).2.1, split_eq ({ raw := (unsplit k).raw } : PyLine α) hd, hG]
  have him : m'.imperial = false := by
    rw [(process_imperial hok).1, hc1, if_neg (by simpa using (hne20 n hn).1), hm]; split_ifs <;> rfl
  unfold parseCoordinates at p1
  have hcr : (split ({ raw := (unsplit k).raw } : PyLine α)).1.command = some ('G' :: n) := by
    rw [split_eq ({ raw := (unsplit k).raw } : PyLine α) hd, hG]
  rw [hcr] at p1
  simp only [List.head?_cons, ne_eq, not_true, if_false] at p1
  have hw : words (unsplit k).raw = ((split ({ raw := (unsplit k).raw } : PyLine α)).2).filterMap id := by
    rw [split_eq ({ raw := (unsplit k).raw } : PyLine α) hd]
    unfold words
    rw [hf]; rfl
  have key : ∀ c ∈ c!"xyzefij", l1.arg c = (reread (1 : α) k { raw := (unsplit k).raw, command := some ('G' :: n), isMove := moveGcodes.contains ('G' :: n) }).arg c := by
    intro c hk
    have e1 := (process_imperial hok).2 _ hc1 rfl c hk
    rw [him] at e1
    simp only [Bool.false_eq_true, if_false] at e1
    have e2 := fold_arg _ p1 c hk
    have hz : (split ({ raw := (unsplit k).raw } : PyLine α)).1.arg c = none := by
      rw [split_eq ({ raw := (unsplit k).raw } : PyLine α) hd]
      simp only [List.mem_cons, List.not_mem_nil, or_false] at hk
      rcases hk with rfl | rfl | rfl | rfl | rfl | rfl | rfl <;> rfl
    rw [hz, ← hw] at e2
    simp only [Bool.false_eq_true, if_false, Option.or_none] at e2
    rw [e1, ← e2]
  refine ⟨?_, ?_, ?_, ?_, ?_, ?_⟩
  · rw [show l1.x = _ from key 'x' (by decide)]; simp [PyLine.arg, reread]
  · rw [show l1.y = _ from key 'y' (by decide)]; simp [PyLine.arg, reread]
  · rw [show l1.z = _ from key 'z' (by decide)]; simp [PyLine.arg, reread]
  · rw [show l1.f = _ from key 'f' (by decide)]; simp [PyLine.arg, reread]
  · rw [show l1.i = _ from key 'i' (by decide)]; simp [PyLine.arg, reread]
  · rw [show l1.j = _ from key 'j' (by decide)]; simp [PyLine.arg, reread]

theorem rebuilt_words {home : Home α} {k l1 : PyLine α} {m m' : Machine α} (h : Rebuilds k)
    (hok : processLine home m { raw := (unsplit k).raw } = .ok (m', l1)) (hm : m.imperial = false) :
    l1.x = k.x.map (fixedVal 3) ∧ l1.y = k.y.map (fixedVal 3) ∧ l1.z = k.z.map (fixedVal 3) ∧ l1.f = k.f.map (fixedVal 3) := by
  obtain ⟨h1, h2, h3, h4, _⟩ := rebuilt_all h hok hm
  exact ⟨h1, h2, h3, h4⟩

/-- The state after the same number of lines of a program and of its conversion.  `fresh`: no move had an E word so far. -/
structure RelPair (A fresh : Prop) (t : EModeSt) (s : RelSt α) (b b' : BuildSt α) : Prop where
  place : SamePlace b.m b'.m
  tot : b'.m.totalE = b.m.totalE
  mx : b'.m.maxE = b.m.maxE
  off : b.m.offsetE = 0
  rel : t.known = true → b.m.relativeE = t.rel ∧ b'.m.relativeE = true
  srel : s.relative = t.rel
  cur : t.synced = true → s.current = b.m.currentE
  short : ∃ k : ℤ, s.current = k / 10 ^ 5
  imp : b.m.imperial = false
  bb : b'.bb = b.bb
  ls : LayerSame A b.ls b'.ls
  ds : DurSame A b.ds b'.ds
  done : b'.done.length = b.done.length
  laste : A → t.synced = true → b.ds.laste = s.current
  zero : fresh → b.m.currentE = 0 ∧ b.ds.laste = 0

theorem relEAfter_eq {c : Option Str} (h : ∀ k ∈ [c!"G90", c!"G91", c!"M82", c!"M83"], c ≠ some k) (b : Bool) : relEAfter c b = b := by
  unfold relEAfter
  rw [if_neg (h _ (by simp)), if_neg (h _ (by simp)), if_neg (h _ (by simp)), if_neg (h _ (by simp))]

theorem imp_after {home : Home α} {m n : Machine α} {r : Str} {l : PyLine α} (h : processLine home m { raw := r } = .ok (n, l)) (hm : m.imperial = false)
    (h20 : ¬ HasCmd l c!"G20") : n.imperial = false := by
  rw [(process_imperial h).1, if_neg (by exact h20), hm]; split_ifs <;> rfl

/-- A line that stays as it is and does not push filament. -/
theorem conv_still {A fresh fresh' : Prop} {env : Env α} {home : Home α} {t t1 : EModeSt} {s s1 : RelSt α} {b b' b1 : BuildSt α} {l : PyLine α}
    (C : RelPair A fresh t s b b') (hb : buildStep env false home b { raw := l.raw } = .ok b1) (hp : processLine home b.m { raw := l.raw } = .ok (b1.m, l))
    (h20 : ¬ HasCmd l c!"G20") (he : ¬ IsMove l ∨ l.e = none) (hz : HasCmd l c!"G92" → l.e = none ∨ l.e = some 0)
    (h1 : t1.known = true → relEAfter l.command b.m.relativeE = t1.rel ∧ relEAfter l.command b'.m.relativeE = true) (h2 : s1.relative = t1.rel)
    (h3 : t1.synced = true → s1.current = b.m.currentE) (h4 : ∃ k : ℤ, s1.current = k / 10 ^ 5) (h5 : A → t1.synced = true → b.ds.laste = s1.current)
    (h6 : fresh' → fresh) :
    ∃ b1', buildStep env false home b' { raw := l.raw } = .ok b1' ∧ RelPair A fresh' t1 s1 b1 b1' := by
  obtain ⟨n', l', hp', ⟨a1, a2, a3, a4, a5, a6, _⟩, _⟩ := processLine_free (home' := home) hp (m1 := b'.m) C.place.imperial
  obtain ⟨p1, q⟩ := processLine_head hp hp' C.place a1.symm a2.symm a3.symm a4.symm a6.symm
  have im := isMove_iff hp
  have im' := isMove_iff hp'
  obtain ⟨e1, e2, e3, e4⟩ := processLine_E hp
  obtain ⟨e1', e2', e3', e4'⟩ := processLine_E hp'
  have k1 : l.isMove = false ∨ l.e = none := by
    rcases he with he | he
    · left; by_contra hh; exact he (im.1 (by simpa using hh))
    · exact .inr he
  have k2 : l'.isMove = false ∨ l'.e = none := by rw [q.isMove, ← a5]; exact k1
  obtain ⟨u1, u2, u3, u4⟩ := e3 k1
  obtain ⟨v1, v2, v3, v4⟩ := e3' k2
  have hss : SameStep l l' := ⟨.inl q.command, q.isMove, q.x, q.y, q.z, q.f, q.relative, q.cx, q.cy, by rw [u4, v4], fun _ => (processLine_keeps hp').1⟩
  have hG : l.command = some c!"G0" ∨ l.command = some c!"G1" → l.e = none := by
    intro k
    rcases he with he | he
    · refine absurd ?_ he
      rcases k with k | k <;> exact ⟨_, by simp, k⟩
    · exact he
  obtain ⟨w1, w2, b1', w3, w4, w5, w6, w7, w8⟩ := build_pair hb hp hp' hss (by rw [v3, u3, C.mx]) C.bb C.ls C.ds C.done
    (fun _ k => .inl ⟨hG k, by rw [← a5]; exact hG k⟩)
  have hla : b1.ds.laste = b.ds.laste := by
    rw [w2]
    split_ifs with k
    · rw [hG k]; rfl
    · rfl
  refine ⟨b1', w3, ⟨by rw [w4]; exact p1, by rw [w4, v1, u1, C.tot], by rw [w4, v3, u3, C.mx], ?_, ?_, h2, ?_, h4, imp_after hp C.imp h20, w5, w6, w7, w8, ?_, ?_⟩⟩
  · by_cases hm : l.isMove = true
    · rw [(e2 hm).2.1, C.off]
    · rw [e4 (by simpa using hm)]
      split_ifs with k
      · rcases hz k with k' | k' <;> rw [k'] <;> first | exact C.off | rfl
      · exact C.off
  · intro k
    rw [w4, e1, e1', q.command]
    exact h1 k
  · intro k; rw [u2]; exact h3 k
  · intro a k; rw [hla]; exact h5 a k
  · intro k; rw [u2, hla]; exact C.zero (h6 k)

theorem process_m83 (home : Home α) (m : Machine α) :
    ∃ l' : PyLine α, processLine home m { raw := c!"M83" } = .ok ({ m with relativeE := true }, l') ∧ l'.command = some c!"M83" ∧ l'.isMove = false ∧
      l'.x = none ∧ l'.y = none ∧ l'.z = none ∧ l'.f = none ∧ l'.e = none ∧ l'.extruding = none := by
  exact ⟨_, by with_unfolding_all rfl, by with_unfolding_all exact ⟨rfl, rfl, rfl, rfl, rfl, rfl, rfl, rfl⟩⟩

/-- `M82` has no words and does nothing but set the extrusion mode. -/
theorem process_m82 {home : Home α} {m n : Machine α} {r : Str} {l : PyLine α} (h : processLine home m { raw := r } = .ok (n, l)) (hc : l.command = some c!"M82") :
    SamePlace m n ∧ n.totalE = m.totalE ∧ n.maxE = m.maxE ∧ n.currentE = m.currentE ∧ n.offsetE = m.offsetE ∧ n.relativeE = false ∧
      l.x = none ∧ l.y = none ∧ l.z = none ∧ l.f = none ∧ l.e = none ∧ l.extruding = none ∧ l.isMove = false := by
  obtain ⟨e1, e2, e3, e4⟩ := processLine_E h
  have nm : l.isMove = false := by
    by_contra hh
    obtain ⟨c, h1, h2⟩ := (isMove_iff h).1 (by simpa using hh)
    rw [hc, Option.some.injEq] at h2
    subst h2
    revert h1; decide
  obtain ⟨u1, u2, u3, u4⟩ := e3 (.inl nm)
  have e1 := e1
  rw [hc] at e1
  have off := e4 nm
  rw [hc, if_neg (by decide)] at off
  obtain ⟨_, hcw, h3, _⟩ := C76_line home h _ ((findall_reads (lower r) _).1 rfl)
  have hne : ¬ (commandOf r (findall (lower r))).bind (·.head?) = some 'G' := by
    rw [← hcw, hc]; decide
  have w : ∀ k ∈ c!"xyzefij", l.arg k = none := by
    intro k hk
    have := h3 hne k hk
    rw [argField_arg] at this
    exact this
  refine ⟨?_, u1, u3, u2, off, e1, w 'x' (by decide), w 'y' (by decide), w 'z' (by decide), w 'f' (by decide), w 'e' (by decide), u4, nm⟩
  have hk := processLine_keeps h
  rcases processLine_ok h with ⟨hn, rfl, rfl⟩ | ⟨cmd, hcm, hne, m1, l1, l2, m3, l3, h1, h2, h3, rfl, rfl⟩
  · exact ⟨rfl, rfl, rfl, rfl, rfl, rfl, rfl, rfl, rfl⟩
  · rw [hk.2.1, hcm, Option.some.injEq] at hc
    subst hc
    rw [if_neg (by decide)] at h2
    cases h2
    unfold stepModes at h1
    rw [if_neg (by rw [← hk.2.2]; simpa using nm)] at h1
    rw [if_neg (by decide), if_neg (by decide), if_neg (by decide), if_neg (by decide), if_pos rfl] at h1
    cases h1
    obtain ⟨te, ce, me, oe, ex, q⟩ := stepExtrusion_shape (stepPos home { m with relativeE := false } (split ({ raw := r } : PyLine α)).1 c!"M82")
      (stamp (stepPos home { m with relativeE := false } (split ({ raw := r } : PyLine α)).1 c!"M82") (split ({ raw := r } : PyLine α)).1) c!"M82"
    rw [q] at h3
    simp only [Prod.mk.injEq] at h3
    obtain ⟨rfl, rfl⟩ := h3
    have hs : stepPos home { m with relativeE := false } (split ({ raw := r } : PyLine α)).1 c!"M82" = { m with relativeE := false } := by
      unfold stepPos
      rw [if_neg (by rw [← hk.2.2]; simpa using nm), if_neg (by decide), if_neg (by decide)]
    rw [hs]
    exact ⟨rfl, rfl, rfl, rfl, rfl, rfl, rfl, rfl, rfl⟩

/-- `M82` is replaced by `M83`. -/
theorem conv_m82 {A fresh : Prop} {env : Env α} {home : Home α} {t : EModeSt} {s : RelSt α} {b b' b1 : BuildSt α} {l : PyLine α}
    (C : RelPair A fresh t s b b') (hb : buildStep env false home b { raw := l.raw } = .ok b1) (hp : processLine home b.m { raw := l.raw } = .ok (b1.m, l))
    (hc : l.command = some c!"M82") :
    ∃ b1', buildStep env false home b' { raw := c!"M83" } = .ok b1' ∧ RelPair A fresh { t with known := true, rel := false } { s with relative := false } b1 b1' := by
  obtain ⟨q0, q1, q2, q3, q4, q5, q6, q7, q8, q9, q10, q11, q12⟩ := process_m82 hp hc
  obtain ⟨l', hp', r1, r2, r3, r4, r5, r6, r7, r8⟩ := process_m83 home b'.m
  have hss : SameStep l l' := ⟨.inr ⟨hc, r1⟩, by rw [r2, q12], by rw [r3, q6], by rw [r4, q7], by rw [r5, q8], by rw [r6, q9], fun k => absurd k (by rw [q12]; simp),
    fun k => absurd k (by rw [q12]; simp), fun k => absurd k (by rw [q12]; simp), by rw [r8, q11], fun k => absurd (hc.symm.trans k) (by decide)⟩
  obtain ⟨w1, w2, b1', w3, w4, w5, w6, w7, w8⟩ := build_pair hb hp hp' hss (by rw [q2]; exact C.mx) C.bb C.ls C.ds C.done (fun _ k => .inl ⟨q10, r7⟩)
  have hla : b1.ds.laste = b.ds.laste := by
    rw [w2, q10]
    split_ifs <;> rfl
  refine ⟨b1', w3, ⟨?_, by rw [w4, q1]; exact C.tot, by rw [w4, q2]; exact C.mx, by rw [q4]; exact C.off, fun _ => ⟨q5, by rw [w4]⟩, rfl, fun k => ?_, C.short, ?_, w5, w6, w7, w8,
    fun a k => by rw [hla]; exact C.laste a k, fun k => by rw [q3, hla]; exact C.zero k⟩⟩
  · rw [w4]
    exact ⟨C.place.imperial.trans q0.imperial.symm, C.place.relative.trans q0.relative.symm, C.place.x.trans q0.x.symm, C.place.y.trans q0.y.symm, C.place.z.trans q0.z.symm,
      C.place.f.trans q0.f.symm, C.place.ox.trans q0.ox.symm, C.place.oy.trans q0.oy.symm, C.place.oz.trans q0.oz.symm⟩
  · rw [q3]; exact C.cur k
  · rw [q0.imperial]; exact C.imp

theorem map_exact {o : Option α} {d : ℕ} (h : ∀ v, o = some v → ∃ k : ℤ, v = k / 10 ^ d) : o.map (fixedVal d) = o := by
  cases o with
  | none => rfl
  | some v =>
    obtain ⟨k, rfl⟩ := h v rfl
    simp [fixedVal_exact]

/-- A move that pushes filament, in relative mode. -/
theorem conv_rel {A fresh : Prop} {env : Env α} {home : Home α} {t : EModeSt} {s : RelSt α} {b b' b1 : BuildSt α} {l : PyLine α} {v : α}
    (C : RelPair A fresh t s b b') (hb : buildStep env false home b { raw := l.raw } = .ok b1) (hp : processLine home b.m { raw := l.raw } = .ok (b1.m, l))
    (hm : IsMove l) (he : l.e = some v) (hk : t.known = true) (hr : t.rel = true) :
    ∃ b1', buildStep env false home b' { raw := l.raw } = .ok b1' ∧ RelPair A False { t with synced := false } s b1 b1' := by
  obtain ⟨n', l', hp', ⟨a1, a2, a3, a4, a5, a6, _⟩, _⟩ := processLine_free (home' := home) hp (m1 := b'.m) C.place.imperial
  obtain ⟨p1, q⟩ := processLine_head hp hp' C.place a1.symm a2.symm a3.symm a4.symm a6.symm
  have im : l.isMove = true := (isMove_iff hp).2 hm
  have im' : l'.isMove = true := by rw [q.isMove]; exact im
  obtain ⟨e1, e2, _, _⟩ := processLine_E hp
  obtain ⟨e1', e2', _, _⟩ := processLine_E hp'
  obtain ⟨f1, f2, f3⟩ := e2 im
  obtain ⟨f1', f2', f3'⟩ := e2' im'
  obtain ⟨u1, u2, u3, u4⟩ := f3 v he
  obtain ⟨v1, v2, v3, v4⟩ := f3' v (by rw [← a5]; exact he)
  have k1 : pushed b.m v = v := by unfold pushed; rw [(C.rel hk).1, hr]; rfl
  have k2 : pushed b'.m v = v := by unfold pushed; rw [(C.rel hk).2]; rfl
  rw [k1] at u1 u2 u3 u4
  rw [k2] at v1 v2 v3 v4
  have hmx : n'.maxE = b1.m.maxE := by rw [v3, u3, C.mx, C.tot]
  have hss : SameStep l l' := ⟨.inl q.command, q.isMove, q.x, q.y, q.z, q.f, q.relative, q.cx, q.cy, by rw [u4, v4], fun _ => (processLine_keeps hp').1⟩
  obtain ⟨w1, w2, b1', w3, w4, w5, w6, w7, w8⟩ := build_pair hb hp hp' hss hmx C.bb C.ls C.ds C.done
    (fun _ _ => .inr ⟨v, v, he, by rw [← a5]; exact he, by rw [f1, f1', (C.rel hk).1, (C.rel hk).2, hr]; rfl⟩)
  have hcm : ∀ k ∈ [c!"G90", c!"G91", c!"M82", c!"M83"], l.command ≠ some k := by
    obtain ⟨c, h1, h2⟩ := hm
    rw [h2]
    exact (by decide : ∀ c ∈ [c!"G0", c!"G1", c!"G2", c!"G3"], ∀ k ∈ [c!"G90", c!"G91", c!"M82", c!"M83"], some c ≠ some k) c h1
  have h20 : ¬ HasCmd l c!"G20" := by
    obtain ⟨c, h1, h2⟩ := hm
    rw [HasCmd, h2]
    exact (by decide : ∀ c ∈ [c!"G0", c!"G1", c!"G2", c!"G3"], some c ≠ some c!"G20") c h1
  refine ⟨b1', w3, ⟨by rw [w4]; exact p1, by rw [w4, v1, u1, C.tot], by rw [w4]; exact hmx, by rw [f2, C.off], fun _ => ?_, C.srel, fun k => (by cases k), C.short,
    imp_after hp C.imp h20, w5, w6, w7, w8, fun _ k => (by cases k), fun k => k.elim⟩⟩
  rw [w4, e1, e1', q.command, relEAfter_eq hcm, relEAfter_eq hcm]
  exact C.rel hk

/-- A move that pushes filament, in absolute mode. -/
theorem conv_abs {A fresh : Prop} {env : Env α} {home : Home α} {t : EModeSt} {s : RelSt α} {b b' b1 : BuildSt α} {l : PyLine α} {v : α}
    (C : RelPair A fresh t s b b') (hb : buildStep env false home b { raw := l.raw } = .ok b1) (hp : processLine home b.m { raw := l.raw } = .ok (b1.m, l))
    (hm : IsMove l) (he : l.e = some v) (hk : t.known = true) (hr : t.rel = false) (hy : t.synced = true) (hs : ShortNumbers l)
    (hA : A → HasCmd l c!"G2" ∨ HasCmd l c!"G3" → l.e = none) :
    ∃ b1', buildStep env false home b' { raw := (unsplit { l with e := some (v - s.current), relativeE := some true }).raw } = .ok b1' ∧
      RelPair A False t { s with current := v } b1 b1' := by
  have hrb : Rebuilds ({ l with e := some (v - s.current), relativeE := some true } : PyLine α) := rebuilds_of_command (.inl hm) rfl
  have him' : b'.m.imperial = false := by rw [C.place.imperial]; exact C.imp
  obtain ⟨n', l', hp', _⟩ := (saves_unsplit hrb).reads home b'.m him'
  obtain ⟨a1, a2, a3⟩ := rebuilt_reads hrb hp' him'
  obtain ⟨x1, x2, x3, x4⟩ := rebuilt_words hrb hp' him'
  have s3 := fun o ho => map_exact (hs.1 o ho)
  have ax : l'.x = l.x := by rw [x1]; exact s3 _ (by simp)
  have ay : l'.y = l.y := by rw [x2]; exact s3 _ (by simp)
  have az : l'.z = l.z := by rw [x3]; exact s3 _ (by simp)
  have af : l'.f = l.f := by rw [x4]; exact s3 _ (by simp)
  have ae : l'.e = some (v - s.current) := by
    rw [a2]
    apply map_exact
    intro w hw
    obtain ⟨k, hk⟩ := hs.2 v he
    obtain ⟨k', hk'⟩ := C.short
    simp only [Option.some.injEq] at hw
    exact ⟨k - k', by rw [← hw, hk, hk']; push_cast; ring⟩
  obtain ⟨p1, q⟩ := processLine_head hp hp' C.place a1 ax ay az af
  have im : l.isMove = true := (isMove_iff hp).2 hm
  have im' : l'.isMove = true := by rw [q.isMove]; exact im
  obtain ⟨e1, e2, _, _⟩ := processLine_E hp
  obtain ⟨e1', e2', _, _⟩ := processLine_E hp'
  obtain ⟨f1, f2, f3⟩ := e2 im
  obtain ⟨f1', f2', f3'⟩ := e2' im'
  obtain ⟨u1, u2, u3, u4⟩ := f3 v he
  obtain ⟨v1, v2, v3, v4⟩ := f3' _ ae
  have k1 : pushed b.m v = v - s.current := by
    unfold pushed
    rw [(C.rel hk).1, hr, C.off, C.cur hy]
    simp
  have k2 : pushed b'.m (v - s.current) = v - s.current := by unfold pushed; rw [(C.rel hk).2]; rfl
  rw [k1] at u1 u2 u3 u4
  rw [k2] at v1 v2 v3 v4
  have hmx : n'.maxE = b1.m.maxE := by rw [v3, u3, C.mx, C.tot]
  have hss : SameStep l l' := ⟨.inl q.command, q.isMove, q.x, q.y, q.z, q.f, q.relative, q.cx, q.cy, by rw [u4, v4], fun k => by
    exfalso
    obtain ⟨c, h1, h2⟩ := hm
    rw [k, Option.some.injEq] at h2
    subst h2
    revert h1; decide⟩
  obtain ⟨w1, w2, b1', w3, w4, w5, w6, w7, w8⟩ := build_pair hb hp hp' hss hmx C.bb C.ls C.ds C.done
    (fun a _ => .inr ⟨v, _, he, ae, by rw [f1, f1', (C.rel hk).1, (C.rel hk).2, hr, C.laste a hy]; rfl⟩)
  have hcm : ∀ k ∈ [c!"G90", c!"G91", c!"M82", c!"M83"], l.command ≠ some k := by
    obtain ⟨c, h1, h2⟩ := hm
    rw [h2]
    exact (by decide : ∀ c ∈ [c!"G0", c!"G1", c!"G2", c!"G3"], ∀ k ∈ [c!"G90", c!"G91", c!"M82", c!"M83"], some c ≠ some k) c h1
  have h20 : ¬ HasCmd l c!"G20" := by
    obtain ⟨c, h1, h2⟩ := hm
    rw [HasCmd, h2]
    exact (by decide : ∀ c ∈ [c!"G0", c!"G1", c!"G2", c!"G3"], some c ≠ some c!"G20") c h1
  refine ⟨b1', w3, ⟨by rw [w4]; exact p1, by rw [w4, v1, u1, C.tot], by rw [w4]; exact hmx, by rw [f2, C.off], fun _ => ?_, C.srel, fun _ => ?_, hs.2 v he,
    imp_after hp C.imp h20, w5, w6, w7, w8, fun a _ => ?_, fun k => k.elim⟩⟩
  · rw [w4, e1, e1', q.command, relEAfter_eq hcm, relEAfter_eq hcm]
    exact C.rel hk
  · show v = _
    rw [u2, C.cur hy]; ring
  · show _ = v
    rw [w2, if_pos, he]
    · rfl
    · obtain ⟨c, h1, h2⟩ := hm
      simp only [List.mem_cons, List.not_mem_nil, or_false] at h1
      rcases h1 with rfl | rfl | rfl | rfl
      · exact .inl h2
      · exact .inr h2
      · have := hA a (.inl h2); rw [he] at this; cases this
      · have := hA a (.inr h2); rw [he] at this; cases this

/-- One line. -/
theorem conv_step {A fresh : Prop} {env : Env α} {home : Home α} {t t1 : EModeSt} {s : RelSt α} {b b' b1 : BuildSt α} {l : PyLine α}
    (C : RelPair A fresh t s b b') (hb : buildStep env false home b { raw := l.raw } = .ok b1) (hp : processLine home b.m { raw := l.raw } = .ok (b1.m, l))
    (ht : t.step l = some t1) (h20 : ¬ HasCmd l c!"G20") (hs : IsMove l → l.e ≠ none → ShortNumbers l) (hz : HasCmd l c!"G92" → l.e = none ∨ l.e = some 0)
    (hr : RelabelsE l → fresh) (hA : A → HasCmd l c!"G2" ∨ HasCmd l c!"G3" → l.e = none) :
    ∃ b1', buildStep env false home b' { raw := (relLine s l).2.raw } = .ok b1' ∧
      RelPair A (fresh ∧ (¬ IsMove l ∨ l.e = none)) t1 (relLine s l).1 b1 b1' := by
  unfold EModeSt.step at ht
  by_cases c0 : IsMove l
  · rw [if_pos c0] at ht
    have nc : ∀ a, a ∉ [c!"G0", c!"G1", c!"G2", c!"G3"] → ¬ HasCmd l a := fun a ha h => not_move_cmd ha h c0
    have hrl : relLine s l = if s.relative = false then (match l.e with
        | some e => ({ s with current := e }, unsplit { l with e := some (e - s.current), relativeE := some true })
        | none => (s, l)) else (s, l) := by
      unfold relLine
      rw [if_neg (nc _ (by decide)), if_neg (nc _ (by decide)), if_neg (nc _ (by decide))]
      simp only [c0, true_and]
      by_cases hsr : s.relative = false
      · rw [if_pos hsr, if_pos hsr]; cases l.e <;> rfl
      · rw [if_neg hsr, if_neg hsr]
    have hcm : ∀ k ∈ [c!"G90", c!"G91", c!"M82", c!"M83"], l.command ≠ some k := fun k hk => nc k ((by decide : ∀ k ∈ [c!"G90", c!"G91", c!"M82", c!"M83"], k ∉ [c!"G0", c!"G1", c!"G2", c!"G3"]) k hk)
    cases he : l.e with
    | none =>
      rw [if_pos he] at ht
      cases ht
      have h1 : relLine s l = (s, l) := by rw [hrl, he]; split_ifs <;> rfl
      rw [h1]
      exact conv_still C hb hp h20 (.inr he) hz (fun k => by rw [relEAfter_eq hcm, relEAfter_eq hcm]; exact C.rel k) C.srel C.cur C.short C.laste (fun k => k.1)
    | some v =>
      rw [if_neg (by rw [he]; simp)] at ht
      have hF : (fresh ∧ (¬ IsMove l ∨ some v = none)) = False := by simp [c0]
      rw [hF]
      by_cases c1 : t.known = true
      · rw [if_neg (by simp [c1])] at ht
        by_cases c2 : t.rel = true
        · rw [if_pos c2] at ht
          cases ht
          rw [hrl, if_neg (by rw [C.srel, c2]; simp)]
          exact conv_rel C hb hp c0 he c1 c2
        · rw [if_neg c2] at ht
          split_ifs at ht with c3
          cases ht
          rw [hrl, if_pos (by rw [C.srel]; simpa using c2), he]
          exact conv_abs C hb hp c0 he c1 (by simpa using c2) c3 (hs c0 (by rw [he]; simp)) hA
      · rw [if_pos (by simpa using c1)] at ht
        cases ht
  rw [if_neg c0] at ht
  have hfr : fresh ∧ (¬ IsMove l ∨ l.e = none) → fresh := fun k => k.1
  by_cases c1 : HasCmd l c!"M83"
  · rw [if_pos c1] at ht
    cases ht
    have h1 : relLine s l = ({ s with relative := true }, l) := by unfold relLine; rw [if_pos c1]
    rw [h1]
    have c1' : l.command = some c!"M83" := c1
    exact conv_still C hb hp h20 (.inl c0) hz (fun _ => by rw [c1']; exact ⟨rfl, rfl⟩) rfl C.cur C.short C.laste hfr
  rw [if_neg c1] at ht
  by_cases c2 : HasCmd l c!"M82"
  · rw [if_pos c2] at ht
    cases ht
    have h1 : relLine s l = ({ s with relative := false }, rawToLine c!"M83") := by unfold relLine; rw [if_neg c1, if_pos c2]
    rw [h1]
    obtain ⟨b1', k1, k2⟩ := conv_m82 C hb hp c2
    exact ⟨b1', k1, ⟨k2.place, k2.tot, k2.mx, k2.off, k2.rel, k2.srel, k2.cur, k2.short, k2.imp, k2.bb, k2.ls, k2.ds, k2.done, k2.laste, fun k => k2.zero k.1⟩⟩
  rw [if_neg c2] at ht
  by_cases c3 : HasCmd l c!"G90" ∨ HasCmd l c!"G91"
  · rw [if_pos c3] at ht
    split_ifs at ht with c4
    cases ht
    have h1 : relLine s l = (s, l) := by
      unfold relLine
      have : ¬ HasCmd l c!"G92" := by rcases c3 with c3 | c3 <;> exact not_two_cmds (by decide) c3
      rw [if_neg c1, if_neg c2, if_neg this, if_neg (fun k => c0 k.1)]
    rw [h1]
    exact conv_still C hb hp h20 (.inl c0) hz (fun k => absurd k c4) C.srel C.cur C.short C.laste hfr
  rw [if_neg c3] at ht
  have hcm : ∀ k ∈ [c!"G90", c!"G91", c!"M82", c!"M83"], l.command ≠ some k := by
    intro k hk
    simp only [List.mem_cons, List.not_mem_nil, or_false] at hk
    rcases hk with rfl | rfl | rfl | rfl
    · exact fun h => c3 (.inl h)
    · exact fun h => c3 (.inr h)
    · exact c2
    · exact c1
  have hrel : t.known = true → relEAfter l.command b.m.relativeE = t.rel ∧ relEAfter l.command b'.m.relativeE = true := fun k => by
    rw [relEAfter_eq hcm, relEAfter_eq hcm]; exact C.rel k
  by_cases c4 : HasCmd l c!"G92"
  · rw [if_pos c4] at ht
    cases he : l.e with
    | some v =>
      rw [if_neg (by rw [he]; simp)] at ht
      cases ht
      have hv : v = 0 := by
        rcases hz c4 with k | k <;> rw [he] at k
        · cases k
        · exact Option.some.inj k
      have h1 : relLine s l = ({ s with current := v }, l) := by unfold relLine; rw [if_neg c1, if_neg c2, if_pos c4, he]
      rw [h1]
      have hf : fresh := hr ⟨c4, .inl (by rw [he]; simp)⟩
      exact conv_still C hb hp h20 (.inl c0) hz hrel C.srel (fun _ => by rw [(C.zero hf).1]; exact hv) ⟨0, by simp [hv]⟩ (fun _ _ => by rw [(C.zero hf).2]; exact hv.symm) (fun k => k.1)
    | none =>
      rw [if_pos he] at ht
      by_cases c5 : l.x = none ∧ l.y = none ∧ l.z = none
      · rw [if_pos c5] at ht
        cases ht
        have h1 : relLine s l = ({ s with current := 0 }, l) := by unfold relLine; rw [if_neg c1, if_neg c2, if_pos c4, he]; simp only; rw [if_pos c5]
        rw [h1]
        exact conv_still C hb hp h20 (.inl c0) hz hrel C.srel (fun k => by cases k) ⟨0, by simp⟩ (fun _ k => by cases k) (fun k => k.1)
      · rw [if_neg c5] at ht
        cases ht
        have h1 : relLine s l = (s, l) := by unfold relLine; rw [if_neg c1, if_neg c2, if_pos c4, he]; simp only; rw [if_neg c5]
        rw [h1]
        exact conv_still C hb hp h20 (.inl c0) hz hrel C.srel C.cur C.short C.laste (fun k => k.1)
  · rw [if_neg c4] at ht
    cases ht
    have h1 : relLine s l = (s, l) := by unfold relLine; rw [if_neg c1, if_neg c2, if_neg c4, if_neg (fun k => c0 k.1)]
    rw [h1]
    exact conv_still C hb hp h20 (.inl c0) hz hrel C.srel C.cur C.short C.laste hfr

/-- All lines. -/
theorem conv_fold {A : Prop} {env : Env α} {home : Home α} (ls : List (PyLine α)) : ∀ {fresh : Prop} {t t1 : EModeSt} {s : RelSt α} {b b' bN : BuildSt α},
    RelPair A fresh t s b b' → (bare (ls.map (·.raw))).foldlM (buildStep env false home) b = .ok bN → Run home b.m (bare (ls.map (·.raw))) bN.m ls →
    t.run ls = some t1 → (∀ l ∈ ls, ¬ HasCmd l c!"G20") → (∀ l ∈ ls, IsMove l → l.e ≠ none → ShortNumbers l) → (∀ l ∈ ls, HasCmd l c!"G92" → l.e = none ∨ l.e = some 0) →
    (∀ l ∈ ls, A → HasCmd l c!"G2" ∨ HasCmd l c!"G3" → l.e = none) → NoReset ls → (fresh ∨ ∀ k ∈ ls, ¬ RelabelsE k) →
    ∃ bN', (bare ((scan relLine s ls).2.map (·.raw))).foldlM (buildStep env false home) b' = .ok bN' ∧ ∃ fresh' s', RelPair A fresh' t1 s' bN bN' := by
  induction ls with
  | nil =>
    intro fresh t t1 s b b' bN C hf _ ht _ _ _ _ _ _
    simp only [bare, List.map_nil, List.foldlM_nil, pure, Except.pure, Except.ok.injEq] at hf
    subst hf
    simp only [EModeSt.run, Option.some.injEq] at ht
    subst ht
    exact ⟨b', rfl, fresh, s, C⟩
  | cons l ls ih =>
    intro fresh t t1 s b b' bN C hf hr ht h20 hs hz hA hn hfr
    simp only [bare, List.map_cons] at hf hr
    rw [foldlM_cons_ok] at hf
    obtain ⟨b1, hb, hf⟩ := hf
    cases hr with
    | cons hp hr =>
      rename_i m1
      obtain ⟨l2, hp2, _⟩ := buildStep_m hb
      rw [hp2] at hp
      simp only [Except.ok.injEq, Prod.mk.injEq] at hp
      obtain ⟨rfl, rfl⟩ := hp
      simp only [EModeSt.run] at ht
      obtain ⟨t2, ht2, ht3⟩ := Option.bind_eq_some_iff.1 ht
      obtain ⟨b1', k1, k2⟩ := conv_step C hb hp2 ht2 (h20 l2 (by simp)) (hs l2 (by simp)) (hz l2 (by simp))
        (fun hl => hfr.resolve_right fun h => h l2 (by simp) hl) (hA l2 (by simp))
      obtain ⟨bN', w1, w2⟩ := ih k2 hf hr ht3 (fun l hl => h20 l (by simp [hl])) (fun l hl => hs l (by simp [hl])) (fun l hl => hz l (by simp [hl]))
        (fun l hl => hA l (by simp [hl])) (fun pre k post e => hn (l2 :: pre) k post (by rw [e]; rfl)) (by
          by_cases hc : IsMove l2 ∧ l2.e ≠ none
          · exact .inr fun k hk => hn [] l2 ls rfl hc.1 hc.2 k hk
          · rcases hfr with hfr | hfr
            · refine .inl ⟨hfr, ?_⟩
              by_cases q : IsMove l2
              · exact .inr (by by_contra q2; exact hc ⟨q, q2⟩)
              · exact .inl q
            · exact .inr fun k hk => hfr k (by simp [hk]))
      refine ⟨bN', ?_, w2⟩
      simp only [scan, bare, List.map_cons]
      rw [foldlM_cons_ok]
      exact ⟨b1', k1, w1⟩

theorem closeLast_same {A : Prop} {s s' : LayerSt α} (h : LayerSame A s s') {t b t' b' : α} (ht : A → t' - b' = t - b) :
    LayerSame A (closeLast s t b) (closeLast s' t' b') := by
  unfold closeLast
  have he : s'.curLines.isEmpty = s.curLines.isEmpty := by
    rw [Bool.eq_iff_iff, List.isEmpty_iff_length_eq_zero, List.isEmpty_iff_length_eq_zero, h.cur]
  rw [he]
  split_ifs
  · exact h
  · refine ⟨?_, ?_, ?_, h.idxs, h.lidxs, h.id, h.line, h.lastZ, h.prevZ, h.prevBase, h.curZ, h.cur, h.ext, h.est⟩
    · simp only [List.map_append, h.layers, List.map_cons, List.map_nil, h.cur, h.prevZ]
    · intro k
      simp only [List.map_append, h.durations k, List.map_cons, List.map_nil, ht k]
    · simp only [h.ext, h.zs, h.prevZ]

/-- The analysis of two programs in lockstep. -/
theorem conv_finalize {A fresh : Prop} {t : EModeSt} {s : RelSt α} {b b' : BuildSt α} (g : GCode α) (C : RelPair A fresh t s b b') :
    SameAnalysis (finalize g b) (finalize g b') ∧ (A → SameDuration (finalize g b) (finalize g b')) := by
  have L := closeLast_same C.ls (t := b.ds.total) (b := b.ds.layerBegin) (t' := b'.ds.total) (b' := b'.ds.layerBegin)
    (fun a => by rw [(C.ds.total a).1, (C.ds.total a).2])
  refine ⟨⟨?_, ?_, ?_, ?_, L.zs, L.est, C.done, ?_, L.idxs, L.lidxs⟩, fun a => ⟨?_, ?_⟩⟩
  · show some _ = some _; rw [C.mx]
  · simp only [finalize, C.mx, C.bb]; exact ⟨trivial, trivial, trivial⟩
  · simp only [finalize, C.mx, C.bb]; exact ⟨trivial, trivial, trivial⟩
  · simp only [finalize, L.zs]; exact ⟨trivial, trivial, trivial⟩
  · simp only [finalize, List.map_append, L.layers]
  · show some _ = some _; rw [(C.ds.total a).1]
  · simp only [finalize, List.map_append, L.durations a]

end GCodeUtils
