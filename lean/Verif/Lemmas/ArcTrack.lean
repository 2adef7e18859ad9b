import Verif.Lemmas.ArcGuard
import Verif.Lemmas.Exec
import Verif.Lemmas.Written
import Verif.Lemmas.Filter

/-
  Where the printer is after the arcs have been put in.
-/

set_option linter.unusedSectionVars false

namespace GCodeUtils

open Spec

variable {α : Type} [Field α] [LinearOrder α] [IsStrictOrderedRing α] [FloorRing α]

theorem run_cons (home : Pos3 α) (p : Printer α) (l : PyLine α) (ls : List (PyLine α)) : p.run home (l :: ls) = (p.exec home l).run home ls := rfl

theorem run_append' (home : Pos3 α) (p : Printer α) (a b : List (PyLine α)) : p.run home (a ++ b) = (p.run home a).run home b := by
  unfold Printer.run; rw [List.foldl_append]

/-- Following a rewriting. -/
theorem rewrites_tracks {home : Pos3 α} {R : PyLine α → List (PyLine α) → List (PyLine α) → Prop} {Q : Printer α → Printer α → Prop}
    {x0 : List (PyLine α)} {p0 : Printer α}
    (hs : ∀ pre l l' post q, x0 = pre ++ l :: post → Q (p0.run home pre) q → Kept l l' → Q ((p0.run home pre).exec home l) (q.exec home l'))
    (ha : ∀ pre w w' gen l' post q, x0 = pre ++ (w ++ post) → Q (p0.run home pre) q → List.Forall₂ Kept w w' → R l' w' gen →
      Q ((p0.run home pre).run home w) (q.run home gen))
    {x y : List (PyLine α)} (h : Rewrites R x y) : ∀ pre q, x0 = pre ++ x → Q (p0.run home pre) q → Tracks home R Q (p0.run home pre) q x y := by
  induction h with
  | done => intro pre q _ _; exact .done
  | keep hk _ ih =>
    rename_i l l' a b _
    intro pre q he hq
    have h1 := hs pre l l' a q he hq hk
    have e1 : (p0.run home pre).exec home l = p0.run home (pre ++ [l]) := by rw [run_append']; rfl
    refine .keep hk h1 ?_
    rw [e1] at h1 ⊢
    exact ih _ _ (by rw [he]; simp) h1
  | arc hk hw hR _ ih =>
    rename_i l l' w w' gen a b _
    intro pre q he hq
    have h1 := hs pre l l' (w ++ a) q he hq hk
    have e1 : (p0.run home pre).exec home l = p0.run home (pre ++ [l]) := by rw [run_append']; rfl
    have h2 := ha (pre ++ [l]) w w' gen l' a (q.exec home l') (by rw [he]; simp) (by rw [← e1]; exact h1) hw hR
    have e2 : (p0.run home pre).run home (l :: w) = p0.run home (pre ++ l :: w) := by rw [run_append']
    refine .arc hk hw hR h1 ?_ ?_
    · rw [run_cons, run_cons, e1]; exact h2
    · rw [e2]
      refine ih _ _ (by rw [he]; simp) ?_
      rw [← e2, run_cons, run_cons, e1]; exact h2

theorem tracks_mono {home : Pos3 α} {R : PyLine α → List (PyLine α) → List (PyLine α) → Prop} {Q Q' : Printer α → Printer α → Prop}
    (hQ : ∀ a b, Q a b → Q' a b) {p q : Printer α} {x y : List (PyLine α)} (h : Tracks home R Q p q x y) : Tracks home R Q' p q x y := by
  induction h with
  | done => exact .done
  | keep hk h _ ih => exact .keep hk (hQ _ _ h) ih
  | arc hk hw hR h1 h2 _ ih => exact .arc hk hw hR (hQ _ _ h1) (hQ _ _ h2) ih

theorem exec_kept (home : Pos3 α) (p : Printer α) {l l' : PyLine α} (h : Kept l l') : p.exec home l' = p.exec home l := by
  rcases h with rfl | ⟨_, _, _, _, _, _, rfl⟩ <;> rfl

/-- Same height, same height origin, same mode. -/
def SameZ (p q : Printer α) : Prop := p.pos.z = q.pos.z ∧ p.org.z = q.org.z ∧ p.rel = q.rel

theorem cmd_exclusive {l : PyLine α} {c d : Str} (h : HasCmd l c) (hne : c ≠ d) : ¬ HasCmd l d := by
  rw [HasCmd] at *; rw [h]; intro hh; exact hne (Option.some.inj hh)

theorem move_not_cmd {l : PyLine α} (h : IsMove l) (d : Str) (hd : d ∉ [c!"G0", c!"G1", c!"G2", c!"G3"]) : ¬ HasCmd l d := by
  obtain ⟨c, hc, hl⟩ := h
  rw [HasCmd, hl, Option.some.injEq]; rintro rfl; exact hd hc

theorem exec_g28 (home : Pos3 α) (p : Printer α) {l : PyLine α} (h : HasCmd l c!"G28") :
    p.exec home l = p.homeAxes home l.x.isSome l.y.isSome l.z.isSome := by
  unfold Printer.exec; rw [h]; rfl

theorem exec_g92 (home : Pos3 α) (p : Printer α) {l : PyLine α} (h : HasCmd l c!"G92") :
    p.exec home l = p.relabelTo l.x l.y l.z l.e := by
  unfold Printer.exec; rw [h]; rfl

theorem exec_g90 (home : Pos3 α) (p : Printer α) {l : PyLine α} (h : HasCmd l c!"G90") :
    p.exec home l = { p with rel := false, relE := false } := by
  unfold Printer.exec; rw [h]; rfl

theorem exec_g91 (home : Pos3 α) (p : Printer α) {l : PyLine α} (h : HasCmd l c!"G91") :
    p.exec home l = { p with rel := true, relE := true } := by
  unfold Printer.exec; rw [h]; rfl

theorem sameZ_exec (home : Pos3 α) {p q : Printer α} (h : SameZ p q) (l : PyLine α) : SameZ (p.exec home l) (q.exec home l) := by
  obtain ⟨h1, h2, h3⟩ := h
  by_cases hm : IsMove l
  · rw [exec_move home p hm, exec_move home q hm]
    exact ⟨by simp only [Printer.moveTo, h1, h2, h3], h2, h3⟩
  by_cases h28 : HasCmd l c!"G28"
  · rw [exec_g28 home p h28, exec_g28 home q h28]
    exact ⟨by simp only [Printer.homeAxes, h1], by simp only [Printer.homeAxes, h2], h3⟩
  by_cases h90 : HasCmd l c!"G90"
  · rw [exec_g90 home p h90, exec_g90 home q h90]; exact ⟨h1, h2, rfl⟩
  by_cases h91 : HasCmd l c!"G91"
  · rw [exec_g91 home p h91, exec_g91 home q h91]; exact ⟨h1, h2, rfl⟩
  by_cases h92 : HasCmd l c!"G92"
  · rw [exec_g92 home p h92, exec_g92 home q h92]
    exact ⟨h1, by simp only [Printer.relabelTo, h1, h2], h3⟩
  obtain ⟨_, k1, k2, k3⟩ := exec_other home p p.pos p.org hm h28 h90 h91 h92
  obtain ⟨_, m1, m2, m3⟩ := exec_other home q q.pos q.org hm h28 h90 h91 h92
  exact ⟨by rw [k1, m1, h1], by rw [k2, m2, h2], by rw [k3, m3, h3]⟩

/-- A move without Z word does not change the height. -/
theorem sameZ_move (home : Pos3 α) (p : Printer α) {l : PyLine α} (hm : MoveOrComment l) (hz : l.z = none) : SameZ p (p.exec home l) := by
  rcases hm with hm | hm
  · rw [exec_move home p hm]
    exact ⟨by simp only [Printer.moveTo, hz, axis], rfl, rfl⟩
  · unfold Printer.exec; rw [hm]; exact ⟨rfl, rfl, rfl⟩

theorem SameZ.trans {p q r : Printer α} (h : SameZ p q) (k : SameZ q r) : SameZ p r := ⟨h.1.trans k.1, h.2.1.trans k.2.1, h.2.2.trans k.2.2⟩
theorem SameZ.symm {p q : Printer α} (h : SameZ p q) : SameZ q p := ⟨h.1.symm, h.2.1.symm, h.2.2.symm⟩

theorem sameZ_run (home : Pos3 α) (w : List (PyLine α)) : ∀ p : Printer α, (∀ l ∈ w, MoveOrComment l ∧ l.z = none) → SameZ p (p.run home w) := by
  induction w with
  | nil => intro p _; exact ⟨rfl, rfl, rfl⟩
  | cons l w ih =>
    intro p h
    rw [run_cons]
    exact (sameZ_move home p (h l (by simp)).1 (h l (by simp)).2).trans (ih _ (fun x hx => h x (List.mem_cons_of_mem _ hx)))

theorem moveOrComment_kept {l l' : PyLine α} (h : Kept l l') (hm : MoveOrComment l') : MoveOrComment l := by
  have hc := kept_command h
  rcases hm with hm | hm
  · exact Or.inl ((isMove_congr hc).1 hm)
  · exact Or.inr (by rw [← hc, hm])

theorem kept_z {l l' : PyLine α} (h : Kept l l') : l'.z = l.z ∧ l'.e = l.e := by
  rcases h with rfl | ⟨_, _, _, _, _, _, rfl⟩ <;> exact ⟨rfl, rfl⟩

theorem forall₂_mem_left {β γ : Type} {R : β → γ → Prop} {a : List β} {b : List γ} (h : List.Forall₂ R a b) : ∀ x ∈ a, ∃ y ∈ b, R x y := by
  induction h with
  | nil => intro x hx; simp at hx
  | cons h _ ih =>
    intro x hx
    rcases List.mem_cons.1 hx with rfl | hx
    · exact ⟨_, by simp, h⟩
    · obtain ⟨y, hy, hr⟩ := ih x hx; exact ⟨y, List.mem_cons_of_mem _ hy, hr⟩

/-- The generated lines: one arc move, maybe a correction of E. -/
theorem replacement_gen {t : Trig α} {start : PyLine α} {w gen : List (PyLine α)} (h : ArcReplacement t start w gen) :
    ∃ arc, IsMove arc ∧ arc.z = none ∧ (∃ last p, w.getLast? = some last ∧ At last p ∧ arc.x = some (pyRound t.mode 3 p.1) ∧ arc.y = some (pyRound t.mode 3 p.2)) ∧
      (gen = [arc] ∨ ∃ g, gen = [arc, g] ∧ HasCmd g c!"G92" ∧ g.x = none ∧ g.y = none ∧ g.z = none) := by
  obtain ⟨hf, pts, c, r, paths, fils, arc, rest, ho, ha, hc, rfl⟩ := h
  refine ⟨arc, ?_, ha.height, ?_, ?_⟩
  · obtain ⟨p0, p2, _, _, hcmd⟩ := ha.command
    apply isMove_g23
    by_cases hd : 0 < turn t c p0 p2
    · rw [if_pos hd] at hcmd; exact Or.inr hcmd
    · rw [if_neg hd] at hcmd; exact Or.inl hcmd
  · obtain ⟨p, hp, hx, hy⟩ := ha.finish
    obtain ⟨last, hl, _⟩ := ha.filament
    refine ⟨last, p, hl, ?_, hx, hy⟩
    obtain ⟨ys, rfl⟩ := List.getLast?_eq_some_iff.1 hl
    obtain ⟨zs, rfl⟩ := List.getLast?_eq_some_iff.1 hp
    have h2 := List.rel_reverse ho.at_points
    simp only [List.reverse_cons, List.reverse_append, List.reverse_nil, List.nil_append, List.cons_append] at h2
    cases h2 with
    | cons h _ => exact h
  · obtain ⟨last, _, hc⟩ := hc
    split at hc
    · obtain ⟨g, rfl, h1, h2, h3, h4, _⟩ := hc
      exact Or.inr ⟨g, rfl, h1.1, h2, h3, h4⟩
    · exact Or.inl (by rw [hc])

theorem sameZ_gen (home : Pos3 α) {t : Trig α} {start : PyLine α} {w gen : List (PyLine α)} (h : ArcReplacement t start w gen) (q : Printer α) :
    SameZ q (q.run home gen) := by
  obtain ⟨arc, hm, hz, _, h | ⟨g, h, hg, _, _, hgz⟩⟩ := replacement_gen h
  · rw [h]; exact sameZ_move home q (Or.inl hm) hz
  · rw [h, run_cons, run_cons]
    refine (sameZ_move home q (Or.inl hm) hz).trans ?_
    show SameZ _ (Printer.exec home _ g)
    rw [exec_g92 home _ hg]
    exact ⟨rfl, by simp only [Printer.relabelTo, hgz, relabel], rfl⟩

/-- Where E-carrying moves carry no Z, heights are kept. -/
theorem arc_tracks_z (home : Pos3 α) {t : Trig α} {x y : List (PyLine α)}
    (h : Rewrites (fun start w gen => ArcReplacement t start w gen ∧ ∀ l ∈ w, l.e ≠ none) x y) (hz : ∀ l ∈ x, l.e ≠ none → l.z = none) (p : Printer α) :
    Tracks home (fun start w gen => ArcReplacement t start w gen ∧ ∀ l ∈ w, l.e ≠ none) SameZ p p x y := by
  refine rewrites_tracks (x0 := x) (p0 := p) ?_ ?_ h [] p rfl ⟨rfl, rfl, rfl⟩
  · intro pre l l' post q _ hq hk
    rw [exec_kept home q hk]
    exact sameZ_exec home hq l
  · intro pre w w' gen l' post q he hq hk hR
    refine ((sameZ_run home w _ ?_).symm.trans hq).trans (sameZ_gen home hR.1 q)
    intro l hl
    obtain ⟨l', hl', hkl⟩ := forall₂_mem_left hk l hl
    refine ⟨moveOrComment_kept hkl (hR.1.1.2.1 l' hl'), hz l ?_ ?_⟩
    · rw [he]; simp [hl]
    · rw [← (kept_z hkl).2]; exact hR.2 l' hl'

/-- Both printers in absolute mode with the origin at the machine's, less than half a thousandth apart in X and Y. -/
structure NearXY (p q : Printer α) : Prop where
  x : |q.pos.x - p.pos.x| ≤ 5 / 10 ^ 4
  y : |q.pos.y - p.pos.y| ≤ 5 / 10 ^ 4
  orgp : p.org.x = 0 ∧ p.org.y = 0 ∧ p.rel = false
  orgq : q.org.x = 0 ∧ q.org.y = 0 ∧ q.rel = false

theorem nearXY_exec (home : Pos3 α) {p q : Printer α} (h : NearXY p q) (l : PyLine α) (n91 : ¬ HasCmd l c!"G91")
    (n92 : HasCmd l c!"G92" → l.x = none ∧ l.y = none) : NearXY (p.exec home l) (q.exec home l) := by
  obtain ⟨hx, hy, ⟨p1, p2, p3⟩, ⟨q1, q2, q3⟩⟩ := h
  by_cases hm : IsMove l
  · rw [exec_move home p hm, exec_move home q hm]
    refine ⟨?_, ?_, ⟨p1, p2, p3⟩, ⟨q1, q2, q3⟩⟩
    · simp only [Printer.moveTo, p1, p3, q1, q3]
      cases l.x with
      | none => exact hx
      | some v => simp only [axis, Bool.false_eq_true, if_false, sub_self, abs_zero]; positivity
    · simp only [Printer.moveTo, p2, p3, q2, q3]
      cases l.y with
      | none => exact hy
      | some v => simp only [axis, Bool.false_eq_true, if_false, sub_self, abs_zero]; positivity
  by_cases h28 : HasCmd l c!"G28"
  · rw [exec_g28 home p h28, exec_g28 home q h28]
    have z : |(0 : α)| ≤ 5 / 10 ^ 4 := by rw [abs_zero]; positivity
    refine ⟨?_, ?_, ⟨?_, ?_, p3⟩, ⟨?_, ?_, q3⟩⟩
    · simp only [Printer.homeAxes]; split_ifs
      · rw [sub_self]; exact z
      · exact hx
    · simp only [Printer.homeAxes]; split_ifs
      · rw [sub_self]; exact z
      · exact hy
    · simp only [Printer.homeAxes, p1, ite_self]
    · simp only [Printer.homeAxes, p2, ite_self]
    · simp only [Printer.homeAxes, q1, ite_self]
    · simp only [Printer.homeAxes, q2, ite_self]
  by_cases h90 : HasCmd l c!"G90"
  · rw [exec_g90 home p h90, exec_g90 home q h90]; exact ⟨hx, hy, ⟨p1, p2, rfl⟩, ⟨q1, q2, rfl⟩⟩
  by_cases h92 : HasCmd l c!"G92"
  · rw [exec_g92 home p h92, exec_g92 home q h92]
    obtain ⟨k1, k2⟩ := n92 h92
    refine ⟨hx, hy, ⟨?_, ?_, p3⟩, ⟨?_, ?_, q3⟩⟩ <;> simp only [Printer.relabelTo, relabel, *]
  obtain ⟨_, k1, k2, k3⟩ := exec_other home p p.pos p.org hm h28 h90 n91 h92
  obtain ⟨_, m1, m2, m3⟩ := exec_other home q q.pos q.org hm h28 h90 n91 h92
  exact ⟨by rw [k1, m1]; exact hx, by rw [k1, m1]; exact hy, by rw [k2, k3]; exact ⟨p1, p2, p3⟩, by rw [m2, m3]; exact ⟨q1, q2, q3⟩⟩

theorem nearXY_refl_exec (home : Pos3 α) {p q : Printer α} (h : NearXY p q) : NearXY p p :=
  ⟨by rw [sub_self, abs_zero]; positivity, by rw [sub_self, abs_zero]; positivity, h.orgp, h.orgp⟩

theorem nearXY_run (home : Pos3 α) (w : List (PyLine α)) : ∀ p : Printer α, NearXY p p → (∀ l ∈ w, MoveOrComment l) → NearXY (p.run home w) (p.run home w) := by
  induction w with
  | nil => intro p h _; exact h
  | cons l w ih =>
    intro p h hw
    rw [run_cons]
    have hm := hw l (by simp)
    have nc : ∀ d, d ∉ [c!"G0", c!"G1", c!"G2", c!"G3"] → ¬ HasCmd l d := by
      intro d hd
      rcases hm with hm | hm
      · exact move_not_cmd hm d hd
      · rw [HasCmd, hm]; simp
    exact ih _ (nearXY_exec home h l (nc _ (by decide)) (fun h => absurd h (nc _ (by decide)))) (fun x hx => hw x (List.mem_cons_of_mem _ hx))

/-- Lines that carry an E word carry the position of the printer after them. -/
def Stamped (home : Pos3 α) (p0 : Printer α) (x0 : List (PyLine α)) : Prop :=
  ∀ pre l post, x0 = pre ++ l :: post → l.e ≠ none → l.command ≠ none ∧
    l.currentX = some (p0.run home (pre ++ [l])).pos.x ∧ l.currentY = some (p0.run home (pre ++ [l])).pos.y

/-- In an absolute program without re-labelled X and Y the places are kept, up to the rounding. -/
theorem arc_tracks_xy (home : Pos3 α) {t : Trig α} {x y : List (PyLine α)}
    (h : Rewrites (fun start w gen => ArcReplacement t start w gen ∧ ∀ l ∈ w, l.e ≠ none) x y) (p : Printer α) (hp : NearXY p p)
    (h91 : ∀ l ∈ x, ¬ HasCmd l c!"G91") (h92 : ∀ l ∈ x, HasCmd l c!"G92" → l.x = none ∧ l.y = none) (hst : Stamped home p x) :
    Tracks home (fun start w gen => ArcReplacement t start w gen ∧ ∀ l ∈ w, l.e ≠ none) NearXY p p x y := by
  refine rewrites_tracks (x0 := x) (p0 := p) ?_ ?_ h [] p rfl hp
  · intro pre l l' post q he hq hk
    rw [exec_kept home q hk]
    exact nearXY_exec home hq l (h91 l (by rw [he]; simp)) (h92 l (by rw [he]; simp))
  · intro pre w w' gen l' post q he hq hk hR
    have hw : ∀ l ∈ w, MoveOrComment l := by
      intro l hl
      obtain ⟨l', hl', hkl⟩ := forall₂_mem_left hk l hl
      exact moveOrComment_kept hkl (hR.1.1.2.1 l' hl')
    have hpw := nearXY_run home w _ (nearXY_refl_exec home hq) hw
    obtain ⟨arc, hm, _, ⟨last, pt, hlast, hat, hax, hay⟩, hg⟩ := replacement_gen hR.1
    obtain ⟨ys, rfl⟩ := List.getLast?_eq_some_iff.1 hlast
    have hrev := List.rel_reverse hk
    simp only [List.reverse_append, List.reverse_cons, List.reverse_nil, List.nil_append, List.cons_append] at hrev
    obtain ⟨last0, zs, hz, hkl⟩ : ∃ last0 zs, w = zs ++ [last0] ∧ Kept last0 last := by
      cases hr : w.reverse with
      | nil => rw [hr] at hrev; cases hrev
      | cons a b =>
        rw [hr] at hrev
        cases hrev with
        | cons hh _ => exact ⟨a, b.reverse, by rw [← List.reverse_reverse w, hr]; simp, hh⟩
    have hE : last0.e ≠ none := by
      rw [← (kept_z hkl).2]; exact hR.2 last (by simp)
    obtain ⟨hcmd, hsx, hsy⟩ := hst (pre ++ zs) last0 post (by rw [he, hz]; simp) hE
    have hll : last = last0 := by
      rcases hkl with h | ⟨h, _⟩
      · exact h
      · exact absurd h hcmd
    have hend : p.run home (pre ++ zs ++ [last0]) = (p.run home pre).run home w := by rw [hz, ← run_append', List.append_assoc]
    rw [hend] at hsx hsy
    rw [hll] at hat
    rw [hat.1] at hsx
    rw [hat.2] at hsy
    have hx := Option.some.inj hsx
    have hy := Option.some.inj hsy
    -- the arc
    have harc : NearXY ((p.run home pre).run home w) (q.exec home arc) := by
      rw [exec_move home q hm]
      refine ⟨?_, ?_, hpw.orgp, hq.orgq⟩
      · simp only [Printer.moveTo, hax, hq.orgq.1, hq.orgq.2.2, axis, Bool.false_eq_true, if_false, zero_add]
        rw [← hx]
        exact (pyRound_bound _ _ _).trans (by norm_num)
      · simp only [Printer.moveTo, hay, hq.orgq.2.1, hq.orgq.2.2, axis, Bool.false_eq_true, if_false, zero_add]
        rw [← hy]
        exact (pyRound_bound _ _ _).trans (by norm_num)
    rcases hg with hg | ⟨g, hg, hg92, hgx, hgy, _⟩
    · rw [hg]; exact harc
    · rw [hg, run_cons, run_cons]
      show NearXY _ (Printer.exec home _ g)
      rw [exec_g92 home _ hg92]
      refine ⟨harc.x, harc.y, harc.orgp, ?_, ?_, harc.orgq.2.2⟩
      · simp only [Printer.relabelTo, hgx, relabel]; exact harc.orgq.1
      · simp only [Printer.relabelTo, hgy, relabel]; exact harc.orgq.2.1

/-- Loaded programs are stamped. -/
theorem load_stamped {env : Env α} {data : List Str} {home : Home α} {g : GCode α} (h : GCode.load env data false home = .ok g)
    (hc : ∀ l ∈ g.lines, CommandFirst l.raw ∧ HomingClear (α := α) l.raw) : Stamped ⟨home.x, home.y, home.z⟩ Printer.start (program g) := by
  obtain ⟨out, hr, hl⟩ := load_run' h
  have hc' : ∀ r ∈ g.lines.map (·.raw), CommandFirst r ∧ HomingClear (α := α) r := by
    intro r hr
    obtain ⟨l, hl, rfl⟩ := List.mem_map.1 hr
    exact hc l hl
  obtain ⟨_, g2⟩ := run_sim _ hr init_geo hc'
  rw [← hl rfl] at g2
  intro pre l post he hE
  have hfl : g.lines = pre ++ l :: post := by rw [(load_indexed h).flat]; exact he
  have hls := g2 pre l post hfl
  have hex := load_exec h hc (pre.length + 1)
  have htake : g.lines.take (pre.length + 1) = pre ++ [l] := by
    rw [hfl, show pre ++ l :: post = (pre ++ [l]) ++ post by simp, List.take_left' (by simp)]
  rw [htake] at hex
  rw [hex]
  cases hin : instr l.raw with
  | none =>
    exfalso
    have := (hls.noInstr hin).1 'e'
    exact hE (by simpa [PyLine.arg] using this)
  | some pr =>
    obtain ⟨cmd, ws⟩ := pr
    obtain ⟨hx, hy, _, _⟩ := hls.pos cmd ws hin
    refine ⟨by rw [(hls.command cmd ws hin).1]; simp, ?_, ?_⟩
    · rw [hx]; simp [Printer.final, Home.pos]
    · rw [hy]; simp [Printer.final, Home.pos]

end GCodeUtils
