import Verif.Spec.Converted
import Verif.Lemmas.ArcElsewhere
import Verif.Lemmas.ArcCount
import Verif.Lemmas.ArcRelative

/-
  The arc optimiser on a program and on the same program converted to relative extrusion.
-/

set_option linter.unusedSectionVars false

namespace GCodeUtils

open Spec

variable {α : Type} [Field α] [LinearOrder α] [IsStrictOrderedRing α] [FloorRing α]

theorem sameArcs_append {o o' u u' : List (PyLine α)} (h : SameArcs o o') (k : SameArcs u u') : SameArcs (o ++ u) (o' ++ u') := by
  induction h with
  | nil => exact k
  | line h _ ih => exact .line h ih
  | arc h _ ih => exact .arc h ih
  | corrected h h2 _ ih => exact .corrected h h2 ih

/-! ### lines -/

/-- A queued line as the optimiser sees it, and the same line converted. -/
structure ConvLn (l l' : PyLine α) : Prop where
  out : OnlyE l l'
  command : l'.command = l.command
  px : l'.currentX = l.currentX
  py : l'.currentY = l.currentY
  pz : l'.currentZ = l.currentZ
  pe : l'.currentE = l.currentE
  pf : l'.currentF = l.currentF
  e_none : l.e = none → l'.e = none ∧ l'.relativeE = l.relativeE
  e_some : l.e ≠ none → l'.e ≠ none ∧ l.relativeE = some false ∧ l'.relativeE = some true

/-- The filament between neighbours is the same. -/
def Fil (a b : PyLine α × PyLine α) : Prop := a.1.currentX = none ∨ segFilament a.2 b.2 = segFilament a.1 b.1

/-- A queue and the queue of the converted program; the extruder coordinate after it. -/
structure QC (z : List (PyLine α × PyLine α)) (e : α) : Prop where
  conv : ∀ a ∈ z, ConvLn a.1 a.2
  chain : List.IsChain Fil z
  known : ∀ a ∈ z, a.1.currentX = none ∨ a.1.currentE ≠ none
  last : ∀ a, z.getLast? = some a → a.1.currentX = none ∨ a.1.currentE = some e

theorem qc_nil (e : α) : QC [] e := ⟨by simp, .nil, by simp, by simp⟩

theorem points_conv {z : List (PyLine α × PyLine α)} (h : ∀ a ∈ z, ConvLn a.1 a.2) : points (z.map (·.2)) = points (z.map (·.1)) := by
  induction z with
  | nil => rfl
  | cons a z ih =>
    simp only [List.map_cons]
    unfold points
    rw [(h a (by simp)).px, (h a (by simp)).py, ih (fun b hb => h b (List.mem_cons_of_mem _ hb))]

theorem segments_conv (t : Trig α) {z : List (PyLine α × PyLine α)} (h : ∀ a ∈ z, ConvLn a.1 a.2) (hc : List.IsChain Fil z) :
    segments t (z.map (·.2)) = segments t (z.map (·.1)) := by
  induction z with
  | nil => rfl
  | cons a z ih =>
    cases z with
    | nil => rfl
    | cons b z =>
      have ih := ih (fun b hb => h b (List.mem_cons_of_mem _ hb)) hc.tail
      simp only [List.map_cons] at ih ⊢
      unfold segments
      rw [ih, (h a (by simp)).px, (h a (by simp)).py, (h b (by simp)).px, (h b (by simp)).py]
      rcases (List.isChain_cons_cons.1 hc).1 with h0 | h0
      · rw [h0]
        cases b.1.currentX <;> cases b.1.currentY <;> rfl
      · rw [h0]

theorem getDistances_conv (t : Trig α) {z : List (PyLine α × PyLine α)} (h : ∀ a ∈ z, ConvLn a.1 a.2) (hc : List.IsChain Fil z) :
    getDistances t (z.map (·.2)) = getDistances t (z.map (·.1)) := by
  unfold getDistances
  rw [segments_conv t h hc]

theorem conv_isSome {l l' : PyLine α} (h : ConvLn l l') : l'.e.isSome = l.e.isSome := by
  cases he : l.e with
  | none => rw [(h.e_none he).1]
  | some v =>
    have := (h.e_some (by rw [he]; simp)).1
    cases h' : l'.e with
    | none => exact absurd h' this
    | some w => rfl

theorem all_conv {f f' : PyLine α → Bool} {z : List (PyLine α × PyLine α)} (h : ∀ a ∈ z, f' a.2 = f a.1) :
    (z.map (·.2)).all f' = (z.map (·.1)).all f ∧ (z.map (·.2)).any f' = (z.map (·.1)).any f := by
  induction z with
  | nil => exact ⟨rfl, rfl⟩
  | cons a z ih =>
    obtain ⟨h1, h2⟩ := ih (fun b hb => h b (List.mem_cons_of_mem _ hb))
    simp only [List.map_cons, List.all_cons, List.any_cons, h1, h2, h a (by simp), and_self]

theorem uniformTail_conv {z : List (PyLine α × PyLine α)} (h : ∀ a ∈ z, ConvLn a.1 a.2) : uniformTail (z.map (·.2)) = uniformTail (z.map (·.1)) := by
  unfold uniformTail
  cases z with
  | nil => rfl
  | cons a z =>
    cases z with
    | nil => rfl
    | cons b z =>
      simp only [List.map_cons, List.getElem?_cons_succ, List.getElem?_cons_zero, List.drop_succ_cons, List.drop_zero]
      have hz : ∀ c ∈ b :: z, ConvLn c.1 c.2 := fun c hc => h c (List.mem_cons_of_mem _ hc)
      have hb := h b (by simp)
      have k1 := all_conv (f := fun l : PyLine α => l.e.isSome) (f' := fun l : PyLine α => l.e.isSome) (z := b :: z) (fun c hc => conv_isSome (hz c hc))
      have k2 := all_conv (f := fun l : PyLine α => decide (l.currentF = b.1.currentF)) (f' := fun l : PyLine α => decide (l.currentF = b.2.currentF)) (z := b :: z)
        (fun c hc => by simp only [(hz c hc).pf, hb.pf])
      have k3 := all_conv (f := fun l : PyLine α => decide (l.currentZ = b.1.currentZ)) (f' := fun l : PyLine α => decide (l.currentZ = b.2.currentZ)) (z := b :: z)
        (fun c hc => by simp only [(hz c hc).pz, hb.pz])
      simp only [List.map_cons] at k1 k2 k3
      rw [k1.1, k1.2, k2.1, k3.1, conv_isSome hb]

theorem queueValid_conv (t : Trig α) {z : List (PyLine α × PyLine α)} (h : ∀ a ∈ z, ConvLn a.1 a.2) (hc : List.IsChain Fil z) :
    queueValid t (z.map (·.2)) = queueValid t (z.map (·.1)) := by
  unfold queueValid
  rw [uniformTail_conv h, getDistances_conv t h hc, points_conv h]

theorem valid_conv (t : Trig α) {z : List (PyLine α × PyLine α)} (h : ∀ a ∈ z, ConvLn a.1 a.2) (hc : List.IsChain Fil z) :
    (arcOps t).valid (z.map (·.2)) = (arcOps t).valid (z.map (·.1)) := by
  unfold arcOps
  simp only
  rw [queueValid_conv t h hc]

/-- A valid queue with E words pushes filament. -/
theorem valid_filament {t : Trig α} {q : List (PyLine α)} (hv : (arcOps t).valid q = .ok true) {l : PyLine α} (hl : l ∈ q.drop 1) (he : l.e ≠ none)
    {d : Distances α} (hd : getDistances t q = .ok d) : d.totalFilament ≠ 0 := by
  unfold arcOps at hv
  simp only at hv
  unfold queueValid at hv
  cases hu : uniformTail q with
  | error e => rw [hu] at hv; cases hv
  | ok b =>
    obtain ⟨b, allE⟩ := b
    rw [hu] at hv
    cases b with
    | false => cases hv
    | true =>
      have hall : allE = true := by
        unfold uniformTail at hu
        cases hq : q[1]? with
        | none => rw [hq] at hu; cases hu
        | some q1 =>
          rw [hq] at hu
          simp only [Except.ok.injEq, Prod.mk.injEq, Bool.and_eq_true] at hu
          obtain ⟨⟨⟨h1, _⟩, _⟩, h2⟩ := hu
          rw [← h2]
          by_contra hn
          rw [if_neg hn] at h1
          rw [Bool.not_eq_true', List.any_eq_false] at h1
          have := h1 l hl
          cases hle : l.e with
          | none => exact he hle
          | some v => rw [hle] at this; simp at this
      subst hall
      simp only [if_true, hd] at hv
      by_cases hr : ratioOk d = true
      · unfold ratioOk at hr
        rw [Bool.and_eq_true, Bool.not_eq_true', decide_eq_false_iff_not] at hr
        have hpos : (0 : α) < d.avgRatio := lt_of_lt_of_le (by unfold arcEpsilon; positivity) (not_lt.1 hr.1)
        unfold getDistances at hd
        cases hs : segments t q with
        | error e => rw [hs] at hd; cases hd
        | ok ss =>
          rw [hs] at hd
          simp only [divE] at hd
          split_ifs at hd with h0
          · have := Except.ok.inj hd
            subst this
            simp only at hpos ⊢
            intro h1
            rw [h1, zero_div] at hpos
            exact lt_irrefl _ hpos
      · rw [if_neg hr] at hv; cases hv

/-- Generated lines for the program and for the converted program. -/
inductive GenConv : List (PyLine α) → List (PyLine α) → Prop where
  | arc {a a'} : SameArc a.raw a'.raw → GenConv [a] [a']
  | corrected {a k a'} : SameArc a.raw a'.raw → CorrectionText k.raw → GenConv [a, k] [a']
  | both {a k a' k'} : SameArc a.raw a'.raw → OnlyE k k' → GenConv [a, k] [a', k']

theorem sameArcs_gen {g g' : List (PyLine α)} (h : GenConv g g') : SameArcs g g' := by
  cases h with
  | arc h => exact .arc h .nil
  | corrected h k => exact .corrected h k .nil
  | both h k => exact .arc h (.line k .nil)

/-- The outcome for the converted program, compared with the outcome for the program: it fails in the same way, or divides by zero,
or succeeds as well. -/
def ConvEnd {β γ : Type} (R : β → γ → Prop) (a : Except Err β) (a' : Except Err γ) : Prop :=
  a' = .error .zeroDivision ∨ (∃ e, a = .error e ∧ a' = .error e) ∨ ∃ p p', a = .ok p ∧ a' = .ok p' ∧ R p p'

theorem points_known {q : List (PyLine α)} {pts : List (α × α)} (h : points q = .ok pts) : ∀ l ∈ q, l.currentX ≠ none := by
  induction q generalizing pts with
  | nil => simp
  | cons k q ih =>
    unfold points at h
    cases hx : k.currentX with
    | none => rw [hx] at h; simp [num] at h
    | some x =>
      cases hp : points q with
      | error e => rw [hp] at h; cases hk : k.currentY <;> simp [hx, hk, num] at h
      | ok ps =>
        intro l hl
        rcases List.mem_cons.1 hl with rfl | hl
        · rw [hx]; simp
        · exact ih hp l hl

theorem relArcE_error {t : Trig α} {r : α} (ss : List (Seg α)) : ∀ (as : List α) {e : Err}, relArcE t r ss as = .error e → e = .zeroDivision := by
  induction ss with
  | nil => intro as e h; unfold relArcE at h; cases h
  | cons s ss ih =>
    intro as e h
    cases as with
    | nil => unfold relArcE at h; cases h
    | cons a as =>
      unfold relArcE at h
      cases h1 : divE (s.filament * (r * a)) (2 * r * t.sin (a / 2)) with
      | error e' =>
        rw [h1] at h
        unfold divE at h1
        split_ifs at h1
        cases h1
        simpa using h.symm
      | ok v =>
        rw [h1] at h
        cases h2 : relArcE t r ss as with
        | error e' =>
          rw [h2] at h
          have := ih as h2
          subst this
          simpa using h.symm
        | ok w => rw [h2] at h; cases h

/-- The replacements for the program and for the converted program. -/
theorem toGcode_conv (t : Trig α) {z : List (PyLine α × PyLine α)} {e : α} (h : QC z e) (hlen : 2 ≤ z.length) (hv : (arcOps t).valid (z.map (·.1)) = .ok true)
    (last last' : PyLine α) :
    ConvEnd (fun r r' => ∃ a gen gen', z.head? = some a ∧ r = a.1 :: gen ++ [last] ∧ r' = a.2 :: gen' ++ [last'] ∧ GenConv gen gen')
      (toGcode t (z.map (·.1)) last) (toGcode t (z.map (·.2)) last') := by
  obtain ⟨a, z1, rfl⟩ : ∃ a z1, z = a :: z1 := by
    cases z with
    | nil => simp at hlen
    | cons a z1 => exact ⟨a, z1, rfl⟩
  have hz1 : z1 ≠ [] := by rintro rfl; simp at hlen
  obtain ⟨lw, hlw⟩ : ∃ lw, z1.getLast? = some lw := by
    cases h0 : z1.getLast? with
    | none => exact absurd (List.getLast?_eq_none_iff.1 h0) hz1
    | some lw => exact ⟨lw, rfl⟩
  have hlwm : lw ∈ z1 := List.mem_of_getLast? hlw
  have hlast : (a :: z1).getLast? = some lw := by
    rw [List.getLast?_cons, hlw]; rfl
  unfold toGcode
  rw [getDistances_conv t h.conv h.chain, points_conv h.conv, List.getLast?_map, List.getLast?_map, hlast, List.head?_map, List.head?_map, List.length_map, List.length_map]
  simp only [List.head?_cons, Option.map_some]
  have hl := h.conv lw (List.mem_cons_of_mem _ hlwm)
  have ha := h.conv a (by simp)
  cases hp : points ((a :: z1).map (·.1)) with
  | error er => exact .inr (.inl ⟨er, rfl, rfl⟩)
  | ok pts =>
    simp only
    cases getCircle t pts with
    | error er => exact .inr (.inl ⟨er, rfl, rfl⟩)
    | ok bc =>
      obtain ⟨b, c⟩ := bc
      simp only
      cases hd : getDistances t ((a :: z1).map (·.1)) with
      | error er => exact .inr (.inl ⟨er, rfl, rfl⟩)
      | ok d =>
        simp only
        cases c with
        | none => exact .inr (.inl ⟨_, rfl, rfl⟩)
        | some c =>
          simp only
          have harc : ∀ (cmd : Str) (v v' : α) (re re' : Option Bool) (x y f i j : Option α) (n : ℕ), (cmd = c!"G2" ∨ cmd = c!"G3") →
              SameArc
                ((unsplit ({ command := some cmd, x := x, y := y, i := i, j := j, f := f, e := some v, relativeE := re } : PyLine α)).raw ++ arcComment n)
                ((unsplit ({ command := some cmd, x := x, y := y, i := i, j := j, f := f, e := some v', relativeE := re' } : PyLine α)).raw ++ arcComment n) := by
            intro cmd v v' re re' x y f i j n hcmd
            refine ⟨cmd, fmtArg 'X' 3 x ++ fmtArg 'Y' 3 y, fmtFixed 5 v, fmtFixed 5 v', fmtArg 'F' 3 f ++ fmtArg 'I' 3 i ++ fmtArg 'J' 3 j ++ arcComment n, hcmd, ?_, ?_, ?_⟩
            · exact ⟨fmtArg 'F' 3 f ++ fmtArg 'I' 3 i ++ fmtArg 'J' 3 j, natDigits n ++ c!" segments", by simp [arcComment]⟩
            · simp [unsplit, fmtArg]
            · simp [unsplit, fmtArg]
          have hcmd : ((if 0 < c.direction then c!"G3" else c!"G2") = c!"G2" ∨ (if 0 < c.direction then c!"G3" else c!"G2") = c!"G3") := by
            split_ifs
            · exact .inr rfl
            · exact .inl rfl
          generalize (if 0 < c.direction then c!"G3" else c!"G2") = cmd at hcmd
          rw [hl.pf, hl.pe, ha.pe]
          by_cases he : lw.1.e = none
          · rw [(hl.e_none he).2]
            by_cases hr : lw.1.relativeE.getD false = true
            · rw [if_pos hr, if_pos hr]
              cases relArcE t c.radius d.segs (phaseDiffs t c pts) with
              | error er => exact .inr (.inl ⟨_, rfl, rfl⟩)
              | ok v => exact .inr (.inr ⟨_, _, rfl, rfl, a, [_], [_], rfl, rfl, rfl, .arc (harc _ _ _ _ _ _ _ _ _ _ _ hcmd)⟩)
            · rw [if_neg hr, if_neg hr]
              cases a.1.currentE with
              | none => exact .inr (.inl ⟨_, rfl, rfl⟩)
              | some e0 =>
                cases divE ((List.map (fun a => a * c.radius) (phaseDiffs t c pts)).sum * d.avgRatio) d.totalFilament with
                | error er => exact .inr (.inl ⟨_, rfl, rfl⟩)
                | ok rel =>
                  simp only
                  by_cases hcr : correctionLimit < rel - 1
                  · rw [if_pos hcr, if_pos hcr]
                    exact .inr (.inr ⟨_, _, rfl, rfl, a, [_, _], [_, _], rfl, rfl, rfl, .both (harc _ _ _ _ _ _ _ _ _ _ _ hcmd) (.inl rfl)⟩)
                  · rw [if_neg hcr, if_neg hcr]
                    exact .inr (.inr ⟨_, _, rfl, rfl, a, [_], [_], rfl, rfl, rfl, .arc (harc _ _ _ _ _ _ _ _ _ _ _ hcmd)⟩)
          · obtain ⟨_, r1, r2⟩ := hl.e_some he
            rw [r1, r2]
            simp only [Option.getD_some, if_true, Bool.false_eq_true, if_false]
            cases hra : relArcE t c.radius d.segs (phaseDiffs t c pts) with
            | error er => exact .inl (by rw [relArcE_error _ _ hra])
            | ok v =>
              have hx : a.1.currentX ≠ none := points_known hp a.1 (by simp)
              cases hce : a.1.currentE with
              | none => exact absurd hce ((h.known a (by simp)).resolve_left hx)
              | some e0 =>
                have htf : d.totalFilament ≠ 0 := valid_filament hv (l := lw.1) (by simpa using ⟨_, hlwm⟩) he hd
                have hdiv : divE ((List.map (fun a => a * c.radius) (phaseDiffs t c pts)).sum * d.avgRatio) d.totalFilament =
                    .ok ((List.map (fun a => a * c.radius) (phaseDiffs t c pts)).sum * d.avgRatio / d.totalFilament) := by rw [divE, if_neg htf]
                rw [hdiv]
                simp only
                cases hlce : lw.1.currentE with
                | none =>
                  have hx : lw.1.currentX ≠ none := points_known hp lw.1 (by simpa using .inr ⟨_, hlwm⟩)
                  exact absurd hlce ((h.known lw (List.mem_cons_of_mem _ hlwm)).resolve_left hx)
                | some e1 =>
                  split_ifs with hcr
                  · refine .inr (.inr ⟨_, _, rfl, rfl, a, [_, _], [_], rfl, rfl, rfl, .corrected (harc _ _ _ _ _ _ _ _ _ _ _ hcmd) ⟨?_, ?_⟩⟩)
                    · exact ⟨fmtFixed 5 e1 ++ (c!"; generated as arc to path relation is " ++ fmtFixed 6 _), by simp [unsplit, fmtArg]; rfl⟩
                    · exact ⟨_, fmtFixed 6 _, rfl⟩
                  · exact .inr (.inr ⟨_, _, rfl, rfl, a, [_], [_], rfl, rfl, rfl, .arc (harc _ _ _ _ _ _ _ _ _ _ _ hcmd)⟩)

/-! ### the queue machine -/

/-- The lines of a program and of the converted program, from extruder coordinate `e` on. -/
inductive CTrace : α → List (PyLine α) → List (PyLine α) → Prop where
  | nil (e) : CTrace e [] []
  | queued {e e' l l' ls ls'} : MoveOrComment l → ConvLn l l' → (l.command = none → l.currentX = none ∧ l.e = none) → (IsMove l → l.currentE = some e') →
      (l.e = none → e' = e) → (l.e ≠ none → l'.e = some (e' - e)) → CTrace e' ls ls' → CTrace e (l :: ls) (l' :: ls')
  | other {e e' l l' ls ls'} : ¬ MoveOrComment l → ¬ MoveOrComment l' → OnlyE l l' → CTrace e' ls ls' → CTrace e (l :: ls) (l' :: ls')

theorem qc_push {z : List (PyLine α × PyLine α)} {e e' : α} (h : QC z e) {l l' : PyLine α} (hm : MoveOrComment l) (hl : ConvLn l l')
    (h1 : l.command = none → l.currentX = none ∧ l.e = none) (h2 : IsMove l → l.currentE = some e') (h3 : l.e = none → e' = e)
    (h4 : l.e ≠ none → l'.e = some (e' - e)) :
    QC (z ++ [(inheritPos (z.map (·.1)) l, inheritPos (z.map (·.2)) l')]) e' := by
  have hchain : ∀ k k' : PyLine α, (∀ a, z.getLast? = some a → Fil a (k, k')) → List.IsChain Fil (z ++ [(k, k')]) := by
    intro k k' hk
    refine List.isChain_append.2 ⟨h.chain, List.isChain_singleton _, ?_⟩
    intro a ha b hb
    simp only [List.head?_cons, Option.mem_def, Option.some.injEq] at hb
    subst hb
    exact hk a ha
  rcases hm with hm | hm
  · obtain ⟨c, hc, hc'⟩ := hm
    have e1 : inheritPos (z.map (·.1)) l = l := by unfold inheritPos; rw [hc']
    have e2 : inheritPos (z.map (·.2)) l' = l' := by unfold inheritPos; rw [hl.command, hc']
    rw [e1, e2]
    have hcur := h2 ⟨c, hc, hc'⟩
    refine ⟨?_, hchain l l' ?_, ?_, ?_⟩
    · intro a ha
      rcases List.mem_append.1 ha with ha | ha
      · exact h.conv a ha
      · rw [List.mem_singleton.1 ha]; exact hl
    · intro a ha
      unfold Fil
      rcases h.last a ha with hx | hx
      · exact .inl hx
      · right
        have hac := h.conv a (List.mem_of_getLast? ha)
        unfold segFilament
        by_cases he : l.e = none
        · simp only [(hl.e_none he).2, (hl.e_none he).1, he, hl.pe, hac.pe]
        · obtain ⟨_, r1, r2⟩ := hl.e_some he
          simp only [r1, r2, Option.getD_some, if_true, Bool.false_eq_true, if_false, h4 he, hcur, hx, num]
    · intro a ha
      rcases List.mem_append.1 ha with ha | ha
      · exact h.known a ha
      · rw [List.mem_singleton.1 ha]; right; rw [hcur]; simp
    · intro a ha
      rw [List.getLast?_append] at ha
      simp only [List.getLast?_singleton, Option.some_or, Option.some.injEq] at ha
      subst ha
      exact .inr hcur
  · obtain ⟨hx, he⟩ := h1 hm
    have hee := h3 he
    subst hee
    cases hz : z.getLast? with
    | none =>
      rw [List.getLast?_eq_none_iff] at hz
      subst hz
      have e1 : inheritPos (([] : List (PyLine α × PyLine α)).map (·.1)) l = l := by unfold inheritPos; rw [hm]; rfl
      have e2 : inheritPos (([] : List (PyLine α × PyLine α)).map (·.2)) l' = l' := by unfold inheritPos; rw [hl.command, hm]; rfl
      rw [e1, e2]
      refine ⟨?_, List.isChain_singleton _, ?_, ?_⟩
      · intro a ha
        have : a = (l, l') := by simpa using ha
        subst this; exact hl
      · intro a ha
        have : a = (l, l') := by simpa using ha
        subst this; exact .inl hx
      · intro a ha
        have : (l, l') = a := by simpa using ha
        subst this; exact .inl hx
    | some b =>
      have hbm := List.mem_of_getLast? hz
      have hb := h.conv b hbm
      have e1 : inheritPos (z.map (·.1)) l = { l with currentX := b.1.currentX, currentY := b.1.currentY, currentZ := b.1.currentZ, currentE := b.1.currentE, currentF := b.1.currentF } := by
        unfold inheritPos; rw [hm, List.getLast?_map, hz]; rfl
      have e2 : inheritPos (z.map (·.2)) l' = { l' with currentX := b.2.currentX, currentY := b.2.currentY, currentZ := b.2.currentZ, currentE := b.2.currentE, currentF := b.2.currentF } := by
        unfold inheritPos; rw [hl.command, hm, List.getLast?_map, hz]; rfl
      rw [e1, e2]
      refine ⟨?_, hchain _ _ ?_, ?_, ?_⟩
      · intro a ha
        rcases List.mem_append.1 ha with ha | ha
        · exact h.conv a ha
        · rw [List.mem_singleton.1 ha]
          exact ⟨hl.out, hl.command, hb.px, hb.py, hb.pz, hb.pe, hb.pf, hl.e_none, hl.e_some⟩
      · intro a ha
        rw [hz] at ha
        obtain rfl := Option.some.inj ha
        right
        unfold segFilament
        simp only [(hl.e_none he).2, (hl.e_none he).1, he, hb.pe]
      · intro a ha
        rcases List.mem_append.1 ha with ha | ha
        · exact h.known a ha
        · rw [List.mem_singleton.1 ha]; exact h.known b hbm
      · intro a ha
        rw [List.getLast?_append] at ha
        simp only [List.getLast?_singleton, Option.some_or, Option.some.injEq] at ha
        subst ha
        exact h.last b hz

/-- The states of the optimiser on the two programs. -/
def QueueConv (t : Trig α) (e : α) (s s' : ArcSt α) : Prop :=
  ∃ z, s.queue = z.map (·.1) ∧ s'.queue = z.map (·.2) ∧ QC z e ∧ s'.validCircle = s.validCircle ∧
    (s.validCircle = true → 9 ≤ z.length ∧ (arcOps t).valid (z.map (·.1)) = .ok true)

theorem sameArcs_queue {z : List (PyLine α × PyLine α)} (h : ∀ a ∈ z, ConvLn a.1 a.2) : SameArcs (z.map (·.1)) (z.map (·.2)) := by
  induction z with
  | nil => exact .nil
  | cons a z ih => exact .line (h a (by simp)).out (ih fun b hb => h b (List.mem_cons_of_mem _ hb))

theorem qc_tail {a : PyLine α × PyLine α} {z : List (PyLine α × PyLine α)} {e : α} (h : QC (a :: z) e) : QC z e := by
  refine ⟨fun b hb => h.conv b (List.mem_cons_of_mem _ hb), h.chain.tail, fun b hb => h.known b (List.mem_cons_of_mem _ hb), ?_⟩
  intro b hb
  apply h.last b
  rw [List.getLast?_cons, hb]; rfl

theorem qc_last {z : List (PyLine α × PyLine α)} {k : PyLine α × PyLine α} {e : α} (h : QC (z ++ [k]) e) : QC [k] e := by
  refine ⟨?_, List.isChain_singleton _, ?_, ?_⟩
  · intro b hb; exact h.conv b (List.mem_append_right _ hb)
  · intro b hb; exact h.known b (List.mem_append_right _ hb)
  · intro b hb
    apply h.last b
    rw [List.getLast?_append, hb]; rfl

theorem arcFilter_queued (t : Trig α) {s s' : ArcSt α} {e e' : α} (h : QueueConv t e s s') {l l' : PyLine α} (hm : MoveOrComment l) (hl : ConvLn l l')
    (h1 : l.command = none → l.currentX = none ∧ l.e = none) (h2 : IsMove l → l.currentE = some e') (h3 : l.e = none → e' = e)
    (h4 : l.e ≠ none → l'.e = some (e' - e)) :
    ConvEnd (fun p p' => QueueConv t e' p.1 p'.1 ∧ SameArcs (replacement l p.2) (replacement l' p'.2))
      (arcFilter (arcOps t) s l) (arcFilter (arcOps t) s' l') := by
  obtain ⟨z, q1, q2, hq, hv, hvalid⟩ := h
  have hpush := qc_push hq hm hl h1 h2 h3 h4
  have hkc : (inheritPos (z.map (·.1)) l).command = l.command := kept_command (inheritPos_kept _ _)
  unfold arcFilter
  simp only
  rw [q1, q2]
  generalize inheritPos (z.map (·.1)) l = k at hpush hkc
  generalize inheritPos (z.map (·.2)) l' = k' at hpush
  have hk := hpush.conv (k, k') (by simp)
  have hmv : k'.inMoves = k.inMoves := by unfold PyLine.inMoves; rw [hk.command]
  have ez1 : z.map (·.1) ++ [k] = (z ++ [(k, k')]).map (·.1) := by simp
  have ez2 : z.map (·.2) ++ [k'] = (z ++ [(k, k')]).map (·.2) := by simp
  have hmc : (k.inMoves || decide (k.command = none)) = true := by
    rw [moveOrComment_of]
    rcases hm with hm | hm
    · exact .inl ((isMove_congr hkc).2 hm)
    · exact .inr (by rw [hkc]; exact hm)
  rw [ez1, ez2, List.length_map, List.length_map, hmv, hv, valid_conv t hpush.conv hpush.chain, hk.command]
  have hemit : s.validCircle = true → ConvEnd (fun r r' => ∃ a gen gen', z.head? = some a ∧ r = a.1 :: gen ++ [k] ∧ r' = a.2 :: gen' ++ [k'] ∧ GenConv gen gen')
      ((arcOps t).emit (z.map (·.1)) k) ((arcOps t).emit (z.map (·.2)) k') := by
    intro c3
    obtain ⟨v1, v2⟩ := hvalid c3
    exact toGcode_conv t hq (by omega) v2 k k'
  have hhead : ∀ a, z.head? = some a → OnlyE a.1 a.2 := fun a ha => (hq.conv a (List.mem_of_head? ha)).out
  by_cases c1 : minSegments < (z ++ [(k, k')]).length
  · rw [if_pos c1, if_pos c1]
    by_cases c2 : (!k.inMoves) = true
    · rw [if_pos c2, if_pos c2]
      by_cases c3 : s.validCircle = true
      · rw [if_pos c3, if_pos c3]
        rcases hemit c3 with k1 | ⟨er, k1, k2⟩ | ⟨r, r', k1, k2, a, gen, gen', f1, rfl, rfl, f3⟩
        · rw [k1]; exact .inl rfl
        · rw [k1, k2]; exact .inr (.inl ⟨_, rfl, rfl⟩)
        · rw [k1, k2]
          refine .inr (.inr ⟨_, _, rfl, rfl, ⟨[], rfl, rfl, qc_nil _, rfl, by simp⟩, ?_⟩)
          exact sameArcs_append (.line (hhead a f1) (sameArcs_gen f3)) (.line hk.out .nil)
      · rw [if_neg c3, if_neg c3]
        refine .inr (.inr ⟨_, _, rfl, rfl, ⟨[], rfl, rfl, qc_nil _, rfl, fun h => absurd h c3⟩, ?_⟩)
        exact sameArcs_queue hpush.conv
    · rw [if_neg c2, if_neg c2]
      cases hval : (arcOps t).valid ((z ++ [(k, k')]).map (·.1)) with
      | error er => exact .inr (.inl ⟨_, rfl, rfl⟩)
      | ok b =>
        cases b with
        | true =>
          refine .inr (.inr ⟨_, _, rfl, rfl, ⟨_, rfl, rfl, hpush, rfl, fun _ => ⟨?_, hval⟩⟩, .nil⟩)
          unfold minSegments at c1
          exact c1
        | false =>
          simp only
          by_cases c3 : s.validCircle = true
          · rw [if_pos c3, if_pos c3]
            rcases hemit c3 with k1 | ⟨er, k1, k2⟩ | ⟨r, r', k1, k2, a, gen, gen', f1, rfl, rfl, f3⟩
            · rw [k1]; exact .inl rfl
            · rw [k1, k2]; exact .inr (.inl ⟨_, rfl, rfl⟩)
            · rw [k1, k2]
              simp only [List.getLast?_append, List.getLast?_singleton, Option.some_or, List.dropLast_append_cons, List.dropLast_singleton, List.append_nil]
              refine .inr (.inr ⟨_, _, rfl, rfl, ⟨[(k, k')], rfl, rfl, qc_last hpush, rfl, by simp⟩, ?_⟩)
              exact .line (hhead a f1) (sameArcs_gen f3)
          · rw [if_neg c3, if_neg c3]
            generalize z ++ [(k, k')] = u at hpush
            cases u with
            | nil => exact .inr (.inl ⟨_, rfl, rfl⟩)
            | cons a u =>
              refine .inr (.inr ⟨_, _, rfl, rfl, ⟨u, rfl, rfl, qc_tail hpush, rfl, fun h => absurd h c3⟩, ?_⟩)
              exact .line (hpush.conv a (by simp)).out .nil
  · rw [if_neg c1, if_neg c1, if_pos hmc, if_pos hmc]
    refine .inr (.inr ⟨_, _, rfl, rfl, ⟨_, rfl, rfl, hpush, rfl, ?_⟩, .nil⟩)
    intro c3
    exfalso
    have := (hvalid c3).1
    apply c1
    rw [List.length_append]
    unfold minSegments
    simp only [List.length_cons, List.length_nil]
    omega

theorem arcFilter_other (t : Trig α) {s s' : ArcSt α} {e : α} (e' : α) (h : QueueConv t e s s') {l l' : PyLine α} (hm : ¬ MoveOrComment l) (hm' : ¬ MoveOrComment l')
    (hl : OnlyE l l') :
    ConvEnd (fun p p' => QueueConv t e' p.1 p'.1 ∧ SameArcs (replacement l p.2) (replacement l' p'.2))
      (arcFilter (arcOps t) s l) (arcFilter (arcOps t) s' l') := by
  obtain ⟨z, q1, q2, hq, hv, hvalid⟩ := h
  have inh : ∀ (q : List (PyLine α)) (k : PyLine α), ¬ MoveOrComment k → inheritPos q k = k := by
    intro q k hk
    unfold inheritPos
    cases hc : k.command with
    | some c => rfl
    | none => exact absurd (.inr hc) hk
  have nom : ∀ (k : PyLine α), ¬ MoveOrComment k → k.inMoves = false ∧ k.command ≠ none := by
    intro k hk
    constructor
    · by_contra hn
      exact hk (.inl ((inMoves_iff k).1 (by simpa using hn)))
    · exact fun hc => hk (.inr hc)
  unfold arcFilter
  simp only
  rw [inh _ _ hm, inh _ _ hm', q1, q2, (nom l hm).1, (nom l' hm').1, hv]
  have hlast : SameArcs (z.map (·.1) ++ [l]) (z.map (·.2) ++ [l']) := sameArcs_append (sameArcs_queue hq.conv) (.line hl .nil)
  have hlen : (z.map (·.2) ++ [l']).length = (z.map (·.1) ++ [l]).length := by simp
  rw [hlen]
  by_cases c1 : minSegments < (z.map (·.1) ++ [l]).length
  · rw [if_pos c1, if_pos c1]
    simp only [Bool.not_false, if_true]
    by_cases c3 : s.validCircle = true
    · rw [if_pos c3, if_pos c3]
      obtain ⟨v1, v2⟩ := hvalid c3
      have hem : ConvEnd (fun r r' => ∃ a gen gen', z.head? = some a ∧ r = a.1 :: gen ++ [l] ∧ r' = a.2 :: gen' ++ [l'] ∧ GenConv gen gen')
          ((arcOps t).emit (z.map (·.1)) l) ((arcOps t).emit (z.map (·.2)) l') := toGcode_conv t hq (by omega) v2 l l'
      rcases hem with k1 | ⟨er, k1, k2⟩ | ⟨r, r', k1, k2, a, gen, gen', f1, rfl, rfl, f3⟩
      · rw [k1]; exact .inl rfl
      · rw [k1, k2]; exact .inr (.inl ⟨_, rfl, rfl⟩)
      · rw [k1, k2]
        refine .inr (.inr ⟨_, _, rfl, rfl, ⟨[], rfl, rfl, qc_nil _, rfl, by simp⟩, ?_⟩)
        exact sameArcs_append (.line (hq.conv a (List.mem_of_head? f1)).out (sameArcs_gen f3)) (.line hl .nil)
    · rw [if_neg c3, if_neg c3]
      exact .inr (.inr ⟨_, _, rfl, rfl, ⟨[], rfl, rfl, qc_nil _, rfl, fun h => absurd h c3⟩, hlast⟩)
  · rw [if_neg c1, if_neg c1]
    rw [if_neg (by simpa using (nom l hm).2), if_neg (by simpa using (nom l' hm').2)]
    exact .inr (.inr ⟨_, _, rfl, rfl, ⟨[], rfl, rfl, qc_nil _, rfl, by simp⟩, hlast⟩)

theorem filterLines_conv (t : Trig α) {e : α} {ls ls' : List (PyLine α)} (h : CTrace e ls ls') : ∀ {s s' : ArcSt α}, QueueConv t e s s' →
    ConvEnd (fun p p' => SameArcs (p.2 ++ p.1.queue) (p'.2 ++ p'.1.queue)) (filterLines (arcFilter (arcOps t)) s ls)
      (filterLines (arcFilter (arcOps t)) s' ls') := by
  have step : ∀ {s s' : ArcSt α} {e' : α} {l l' : PyLine α} {ls ls' : List (PyLine α)},
      (∀ {s s' : ArcSt α}, QueueConv t e' s s' → ConvEnd (fun p p' => SameArcs (p.2 ++ p.1.queue) (p'.2 ++ p'.1.queue))
        (filterLines (arcFilter (arcOps t)) s ls) (filterLines (arcFilter (arcOps t)) s' ls')) →
      ConvEnd (fun p p' => QueueConv t e' p.1 p'.1 ∧ SameArcs (replacement l p.2) (replacement l' p'.2))
        (arcFilter (arcOps t) s l) (arcFilter (arcOps t) s' l') →
      ConvEnd (fun p p' => SameArcs (p.2 ++ p.1.queue) (p'.2 ++ p'.1.queue)) (filterLines (arcFilter (arcOps t)) s (l :: ls))
        (filterLines (arcFilter (arcOps t)) s' (l' :: ls')) := by
    intro s s' e' l l' ls ls' ih hs
    unfold filterLines
    rcases hs with k1 | ⟨er, k1, k2⟩ | ⟨⟨a, b⟩, ⟨a', b'⟩, k1, k2, k3, k4⟩
    · rw [k1]; exact .inl rfl
    · rw [k1, k2]; exact .inr (.inl ⟨_, rfl, rfl⟩)
    · rw [k1, k2]
      simp only
      rcases ih k3 with k1 | ⟨er, k1, k2⟩ | ⟨⟨c, d⟩, ⟨c', d'⟩, k1, k2, k5⟩
      · rw [k1]; exact .inl rfl
      · rw [k1, k2]; exact .inr (.inl ⟨_, rfl, rfl⟩)
      · rw [k1, k2]
        refine .inr (.inr ⟨_, _, rfl, rfl, ?_⟩)
        simp only [List.append_assoc]
        exact sameArcs_append k4 k5
  induction h with
  | nil e =>
    rintro s s' ⟨z, q1, q2, hq, _⟩
    refine .inr (.inr ⟨_, _, rfl, rfl, ?_⟩)
    simp only [List.nil_append]
    rw [q1, q2]
    exact sameArcs_queue hq.conv
  | queued hm hl h1 h2 h3 h4 _ ih =>
    intro s s' hs
    exact step ih (arcFilter_queued t hs hm hl h1 h2 h3 h4)
  | other hm hm' hl _ ih =>
    intro s s' hs
    exact step ih (arcFilter_other t _ hs hm hm' hl)

/-! ### loaded programs -/

theorem process_e {home : Home α} {m m' : Machine α} {r : Str} {l : PyLine α} (hp : processLine home m { raw := r } = .ok (m', l)) :
    (l.command = none → l.currentX = none ∧ l.e = none) ∧ (IsMove l → l.currentE = some m'.currentE) ∧ (l.e = none ∨ ¬ IsMove l → m'.currentE = m.currentE) := by
  have hsplit : ∀ (x : PyLine α), (split x).1.e = x.e ∧ (split x).1.currentX = x.currentX := by
    intro x
    unfold split
    split
    · exact ⟨rfl, rfl⟩
    · simp only
      split <;> exact ⟨rfl, rfl⟩
  obtain ⟨s1, s2⟩ := hsplit ({ raw := r } : PyLine α)
  have hk := (processLine_keeps hp).2.1
  rcases processLine_ok hp with ⟨hc, rfl, rfl⟩ | ⟨cmd, hc, hne, m1, l1, l2, m3, l3, h1, h2, h3, rfl, rfl⟩
  · refine ⟨fun _ => ⟨s2, s1⟩, ?_, fun _ => rfl⟩
    rintro ⟨c, hm, h⟩
    rcases hc with hc | hc
    · rw [hc] at h; simp at h
    · rw [hc] at h
      obtain rfl := Option.some.inj h
      simp at hm
  · refine ⟨fun h => ?_, fun _ => rfl, ?_⟩
    · rw [hk, hc] at h; simp at h
    · intro hor
      have hm1 : m1.currentE = m.currentE := by
        rcases stepModes_shape h1 with ⟨_, rfl, _⟩ | ⟨_, _, i, r, re, t, rfl⟩ <;> rfl
      unfold stepExtrusion at h3
      cases h2e : l2.e with
      | none =>
        simp only [stamp, h2e, Prod.mk.injEq] at h3
        rw [← h3.1, (stepPos_e home m1 l2 cmd).1, hm1]
      | some v =>
        have hle : l3.e = some v := by
          obtain ⟨te, ce, me, oe, ex, h4⟩ := stepExtrusion_shape (stepPos home m1 l2 cmd) (stamp (stepPos home m1 l2 cmd) l2) cmd
          unfold stepExtrusion at h4
          rw [h3] at h4
          rw [(Prod.mk.inj h4).2]
          simp [stamp, h2e]
        have hnm : ¬ IsMove (l3 : PyLine α) := by
          intro hm
          rcases hor with h | h
          · simp [hle] at h
          · exact h hm
        simp only [stamp, h2e] at h3
        have him : l2.isMove = false := by
          by_contra hn
          have hn : l2.isMove = true := by simpa using hn
          have h3m : l3.isMove = l2.isMove := by
            obtain ⟨te, ce, me, oe, ex, h4⟩ := stepExtrusion_shape (stepPos home m1 l2 cmd) (stamp (stepPos home m1 l2 cmd) l2) cmd
            unfold stepExtrusion at h4
            simp only [stamp, h2e] at h4
            rw [h3] at h4
            rw [(Prod.mk.inj h4).2]
          apply hnm
          have k2 := (processLine_keeps hp).2.2
          rw [split_isMove] at k2
          have : (split ({ raw := r } : PyLine α)).1.inMoves = true := by
            rw [← k2]
            show l3.isMove = true
            rw [h3m]; exact hn
          rw [inMoves_iff] at this
          exact (isMove_congr hk).2 this
        rw [him] at h3
        simp only [Bool.false_eq_true, if_false] at h3
        split_ifs at h3 with h92
        · simp only [Prod.mk.injEq] at h3
          rw [← h3.1]
          show (stepPos home m1 l2 cmd).currentE = m.currentE
          rw [(stepPos_e home m1 l2 cmd).1, hm1]
        · simp only [Prod.mk.injEq] at h3
          rw [← h3.1, (stepPos_e home m1 l2 cmd).1, hm1]

theorem convLn_refl {l : PyLine α} (h : l.e = none) : ConvLn l l :=
  ⟨.inl rfl, rfl, rfl, rfl, rfl, rfl, rfl, fun h => ⟨h, rfl⟩, fun hn => absurd h hn⟩

theorem noReset_tail {l : PyLine α} {ls : List (PyLine α)} (h : NoReset (l :: ls)) : NoReset ls :=
  fun pre k post e => h (l :: pre) k post (by rw [e]; rfl)

theorem run_ctrace {home : Home α} {m m' : Machine α} {raws : List Str} {out : List (PyLine α)} (h : Run home m (bare raws) m' out) :
    ∀ (s : RelSt α), m.offsetE = 0 → m.relativeE = false → (∀ l ∈ out, PlainE l) → s.relative = false → s.current = m.currentE → NoReset out →
      (m.currentE = 0 ∨ ∀ k ∈ out, ¬ RelabelsE k) → CTrace m.currentE out (scan relLine s out).2 := by
  generalize hb : bare raws = ls at h
  induction h generalizing raws with
  | nil m => intros; exact .nil _
  | cons hp _ ih =>
    rename_i m m1 m' l l' ls out _
    cases raws with
    | nil => simp [bare] at hb
    | cons r raws =>
      simp only [bare, List.map_cons, List.cons.injEq] at hb
      obtain ⟨rfl, hb⟩ := hb
      intro s ho hrel hl hs hcur hn hz
      obtain ⟨k1, k2, k3⟩ := process_plainE hp ho hrel (hl l' (by simp))
      obtain ⟨p1, p2, p3⟩ := process_e hp
      have ih : ∀ s : RelSt α, s.relative = false → s.current = m1.currentE → (m1.currentE = 0 ∨ ∀ k ∈ out, ¬ RelabelsE k) →
          CTrace m1.currentE out (scan relLine s out).2 :=
        fun s h1 h2 h3 => ih hb s k1 k2 (fun y hy => hl y (List.mem_cons_of_mem _ hy)) h1 h2 (noReset_tail hn) h3
      have h83 : ¬ HasCmd l' c!"M83" := (hl l' (by simp)).2.1
      have hz' : ∀ k ∈ out, m.currentE = 0 ∨ ¬ RelabelsE k := fun k hk => hz.imp id fun h => h k (List.mem_cons_of_mem _ hk)
      have hz1 : m1.currentE = m.currentE → m1.currentE = 0 ∨ ∀ k ∈ out, ¬ RelabelsE k := by
        intro h
        rcases hz with hz | hz
        · exact .inl (by rw [h, hz])
        · exact .inr fun k hk => hz k (List.mem_cons_of_mem _ hk)
      have hnot : ∀ {c : Str}, HasCmd l' c → c ∉ [c!"G0", c!"G1", c!"G2", c!"G3"] → ¬ MoveOrComment l' := by
        rintro c hc hno (⟨d, hd, hd'⟩ | hn)
        · rw [hc] at hd'
          rw [← Option.some.inj hd'] at hd
          exact hno hd
        · rw [hc] at hn; cases hn
      show CTrace m.currentE (l' :: out) ((relLine s l').2 :: (scan relLine (relLine s l').1 out).2)
      unfold relLine
      rw [if_neg h83]
      by_cases h82 : HasCmd l' c!"M82"
      · rw [if_pos h82]
        have hnm := hnot h82 (by decide)
        have hsame := p3 (.inr fun h => hnm (.inl h))
        refine .other hnm ?_ (.inr (.inl ⟨h82, rfl⟩)) (ih _ rfl (by rw [hsame]; exact hcur) (hz1 hsame))
        have hcm : (rawToLine c!"M83" : PyLine α).command = some c!"M83" := m83_line
        rintro (⟨d, hd, hd'⟩ | hn)
        · rw [hcm] at hd'
          rw [← Option.some.inj hd'] at hd
          exact absurd hd (by decide)
        · rw [hcm] at hn; cases hn
      rw [if_neg h82]
      by_cases h92 : HasCmd l' c!"G92"
      · rw [if_pos h92]
        have hnm := hnot h92 (by decide)
        have hsame := p3 (.inr fun h => hnm (.inl h))
        have hrl : RelabelsE l' → m.currentE = 0 := fun h => hz.resolve_right fun hz => hz l' (by simp) h
        cases he : l'.e with
        | some e =>
          have h0 : e = 0 := by
            have := (hl l' (by simp)).2.2 h92
            rw [he] at this
            simpa using this
          have hm0 := hrl ⟨h92, .inl (by rw [he]; simp)⟩
          exact .other hnm hnm (.inl rfl) (ih _ hs (by rw [hsame, hm0]; exact h0) (hz1 hsame))
        | none =>
          simp only
          by_cases hb0 : l'.x = none ∧ l'.y = none ∧ l'.z = none
          · rw [if_pos hb0]
            have hm0 := hrl ⟨h92, .inr hb0⟩
            exact .other hnm hnm (.inl rfl) (ih _ hs (by rw [hsame, hm0]) (hz1 hsame))
          · rw [if_neg hb0]
            exact .other hnm hnm (.inl rfl) (ih _ hs (by rw [hsame]; exact hcur) (hz1 hsame))
      rw [if_neg h92]
      by_cases hmv : IsMove l'
      · rw [if_pos ⟨hmv, hs⟩]
        cases he : l'.e with
        | none =>
          have hsame := p3 (.inl he)
          exact .queued (.inl hmv) (convLn_refl he) p1 p2 (fun _ => hsame) (fun h => absurd he h) (ih _ hs (by rw [hsame]; exact hcur) (hz1 hsame))
        | some v =>
          have hv : m1.currentE = v := by
            have h1 := (k3 hmv).2 v he
            rw [p2 hmv] at h1
            exact Option.some.inj h1
          have hne : l'.e ≠ none := by rw [he]; simp
          refine .queued (.inl hmv) ⟨.inr (.inr ⟨hmv, rfl, rfl, rfl, rfl, rfl, rfl, rfl, hne, by simp [unsplit]⟩), rfl, rfl, rfl, rfl, rfl, rfl, fun h => absurd h hne, ?_⟩ p1 p2
            (fun h => absurd h hne) ?_ (ih _ hs hv.symm ?_)
          · exact fun _ => ⟨by simp [unsplit], (k3 hmv).1, rfl⟩
          · intro _
            rw [hv, ← hcur]
            rfl
          · exact .inr fun k hk => hn [] l' out rfl hmv hne k hk
      · rw [if_neg (fun h => hmv h.1)]
        have hsame := p3 (.inr hmv)
        by_cases hc : l'.command = none
        · have he := (p1 hc).2
          exact .queued (.inr hc) (convLn_refl he) p1 p2 (fun _ => hsame) (fun h => absurd he h) (ih _ hs (by rw [hsame]; exact hcur) (hz1 hsame))
        · have hnm : ¬ MoveOrComment l' := by
            rintro (h | h)
            · exact hmv h
            · exact hc h
          exact .other hnm hnm (.inl rfl) (ih _ hs (by rw [hsame]; exact hcur) (hz1 hsame))

/-- The optimiser on a loaded program and on the program converted to relative extrusion. -/
theorem optimizeArcs_conv (t : Trig α) {env : Env α} {data : List Str} {home : Home α} {g c : GCode α} (h : GCode.load env data false home = .ok g)
    (hc : g.toRelativeE = .ok c) (hp : ∀ l ∈ program g, PlainE l) (hn : NoReset (program g)) :
    ConvEnd (fun o o' => SameArcs (program o) (program o')) (g.optimizeArcs t) (c.optimizeArcs t) := by
  obtain ⟨c', k1, _, k3⟩ := toRelativeE_program g
  rw [hc] at k1
  obtain rfl := Except.ok.inj k1
  obtain ⟨out, hr, hout⟩ := load_run' h
  have e : out = program g := by rw [← hout rfl, (load_indexed h).flat]; rfl
  subst e
  have htr := run_ctrace hr RelSt.init rfl rfl hp rfl rfl hn (.inl rfl)
  have hfl := filterLines_conv t htr (s := {}) (s' := {}) ⟨[], rfl, rfl, qc_nil _, rfl, by simp⟩
  rw [← k3] at hfl
  have f1 := optimizeArcs_flat t g (load_layers_ne h)
  have f2 := optimizeArcs_flat t c (converted_etrace h hc).2
  rcases hfl with k | ⟨er, k, k'⟩ | ⟨p, p', k, k', hs⟩
  · rw [k] at f2
    rcases f2.outcomes with ⟨e2, a, b⟩ | ⟨_, _, _, b, _⟩
    · cases b; exact .inl a
    · cases b
  · rw [k] at f1
    rw [k'] at f2
    rcases f2.outcomes with ⟨e2, a, b⟩ | ⟨_, _, _, b, _⟩
    · rcases f1.outcomes with ⟨e1, a1, b1⟩ | ⟨_, _, _, b1, _⟩
      · cases b; cases b1; exact .inr (.inl ⟨_, a1, a⟩)
      · cases b1
    · cases b
  · rw [k] at f1
    rw [k'] at f2
    rcases f2.outcomes with ⟨e2, a, b⟩ | ⟨o', _, a, b, r⟩
    · cases b
    · rcases f1.outcomes with ⟨e1, a1, b1⟩ | ⟨o, _, a1, b1, r1⟩
      · cases b1
      · cases b; cases b1
        refine .inr (.inr ⟨o, o', a1, a, ?_⟩)
        show SameArcs (program o) (program o')
        rw [r, r1]; exact hs

end GCodeUtils
