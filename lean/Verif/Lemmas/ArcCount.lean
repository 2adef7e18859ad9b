import Verif.Lemmas.ArcTrack
import Verif.Lemmas.ArcReal

/-
  The extruder coordinate and the feed rate under arc optimisation.
-/

set_option linter.unusedSectionVars false

namespace GCodeUtils

open Spec

variable {α : Type} [Field α] [LinearOrder α] [IsStrictOrderedRing α] [FloorRing α]

/-! ### what loading records about E -/

theorem process_plainE {home : Home α} {m m' : Machine α} {r : Str} {l : PyLine α} (hp : processLine home m { raw := r } = .ok (m', l))
    (ho : m.offsetE = 0) (hrel : m.relativeE = false) (hl : PlainE l) :
    m'.offsetE = 0 ∧ m'.relativeE = false ∧ (IsMove l → l.relativeE = some false ∧ ∀ v, l.e = some v → l.currentE = some v) := by
  obtain ⟨_, hcmd, him⟩ := processLine_keeps hp
  rw [split_isMove] at him
  have himv : l.isMove = true ↔ IsMove l := by
    rw [him, inMoves_iff, isMove_congr hcmd]
  rcases processLine_ok hp with ⟨hc, rfl, rfl⟩ | ⟨cmd, hc, hne, m1, l1, l2, m3, l3, h1, h2, h3, rfl, rfl⟩
  · refine ⟨ho, hrel, ?_⟩
    rintro ⟨c, hm, h⟩
    rcases hc with hc | hc
    · rw [hc] at h; simp at h
    · rw [hc] at h
      obtain rfl := Option.some.inj h
      simp at hm
  · rw [hc] at hcmd
    have hm1 : m1.offsetE = 0 ∧ m1.relativeE = false ∧ ((split ({ raw := r } : PyLine α)).1.isMove = true → l1.relativeE = some false ∧ l1.isMove = true) ∧
        ((split ({ raw := r } : PyLine α)).1.isMove = false → l1.isMove = false) := by
      unfold stepModes at h1
      have n1 : cmd ≠ c!"G91" := fun h => hl.1 (by rw [HasCmd, hcmd, h])
      have n2 : cmd ≠ c!"M83" := fun h => hl.2.1 (by rw [HasCmd, hcmd, h])
      split_ifs at h1 with a0 a1 a2 a3 a4 a5
      · simp only [Except.ok.injEq, Prod.mk.injEq] at h1
        rw [← h1.1, ← h1.2]
        exact ⟨ho, hrel, fun _ => ⟨by rw [hrel], a0⟩, fun h => by rw [h] at a0; cases a0⟩
      all_goals first
        | (simp only [Except.ok.injEq, Prod.mk.injEq] at h1
           rw [← h1.1, ← h1.2]
           refine ⟨ho, ?_, fun h => absurd h a0, fun h => h⟩
           first | exact hrel | rfl)
        | skip
      cases hpi : parseInt cmd.tail with
      | none => rw [hpi] at h1; cases h1
      | some tt =>
        rw [hpi] at h1
        simp only [Except.ok.injEq, Prod.mk.injEq] at h1
        rw [← h1.1, ← h1.2]
        exact ⟨ho, hrel, fun h => absurd h a0, fun h => h⟩
    obtain ⟨e1, e2, e3, e4⟩ := hm1
    obtain ⟨x, y, z, e, f, i, j, h5⟩ := ite_coords_argsOnly h2
    have hsp : (stepPos home m1 l2 cmd).offsetE = 0 ∧ (stepPos home m1 l2 cmd).relativeE = false := by
      unfold stepPos
      split_ifs
      · exact ⟨e1, e2⟩
      · simp only
        split_ifs <;> exact ⟨e1, e2⟩
      · simp only
        cases l2.x <;> cases l2.y <;> cases l2.z <;> exact ⟨e1, e2⟩
      · exact ⟨e1, e2⟩
    have hl2m : l2.isMove = l1.isMove ∧ l2.relativeE = l1.relativeE := by rw [h5]; exact ⟨rfl, rfl⟩
    unfold stepExtrusion at h3
    cases h2e : l2.e with
    | none =>
      simp only [stamp, h2e, Prod.mk.injEq] at h3
      obtain ⟨rfl, rfl⟩ := h3
      refine ⟨hsp.1, hsp.2, fun hm => ⟨?_, ?_⟩⟩
      · show l2.relativeE = some false
        rw [hl2m.2]
        refine (e3 ?_).1
        rw [split_isMove, inMoves_iff]
        exact (isMove_congr (by rw [hc]; exact hcmd)).1 hm
      · intro v hv; simp at hv
    | some v =>
      simp only [stamp, h2e] at h3
      by_cases hmv : l2.isMove = true
      · rw [if_pos hmv] at h3
        have hspm : (split ({ raw := r } : PyLine α)).1.isMove = true := by
          by_contra hn
          rw [hl2m.1, e4 (by simpa using hn)] at hmv
          cases hmv
        have hr2 : l2.relativeE = some false := by rw [hl2m.2]; exact (e3 hspm).1
        rw [hr2] at h3
        simp only [Option.getD_some, Bool.false_eq_true, if_false, Prod.mk.injEq] at h3
        obtain ⟨rfl, rfl⟩ := h3
        refine ⟨hsp.1, hsp.2, fun _ => ⟨rfl, ?_⟩⟩
        intro w hw
        show some (v + (stepPos home m1 l2 cmd).offsetE) = some w
        rw [hsp.1, add_zero]
        simpa [h2e] using hw
      · rw [if_neg hmv] at h3
        have hnm : ∀ {q : PyLine α}, q.command = some cmd → ¬ IsMove q := by
          intro q hq hm
          apply hmv
          rw [hl2m.1]
          refine (e3 ?_).2
          rw [split_isMove, inMoves_iff]
          exact (isMove_congr (by rw [hc, hq])).1 hm
        by_cases h92 : cmd = c!"G92"
        · rw [if_pos h92] at h3
          simp only [Prod.mk.injEq] at h3
          obtain ⟨rfl, rfl⟩ := h3
          refine ⟨?_, hsp.2, fun hm => absurd hm (hnm hcmd)⟩
          have := hl.2.2 (by rw [HasCmd, hcmd, h92])
          simp only [reduceCtorEq, Option.some.injEq, false_or] at this
          exact this
        · rw [if_neg h92] at h3
          simp only [Prod.mk.injEq] at h3
          obtain ⟨rfl, rfl⟩ := h3
          exact ⟨hsp.1, hsp.2, fun hm => absurd hm (hnm hcmd)⟩

theorem run_plainE {home : Home α} {m m' : Machine α} {raws : List Str} {out : List (PyLine α)} (h : Run home m (bare raws) m' out)
    (ho : m.offsetE = 0) (hrel : m.relativeE = false) (hl : ∀ l ∈ out, PlainE l) :
    ∀ l ∈ out, IsMove l → l.relativeE = some false ∧ ∀ v, l.e = some v → l.currentE = some v := by
  generalize hb : bare raws = ls at h
  induction h generalizing raws with
  | nil m => intro l hl; simp at hl
  | cons hp _ ih =>
    rename_i m m1 m' l l' ls out _
    cases raws with
    | nil => simp [bare] at hb
    | cons r raws =>
      simp only [bare, List.map_cons, List.cons.injEq] at hb
      obtain ⟨rfl, hb⟩ := hb
      obtain ⟨k1, k2, k3⟩ := process_plainE hp ho hrel (hl l' (by simp))
      intro x hx
      rcases List.mem_cons.1 hx with rfl | hx
      · exact k3
      · exact ih k1 k2 (fun y hy => hl y (List.mem_cons_of_mem _ hy)) hb x hx

theorem load_plainE {env : Env α} {data : List Str} {home : Home α} {g : GCode α} (h : GCode.load env data false home = .ok g)
    (hl : ∀ l ∈ program g, PlainE l) : ∀ l ∈ program g, IsMove l → l.relativeE = some false ∧ ∀ v, l.e = some v → l.currentE = some v := by
  obtain ⟨out, hr, hout⟩ := load_run' h
  have e : out = program g := by rw [← hout rfl, (load_indexed h).flat]; rfl
  rw [← e] at hl ⊢
  exact run_plainE hr rfl rfl hl

/-! ### printers -/

theorem exec_eCoord (home : Pos3 α) (p : Printer α) {l : PyLine α} (hr : p.relE = false) (n1 : ¬ HasCmd l c!"G91") (n2 : ¬ HasCmd l c!"M83") :
    (p.exec home l).relE = false ∧
    (p.exec home l).eCoord = if IsMove l ∨ HasCmd l c!"G92" then l.e.getD p.eCoord else p.eCoord := by
  by_cases hm : IsMove l
  · rw [exec_move home p hm, if_pos (Or.inl hm)]
    refine ⟨hr, ?_⟩
    simp only [Printer.eCoord, Printer.moveTo]
    cases l.e with
    | none => simp [Printer.push]
    | some v => simp [Printer.push, axis, hr]
  by_cases h92 : HasCmd l c!"G92"
  · rw [exec_g92 home p h92, if_pos (Or.inr h92)]
    refine ⟨hr, ?_⟩
    simp only [Printer.eCoord, Printer.relabelTo]
    cases l.e with
    | none => simp [relabel]
    | some v => simp [relabel]
  rw [if_neg (not_or.2 ⟨hm, h92⟩)]
  unfold Printer.exec
  cases hc : l.command with
  | none => exact ⟨hr, rfl⟩
  | some cmd =>
    simp only
    rw [if_neg (fun h => hm ⟨cmd, h, hc⟩)]
    split_ifs with a1 a2 a3 a4 a5 a6 a7 a8
    · exact ⟨hr, rfl⟩
    · exact ⟨hr, rfl⟩
    · exact ⟨hr, rfl⟩
    · exact ⟨rfl, rfl⟩
    · exact absurd (by rw [HasCmd, hc, a5]) n1
    · exact absurd (by rw [HasCmd, hc, a6]) h92
    · exact ⟨rfl, rfl⟩
    · exact absurd (by rw [HasCmd, hc, a8]) n2
    · split <;> exact ⟨hr, rfl⟩

/-! ### following the extruder coordinate -/

/-- What is used of a loaded program. -/
structure PlainProgram (x : List (PyLine α)) : Prop where
  plain : ∀ l ∈ x, PlainE l
  comment : ∀ l ∈ x, l.command = none → l.e = none
  move : ∀ l ∈ x, IsMove l → l.relativeE = some false ∧ ∀ v, l.e = some v → l.currentE = some v

theorem etrace_comment {e : α} {ls : List (PyLine α)} (h : ETrace e ls) : ∀ l ∈ ls, l.command = none → l.e = none := by
  induction h with
  | nil => intro l hl; simp at hl
  | cons hc _ _ _ ih =>
    intro l hl
    rcases List.mem_cons.1 hl with rfl | hl
    · exact fun h => (hc h).1
    · exact ih l hl

theorem load_comment {env : Env α} {data : List Str} {home : Home α} {g : GCode α} (h : GCode.load env data false home = .ok g) :
    ∀ l ∈ program g, l.command = none → l.e = none := by
  obtain ⟨out, hr, hout⟩ := load_run' h
  have e : out = program g := by rw [← hout rfl, (load_indexed h).flat]; rfl
  rw [← e]
  exact etrace_comment (run_etrace hr)

/-- The lines of a replaced window are moves, unchanged. -/
theorem window_same {x w w' : List (PyLine α)} (hx : ∀ l ∈ x, l.command = none → l.e = none) (hw : ∀ l ∈ w, l ∈ x) (hk : List.Forall₂ Kept w w')
    (hm : ∀ l ∈ w', MoveOrComment l) (hE : ∀ l ∈ w', l.e ≠ none) : w' = w ∧ ∀ l ∈ w, IsMove l := by
  induction hk with
  | nil => exact ⟨rfl, fun l hl => by simp at hl⟩
  | cons h _ ih =>
    rename_i l l' w w' _
    obtain ⟨k1, k2⟩ := ih (fun l hl => hw l (List.mem_cons_of_mem _ hl)) (fun l hl => hm l (List.mem_cons_of_mem _ hl)) (fun l hl => hE l (List.mem_cons_of_mem _ hl))
    have hn : l.command ≠ none := by
      intro hc
      exact hE l' (by simp) (by rw [(kept_z h).2]; exact hx l (hw l (by simp)) hc)
    have hl : l' = l := by
      rcases h with h | ⟨hc, _⟩
      · exact h
      · exact absurd hc hn
    subst hl
    refine ⟨by rw [k1], ?_⟩
    intro y hy
    rcases List.mem_cons.1 hy with rfl | hy
    · rcases hm y (by simp) with h | h
      · exact h
      · exact absurd h hn
    · exact k2 y hy

theorem run_relE (home : Pos3 α) (w : List (PyLine α)) : ∀ p : Printer α, p.relE = false → (∀ l ∈ w, ¬ HasCmd l c!"G91" ∧ ¬ HasCmd l c!"M83") →
    (p.run home w).relE = false := by
  induction w with
  | nil => intro p hp _; exact hp
  | cons l w ih =>
    intro p hp hw
    rw [run_cons]
    exact ih _ (exec_eCoord home p hp (hw l (by simp)).1 (hw l (by simp)).2).1 (fun x hx => hw x (List.mem_cons_of_mem _ hx))

/-- The amounts of a window with absolute extrusion add up. -/
theorem fils_telescope (w : List (PyLine α)) : ∀ (start : PyLine α) (fils : List α) (e0 : α), (∀ l ∈ w, l.relativeE = some false) → start.currentE = some e0 →
    List.Forall₂ (fun (s : PyLine α × PyLine α) v => Pushes s.1 s.2 v) (steps (start :: w)) fils → ∀ last e1, (start :: w).getLast? = some last →
    last.currentE = some e1 → fils.sum = e1 - e0 := by
  induction w with
  | nil =>
    intro start fils e0 _ h0 h last e1 hl h1
    simp only [steps, List.tail_cons, List.zip_nil_right] at h
    cases h
    simp only [List.getLast?_singleton, Option.some.injEq] at hl
    subst hl
    rw [h0] at h1
    rw [Option.some.inj h1, sub_self]; rfl
  | cons a w ih =>
    intro start fils e0 hr h0 h last e1 hl h1
    rw [steps_cons] at h
    cases h with
    | cons hp h =>
      simp only [Pushes, hr a (by simp), Option.some.injEq, Bool.false_eq_true, if_false] at hp
      obtain ⟨x, y, hx, hy, rfl⟩ := hp
      rw [h0] at hy
      obtain rfl := Option.some.inj hy
      rw [List.sum_cons, ih a _ x (fun l hl => hr l (List.mem_cons_of_mem _ hl)) hx h last e1 (by simpa [List.getLast?_cons_cons] using hl) h1]
      ring

theorem sameCount_plain (home : Pos3 α) {p q : Printer α} {l : PyLine α} (hp : p.relE = false) (hq : q.relE = false) (hl : PlainE l) : SameCount home p q l := by
  obtain ⟨_, h1⟩ := exec_eCoord home p hp hl.1 hl.2.1
  obtain ⟨_, h2⟩ := exec_eCoord home q hq hl.1 hl.2.1
  unfold SameCount
  rw [h1, h2]
  by_cases hm : IsMove l ∨ HasCmd l c!"G92"
  · rw [if_pos hm, if_pos hm]
    cases he : l.e with
    | none => rw [if_neg (by simp)]; rfl
    | some v => rw [if_pos ⟨by simp, hm⟩]; rfl
  · rw [if_neg hm, if_neg hm, if_neg (fun h => hm h.2)]

theorem windowCount_plain (home : Pos3 α) {t : Trig α} {x : List (PyLine α)} (hx : PlainProgram x) {p q : Printer α} (hp : p.relE = false) (hq : q.relE = false)
    {start : PyLine α} {w gen : List (PyLine α)} (hw : ∀ l ∈ w, l ∈ x) (hm : ∀ l ∈ w, IsMove l) (hR : ArcReplacement t start w gen) (hE : ∀ l ∈ w, l.e ≠ none) :
    (q.run home gen).relE = false ∧ WindowCount home p q start w gen := by
  obtain ⟨arc0, harc, _, _, _⟩ := replacement_gen hR
  obtain ⟨hf, pts, c, r, paths, fils, arc, rest, ho, ha, hc, rfl⟩ := hR
  obtain ⟨last, hlast, _, h2⟩ := ha.filament
  have hne : w ≠ [] := by rintro rfl; simp at hlast
  obtain ⟨_, hpos, _, _, _⟩ := onArc_positive ho hE hne
  have hlw := List.mem_of_getLast? hlast
  obtain ⟨r1, r2⟩ := hx.move last (hw last hlw) (hm last hlw)
  obtain ⟨_, e0, he0, hae⟩ := h2 (by rw [r1]; simp)
  obtain ⟨v, hv⟩ := Option.ne_none_iff_exists'.1 (hE last hlw)
  have hcur := r2 v hv
  have hsum := fils_telescope w start fils e0 (fun l hl => (hx.move l (hw l hl) (hm l hl)).1) he0 ho.fils_eq last v
    (by rw [List.getLast?_cons, hlast]; rfl) hcur
  have hpw : (p.run home w).eCoord = v := by
    obtain ⟨ys, rfl⟩ := List.getLast?_eq_some_iff.1 hlast
    have hnm : ∀ l ∈ ys ++ [last], ¬ HasCmd l c!"G91" ∧ ¬ HasCmd l c!"M83" := fun l hl => ⟨(hx.plain l (hw l hl)).1, (hx.plain l (hw l hl)).2.1⟩
    have hr := run_relE home ys p hp (fun l hl => hnm l (by simp [hl]))
    rw [run_append']
    show (Printer.exec home _ last).eCoord = v
    rw [(exec_eCoord home _ hr (hnm last (by simp)).1 (hnm last (by simp)).2).2, if_pos (Or.inl (hm last (by simp))), hv]; rfl
  have harcm : IsMove arc := by
    obtain ⟨p0, p2, _, _, hcmd⟩ := ha.command
    apply isMove_g23
    by_cases hd : 0 < turn t c p0 p2
    · rw [if_pos hd] at hcmd; exact Or.inr hcmd
    · rw [if_neg hd] at hcmd; exact Or.inl hcmd
  obtain ⟨k1, k2⟩ := exec_eCoord home q hq (move_not_cmd harcm c!"G91" (by decide)) (move_not_cmd harcm c!"M83" (by decide))
  rw [if_pos (Or.inl harcm), hae, Option.getD_some] at k2
  obtain ⟨last', hlast', hc⟩ := hc
  rw [hlast] at hlast'
  obtain rfl := Option.some.inj hlast'
  split at hc
  · obtain ⟨g, rfl, hg, _, _, _, hge⟩ := hc
    obtain ⟨m1, m2⟩ := exec_eCoord home (q.exec home arc) k1 (cmd_exclusive hg.1 (d := c!"G91") (by decide)) (cmd_exclusive hg.1 (d := c!"M83") (by decide))
    rw [if_pos (Or.inr hg.1), hge, hcur] at m2
    refine ⟨m1, e0, v, he0, hpw, by linarith, Or.inl ⟨rfl, m2⟩⟩
  · rename_i hcond
    subst hc
    refine ⟨k1, e0, v, he0, hpw, by linarith, Or.inr ⟨rfl, ?_⟩⟩
    show (Printer.exec home q arc).eCoord - v ≤ _
    rw [k2, ← hsum]
    have hle := not_lt.1 (fun h => hcond ⟨by rw [r1]; simp, h⟩)
    generalize ((angles t c pts).map (fun a => a * r)).sum * (fils.sum / paths.sum) = A at hle ⊢
    have h3 : A / fils.sum ≤ 101 / 100 := by linarith [show (101 / 100 : α) = 1 / 100 + 1 by norm_num]
    rw [div_le_iff₀ hpos] at h3
    have : e0 + A - v = A - fils.sum := by rw [hsum]; ring
    rw [this]
    have h4 : (101 / 100 : α) * fils.sum = fils.sum + 1 / 100 * fils.sum := by ring
    linarith

theorem follows_count (home : Pos3 α) {t : Trig α} {x0 x y : List (PyLine α)} (hx : PlainProgram x0)
    (h : Rewrites (fun start w gen => ArcReplacement t start w gen ∧ ∀ l ∈ w, l.e ≠ none) x y) : (∀ l ∈ x, l ∈ x0) → ∀ p q : Printer α, p.relE = false → q.relE = false →
    Follows home (fun start w gen => ArcReplacement t start w gen ∧ ∀ l ∈ w, l.e ≠ none) (SameCount home) (WindowCount home) p q x y := by
  induction h with
  | done => intro _ p q _ _; exact .done
  | keep hk _ ih =>
    rename_i l l' a b _
    intro hs p q hp hq
    have hl := hx.plain l (hs l (by simp))
    refine .keep hk (sameCount_plain home hp hq hl) (ih (fun y hy => hs y (List.mem_cons_of_mem _ hy)) _ _ (exec_eCoord home p hp hl.1 hl.2.1).1 ?_)
    rw [exec_kept home q hk]
    exact (exec_eCoord home q hq hl.1 hl.2.1).1
  | arc hk hw hR _ ih =>
    rename_i l l' w w' gen a b _
    intro hs p q hp hq
    have hl := hx.plain l (hs l (by simp))
    have hww : ∀ l ∈ w, l ∈ x0 := fun l hl => hs l (by simp [hl])
    obtain ⟨rfl, hm⟩ := window_same hx.comment hww hw hR.1.1.2.1 hR.2
    have hp1 := (exec_eCoord home p hp hl.1 hl.2.1).1
    have hq1 : (q.exec home l').relE = false := by rw [exec_kept home q hk]; exact (exec_eCoord home q hq hl.1 hl.2.1).1
    obtain ⟨k1, k2⟩ := windowCount_plain home hx hp1 hq1 hww hm hR.1 hR.2
    refine .arc hk hw hR (sameCount_plain home hp hq hl) k2 (ih (fun y hy => hs y (by simp [hy])) _ _ ?_ k1)
    rw [run_cons]
    exact run_relE home _ _ hp1 (fun y hy => ⟨(hx.plain y (hww y hy)).1, (hx.plain y (hww y hy)).2.1⟩)

/-! ### feed rates -/

/-- The last F word of the moves so far. -/
def feedAfter (f : α) (ls : List (PyLine α)) : α := ls.foldl (fun f l => if IsMove l then l.f.getD f else f) f

theorem exec_feed_eq (home : Pos3 α) (p : Printer α) (l : PyLine α) : (p.exec home l).feed = if IsMove l then l.f.getD p.feed else p.feed := by
  by_cases hm : IsMove l
  · rw [exec_move home p hm, if_pos hm]; rfl
  · rw [if_neg hm]
    unfold Printer.exec
    cases hc : l.command with
    | none => rfl
    | some cmd =>
      simp only
      rw [if_neg (fun h => hm ⟨cmd, h, hc⟩)]
      split_ifs
      all_goals first | rfl | skip
      split <;> rfl

theorem run_feed_eq (home : Pos3 α) (ls : List (PyLine α)) : ∀ p : Printer α, (p.run home ls).feed = feedAfter p.feed ls := by
  induction ls with
  | nil => intro p; rfl
  | cons l ls ih =>
    intro p
    rw [run_cons, ih, exec_feed_eq]; rfl

theorem feedAfter_forget {ls : List (PyLine α)} (h : ∃ k ∈ ls, IsMove k ∧ k.f ≠ none) : ∀ f f' : α, feedAfter f ls = feedAfter f' ls := by
  induction ls with
  | nil => obtain ⟨k, hk, _⟩ := h; simp at hk
  | cons l ls ih =>
    intro f f'
    show feedAfter _ ls = feedAfter _ ls
    by_cases hl : IsMove l ∧ l.f ≠ none
    · obtain ⟨v, hv⟩ := Option.ne_none_iff_exists'.1 hl.2
      simp only [if_pos hl.1, hv, Option.getD_some]
    · obtain ⟨k, hk, hk2⟩ := h
      rcases List.mem_cons.1 hk with rfl | hk
      · exact absurd hk2 hl
      · exact ih ⟨k, hk, hk2⟩ _ _

/-- Loading records the feed rate in force on moves. -/
theorem run_feeds {home : Home α} {m m' : Machine α} {raws : List Str} {out : List (PyLine α)} (h : Run home m (bare raws) m' out) :
    ∀ pre l post, out = pre ++ l :: post → IsMove l → l.currentF = some (feedAfter m.currentF (pre ++ [l])) := by
  generalize hb : bare raws = ls at h
  induction h generalizing raws with
  | nil m => intro pre l post h; simp at h
  | cons hp _ ih =>
    rename_i m m1 m' l0 l' ls out _
    cases raws with
    | nil => simp [bare] at hb
    | cons r raws =>
      simp only [bare, List.map_cons, List.cons.injEq] at hb
      obtain ⟨rfl, hb⟩ := hb
      have key : m1.currentF = (if IsMove l' then l'.f.getD m.currentF else m.currentF) ∧ (IsMove l' → l'.currentF = some m1.currentF) := by
        obtain ⟨_, hcmd, him⟩ := processLine_keeps hp
        rw [split_isMove] at him
        have himv : l'.isMove = true ↔ IsMove l' := by rw [him, inMoves_iff, isMove_congr hcmd]
        rcases processLine_ok hp with ⟨hc, rfl, rfl⟩ | ⟨cmd, hc, hne, m2, l1, l2, m3, l3, h1, h2, h3, rfl, rfl⟩
        · have hn : ¬ IsMove (split ({ raw := r } : PyLine α)).1 := by
            rintro ⟨c, hm, h⟩
            rcases hc with hc | hc
            · rw [hc] at h; simp at h
            · rw [hc] at h
              obtain rfl := Option.some.inj h
              simp at hm
          exact ⟨by rw [if_neg hn], fun h => absurd h hn⟩
        · obtain ⟨te, ce, me, oe, ex, h4⟩ := stepExtrusion_shape (stepPos home m2 l2 cmd) (stamp (stepPos home m2 l2 cmd) l2) cmd
          rw [h4] at h3
          simp only [Prod.mk.injEq] at h3
          have hm2 : m2.currentF = m.currentF := by
            rcases stepModes_shape h1 with ⟨_, rfl, _⟩ | ⟨_, _, i, r, re, t, rfl⟩ <;> rfl
          obtain ⟨rfl, rfl⟩ := h3
          refine ⟨?_, fun _ => rfl⟩
          show (stepPos home m2 l2 cmd).currentF = _
          by_cases hm : l2.isMove = true
          · rw [if_pos (himv.1 hm)]
            show _ = l2.f.getD m.currentF
            unfold stepPos
            rw [if_pos hm, hm2]
          · rw [if_neg (fun h => hm (himv.2 h)), ← hm2]
            unfold stepPos
            rw [if_neg hm]
            split_ifs
            · simp only; split_ifs <;> rfl
            · simp only; cases l2.x <;> cases l2.y <;> cases l2.z <;> rfl
            · rfl
      intro pre l post he hl
      cases pre with
      | nil =>
        simp only [List.nil_append, List.cons.injEq] at he
        obtain ⟨rfl, rfl⟩ := he
        rw [key.2 hl, key.1]; rfl
      | cons a pre =>
        simp only [List.cons_append, List.cons.injEq] at he
        obtain ⟨rfl, he⟩ := he
        rw [ih hb pre l post he hl, key.1]; rfl

theorem load_feeds {env : Env α} {data : List Str} {home : Home α} {g : GCode α} (h : GCode.load env data false home = .ok g) :
    ∀ pre l post, program g = pre ++ l :: post → IsMove l → l.currentF = some (feedAfter 0 (pre ++ [l])) := by
  obtain ⟨out, hr, hout⟩ := load_run' h
  have e : out = program g := by rw [← hout rfl, (load_indexed h).flat]; rfl
  rw [← e]
  exact run_feeds hr

/-- The feed rates of the two printers agree. -/
theorem arc_tracks_feed (home : Pos3 α) {t : Trig α} {x y : List (PyLine α)}
    (h : Rewrites (fun start w gen => ArcReplacement t start w gen ∧ ∀ l ∈ w, l.e ≠ none) x y) (p : Printer α)
    (hcom : ∀ l ∈ x, l.command = none → l.e = none)
    (hf : ∀ pre l post, x = pre ++ l :: post → IsMove l → l.currentF = some (feedAfter 0 (pre ++ [l])))
    (hset : p.feed = 0 ∨ ∀ pre l post, x = pre ++ l :: post → IsMove l → l.e ≠ none → ∃ k ∈ pre ++ [l], IsMove k ∧ k.f ≠ none) :
    Tracks home (fun start w gen => ArcReplacement t start w gen ∧ ∀ l ∈ w, l.e ≠ none) (fun a b => a.feed = b.feed) p p x y := by
  refine rewrites_tracks (x0 := x) (p0 := p) ?_ ?_ h [] p rfl rfl
  · intro pre l l' post q he hq hk
    rw [exec_kept home q hk, exec_feed_eq, exec_feed_eq, hq]
  · intro pre w w' gen l' post q he hq hk hR
    obtain ⟨rfl, hm⟩ := window_same hcom (fun l hl => by rw [he]; simp [hl]) hk hR.1.1.2.1 hR.2
    obtain ⟨_, pts, c, r, paths, fils, arc, rest, ho, ha, hc, rfl⟩ := hR.1
    obtain ⟨last, hlast, _⟩ := ha.filament
    obtain ⟨ys, rfl⟩ := List.getLast?_eq_some_iff.1 hlast
    have e2 : x = (pre ++ ys) ++ last :: post := by rw [he]; simp
    have hcur := hf _ _ _ e2 (hm last (by simp))
    have hp : ((p.run home pre).run home (ys ++ [last])).feed = feedAfter 0 (pre ++ ys ++ [last]) := by
      rw [← run_append', run_feed_eq, ← List.append_assoc]
      rcases hset with h | h
      · rw [h]
      · exact feedAfter_forget (h _ _ _ e2 (hm last (by simp)) (hR.2 last (by simp))) _ _
    have harcm : IsMove arc := by
      obtain ⟨p0, p2, _, _, hcmd⟩ := ha.command
      apply isMove_g23
      by_cases hd : 0 < turn t c p0 p2
      · rw [if_pos hd] at hcmd; exact Or.inr hcmd
      · rw [if_neg hd] at hcmd; exact Or.inl hcmd
    have hq1 : (q.exec home arc).feed = feedAfter 0 (pre ++ ys ++ [last]) := by
      rw [exec_feed_eq, if_pos harcm, ha.feed last (by simp), hcur]; rfl
    show _ = ((q.exec home arc).run home rest).feed
    rw [hp]
    obtain ⟨_, _, hc⟩ := hc
    split at hc
    · obtain ⟨g, rfl, hg, _⟩ := hc
      show _ = (Printer.exec home _ g).feed
      rw [exec_feed_eq, if_neg (fun h => move_not_cmd h c!"G92" (by decide) hg.1), hq1]
    · subst hc
      exact hq1.symm

end GCodeUtils
