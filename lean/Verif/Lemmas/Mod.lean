import Verif.Lemmas.Written
import Verif.Lemmas.Commute
import Verif.Lemmas.Visit
import Verif.Lemmas.Heater
import Verif.Model.Cli

/-
  Lemmas for C94: text against values for lines that are rewritten at most as moves; pauses in a filtered program.
-/

set_option linter.unusedSectionVars false

namespace GCodeUtils

open Spec

variable {α : Type} [Field α] [LinearOrder α] [IsStrictOrderedRing α] [FloorRing α]

/-- The text of the line says its values, exactly or as a formatted move. -/
def TextForm (home : Pos3 α) (l : PyLine α) : Prop := Textual home l ∨ ∃ l2, IsMove l2 ∧ l = unsplit l2

theorem textual_m83 (home : Pos3 α) : Textual home (rawToLine c!"M83" : PyLine α) := by
  intro p _
  have e1 : p.exec home (rawToLine c!"M83") = { p with relE := true } := by
    unfold Printer.exec; rw [m83_line]; simp
  have e2 : p.line home (rawToLine c!"M83" : PyLine α).raw = { p with relE := true } := by
    have : instr (rawToLine c!"M83" : PyLine α).raw = some (c!"M83", [('m', c!"83")]) := by
      rw [show (rawToLine c!"M83" : PyLine α).raw = c!"M83" from rfl]; decide
    unfold Printer.line; rw [this]; simp [Printer.step]
  rw [e1, e2]

theorem transLine_form {home : Pos3 α} {s : TransSt α} {l : PyLine α} (h : TextForm home l) (h92 : ¬ HasCmd l c!"G92") :
    TextForm home (transLine s l).2 := by
  by_cases m : IsMove l
  · rw [transLine_move m]
    simp only
    by_cases ha : s.absMode = some true
    · rw [if_pos ha]
      rcases translateMove_form s l with h1 | ⟨l2, h1, h2⟩
      · rw [h1]; exact h
      · exact .inr ⟨l2, (isMove_congr h2).2 m, h1⟩
    · rw [if_neg ha]; exact h
  · rw [transLine_stay m h92]; exact h

theorem relLine_form {home : Pos3 α} {s : RelSt α} {l : PyLine α} (h : TextForm home l) : TextForm home (relLine s l).2 := by
  unfold relLine
  by_cases n1 : HasCmd l c!"M83"
  · rw [if_pos n1]; exact h
  · rw [if_neg n1]
    by_cases n2 : HasCmd l c!"M82"
    · rw [if_pos n2]; exact .inl (textual_m83 home)
    · rw [if_neg n2]
      by_cases n3 : HasCmd l c!"G92"
      · rw [if_pos n3]
        cases l.e with
        | some e => exact h
        | none => simp only; split_ifs <;> exact h
      · rw [if_neg n3]
        by_cases n4 : IsMove l ∧ s.relative = false
        · rw [if_pos n4]
          cases l.e with
          | some e => exact .inr ⟨({ l with e := some (e - s.current), relativeE := some true } : PyLine α), n4.1, rfl⟩
          | none => exact h
        · rw [if_neg n4]; exact h

theorem scan_all {σ : Type} {P Q : PyLine α → Prop} (f : σ → PyLine α → σ × PyLine α) (h : ∀ s l, P l → Q (f s l).2) (ls : List (PyLine α)) :
    ∀ s, (∀ l ∈ ls, P l) → ∀ l ∈ (scan f s ls).2, Q l := by
  induction ls with
  | nil => intro s _ l hl; simp [scan] at hl
  | cons a ls ih =>
    intro s hp l hl
    rw [scan] at hl
    rcases List.mem_cons.1 hl with rfl | hl
    · exact h s a (hp a List.mem_cons_self)
    · exact ih _ (fun l hl => hp l (List.mem_cons_of_mem _ hl)) l hl

/-- Text against values, in general. -/
theorem forms_near {home : Pos3 α} (ls : List (PyLine α)) : ∀ {w q : Printer α} {k : ℕ},
    Near ((k : α) * (5 / 10 ^ 4)) ((k : α) * (5 / 10 ^ 4)) ((k : α) * (5 / 10 ^ 6)) w q → w.inch = false →
    (∀ l ∈ ls, TextForm home l) → (∀ l ∈ ls, ¬ HasCmd l c!"G20") →
    Near (((k + ls.length : ℕ) : α) * (5 / 10 ^ 4)) (((k + ls.length : ℕ) : α) * (5 / 10 ^ 4)) (((k + ls.length : ℕ) : α) * (5 / 10 ^ 6))
      (w.final home (ls.map (·.raw))) (q.run home ls) := by
  induction ls with
  | nil => intro w q k h _ _ _; simpa [Printer.final, Printer.run] using h
  | cons l ls ih =>
    intro w q k h hw ht h20
    have hq : q.inch = false := by rw [← h.inch]; exact hw
    have k4 : ((k + 1 : ℕ) : α) * (5 / 10 ^ 4) = k * (5 / 10 ^ 4) + 5 / 10 ^ 4 := by push_cast; ring
    have k6 : ((k + 1 : ℕ) : α) * (5 / 10 ^ 6) = k * (5 / 10 ^ 6) + 5 / 10 ^ 6 := by push_cast; ring
    have key : Near (((k + 1 : ℕ) : α) * (5 / 10 ^ 4)) (((k + 1 : ℕ) : α) * (5 / 10 ^ 4)) (((k + 1 : ℕ) : α) * (5 / 10 ^ 6)) (w.line home l.raw) (q.exec home l) := by
      rw [k4, k6]
      rcases ht l List.mem_cons_self with h1 | ⟨l2, h1, rfl⟩
      · rw [← h1 w hw]
        exact (h.exec home l (le_refl _) (fun _ => rfl)).mono (by norm_num) (by norm_num) (by norm_num)
      · exact Near.mono (h.written_move home h1 hw (by norm_num) (fun _ => le_refl _) (fun _ => le_refl _)) (le_refl _) (by norm_num) (le_refl _)
    have := ih key (by rw [key.inch]; exact exec_inch home q l (h20 l List.mem_cons_self) hq)
      (fun l hl => ht l (List.mem_cons_of_mem _ hl)) (fun l hl => h20 l (List.mem_cons_of_mem _ hl))
    have hk : k + 1 + ls.length = k + (l :: ls).length := by simp; omega
    rw [hk] at this
    simpa [Printer.final, Printer.run] using this

/-- Text against values, in absolute coordinates. -/
theorem forms_near_abs {home : Pos3 α} (ls : List (PyLine α)) : ∀ {w q : Printer α} {k : ℕ},
    Near (5 / 10 ^ 4) 0 ((k : α) * (5 / 10 ^ 6)) w q → w.inch = false → q.rel = false →
    (∀ l ∈ ls, TextForm home l) → (∀ l ∈ ls, ¬ HasCmd l c!"G20" ∧ ¬ HasCmd l c!"G91" ∧ ¬ HasCmd l c!"G92") →
    Near (5 / 10 ^ 4) 0 (((k + ls.length : ℕ) : α) * (5 / 10 ^ 6)) (w.final home (ls.map (·.raw))) (q.run home ls) := by
  induction ls with
  | nil => intro w q k h _ _ _ _; simpa [Printer.final, Printer.run] using h
  | cons l ls ih =>
    intro w q k h hw hr ht hn
    obtain ⟨h20, h91, h92⟩ := hn l List.mem_cons_self
    have hq : q.inch = false := by rw [← h.inch]; exact hw
    have k6 : ((k + 1 : ℕ) : α) * (5 / 10 ^ 6) = k * (5 / 10 ^ 6) + 5 / 10 ^ 6 := by push_cast; ring
    have key : Near (5 / 10 ^ 4) 0 (((k + 1 : ℕ) : α) * (5 / 10 ^ 6)) (w.line home l.raw) (q.exec home l) := by
      rw [k6]
      rcases ht l List.mem_cons_self with h1 | ⟨l2, h1, rfl⟩
      · rw [← h1 w hw]
        exact (h.exec home l (by norm_num) (fun h' => absurd h' h92)).mono (le_refl _) (le_refl _) (by norm_num)
      · exact h.written_move home h1 hw (le_refl _) (fun h' => by rw [hr] at h'; simp at h') (fun _ => by simp)
    have := ih key (by rw [key.inch]; exact exec_inch home q l h20 hq)
      (by rw [exec_rel, if_neg h91]; split_ifs <;> first | rfl | exact hr)
      (fun l hl => ht l (List.mem_cons_of_mem _ hl)) (fun l hl => hn l (List.mem_cons_of_mem _ hl))
    have hk : k + 1 + ls.length = k + (l :: ls).length := by simp; omega
    rw [hk] at this
    simpa [Printer.final, Printer.run] using this

/-! ### the list `lines` does not matter to the layers -/

/-- The same program object up to the list `lines`. -/
def SameButLines (a b : GCode α) : Prop := b = { a with lines := b.lines }

theorem prepend_lines {a b : GCode α} (h : SameButLines a b) (c : List Str) (k : ℕ) {a' : GCode α} {r : List Str}
    (hp : a.prependToLayer c k = .ok (a', r)) : ∃ b', b.prependToLayer c k = .ok (b', r) ∧ SameButLines a' b' := by
  have fold : ∀ (cs : List (Str × ℕ)) (start endI endLine : ℕ) (x y : GCode α) (ls : List (PyLine α)), SameButLines x y →
      SameButLines (cs.foldl (prependOne k start endI endLine) (x, ls)).1 (cs.foldl (prependOne k start endI endLine) (y, ls)).1 ∧
      (cs.foldl (prependOne k start endI endLine) (x, ls)).2 = (cs.foldl (prependOne k start endI endLine) (y, ls)).2 := by
    intro cs start endI endLine
    induction cs with
    | nil => intro x y ls h; exact ⟨h, rfl⟩
    | cons c cs ih =>
      intro x y ls h
      simp only [List.foldl_cons]
      refine ih _ _ _ ?_
      unfold SameButLines at h ⊢
      rw [h]
  have hb : b = { a with lines := b.lines } := h
  unfold GCode.prependToLayer at hp ⊢
  have e1 : b.allLayers = a.allLayers := by rw [hb]
  have e2 : b.layerIdxs = a.layerIdxs := by rw [hb]
  have e3 : b.lineIdxs = a.lineIdxs := by rw [hb]
  simp only [e1, e2, e3]
  cases hL : a.allLayers[k]? with
  | none => simp only [hL] at hp; cases hp
  | some L =>
    simp only [hL] at hp ⊢
    by_cases hk : k ∈ a.layerIdxs
    · rw [if_pos hk] at hp ⊢
      cases hE : a.lineIdxs[endIndex a.layerIdxs (a.layerIdxs.idxOf k) k - 1]? with
      | none => simp only [hE] at hp; cases hp
      | some e =>
        simp only [hE, Except.ok.injEq, Prod.mk.injEq] at hp ⊢
        obtain ⟨f1, f2⟩ := fold (cleanCommands c).zipIdx (a.layerIdxs.idxOf k) (endIndex a.layerIdxs (a.layerIdxs.idxOf k) k) e a b L.lines h
        refine ⟨_, ⟨rfl, hp.2⟩, ?_⟩
        rw [← hp.1, f2]
        unfold SameButLines at f1 ⊢
        rw [f1]
    · rw [if_neg hk] at hp; cases hp

theorem layerIndex_lines {a b : GCode α} (h : SameButLines a b) (i : ℕ) (L : Layer α) : layerIndex b i L = layerIndex a i L := by
  unfold layerIndex
  rw [h]

theorem accept_lines {mode : RoundMode} {digits : ℕ} {zs : List α} {pauses : List ℤ} : ∀ (fuel i n : ℕ) {a b a' : GCode α}, SameButLines a b →
    acceptFrom mode digits zs (pauseVisitor pauses) fuel i () n a = .ok ((), a') →
    ∃ b', acceptFrom mode digits zs (pauseVisitor pauses) fuel i () n b = .ok ((), b') ∧ SameButLines a' b' := by
  intro fuel
  induction fuel with
  | zero =>
    intro i n a b a' h ha
    simp only [acceptFrom, Except.ok.injEq, Prod.mk.injEq, true_and] at ha
    exact ⟨b, rfl, ha ▸ h⟩
  | succ fuel ih =>
    intro i n a b a' h ha
    have e1 : b.allLayers = a.allLayers := by rw [h]
    unfold acceptFrom at ha ⊢
    rw [e1]
    cases hL : a.allLayers[i]? with
    | none =>
      rw [hL] at ha
      simp only [Except.ok.injEq, Prod.mk.injEq, true_and] at ha
      exact ⟨b, rfl, ha ▸ h⟩
    | some L =>
      rw [hL] at ha
      simp only [layerIndex_lines h] at ha ⊢
      simp only [pauseVisitor] at ha ⊢
      split at ha
      · exact absurd ha (by simp)
      · rename_i s a1 hd
        by_cases hc : (layerNumber mode digits zs L.z i).2 && pauses.contains ((layerNumber mode digits zs L.z i).1 : ℤ)
        · rw [if_pos hc] at hd ⊢
          cases hp : a.prependToLayer [pauseCommand] (layerIndex a i L) with
          | error er => rw [hp] at hd; cases hd
          | ok q =>
            rw [hp] at hd
            simp only [Except.ok.injEq, Prod.mk.injEq] at hd
            obtain ⟨b1, hb1, hs⟩ := prepend_lines h _ _ (a' := q.1) (r := q.2) hp
            rw [hb1]
            simp only
            rw [hd.2] at hs
            exact ih _ _ hs ha
        · rw [if_neg hc] at hd ⊢
          simp only [Except.ok.injEq, Prod.mk.injEq] at hd
          simp only
          exact ih _ _ (hd.2 ▸ h) ha

/-- The same layers as far as heights and numbers of lines go. -/
def SameShape (A B : List (Layer α)) : Prop := List.Forall₂ (fun L M => M.z = L.z ∧ M.lines.length = L.lines.length) A B

theorem positionsFrom_shape {A B : List (Layer α)} (h : SameShape A B) : ∀ k, positionsFrom k (B.map (·.lines)) = positionsFrom k (A.map (·.lines)) := by
  induction h with
  | nil => intro k; rfl
  | cons hL _ ih =>
    intro k
    simp only [List.map_cons, positionsFrom, hL.2, ih]

theorem scanLayers_shape {σ : Type} (f : σ → PyLine α → σ × PyLine α) (Ls : List (Layer α)) : ∀ s, SameShape Ls (scanLayers f s Ls).2 := by
  induction Ls with
  | nil => intro s; exact .nil
  | cons L Ls ih =>
    intro s
    exact .cons ⟨rfl, scan_length f L.lines s⟩ (ih _)

theorem SameShape.trans {A B C : List (Layer α)} (h1 : SameShape A B) (h2 : SameShape B C) : SameShape A C := by
  induction h1 generalizing C with
  | nil => cases h2; exact .nil
  | cons hL _ ih =>
    cases h2 with
    | cons hM h2 => exact .cons ⟨hM.1.trans hL.1, hM.2.trans hL.2⟩ (ih h2)

theorem SameShape.refl (A : List (Layer α)) : SameShape A A := by
  induction A with
  | nil => exact .nil
  | cons L A ih => exact .cons ⟨rfl, rfl⟩ ih

theorem SameShape.emptyFlat {A B : List (Layer α)} (h : SameShape A B) (ha : ∀ L ∈ A, L.lines = [] → L.z = none) : ∀ L ∈ B, L.lines = [] → L.z = none := by
  induction h with
  | nil => intro L hL; simp at hL
  | cons hL _ ih =>
    rename_i X Y _ _ _
    intro L hm he
    rcases List.mem_cons.1 hm with rfl | hm
    · rw [hL.1]
      refine ha X List.mem_cons_self ?_
      rw [← List.length_eq_zero_iff, ← hL.2, he]; rfl
    · exact ih (fun L hL => ha L (List.mem_cons_of_mem _ hL)) L hm he

theorem SameShape.count {A B : List (Layer α)} (h : SameShape A B) (p : Option α → Bool) :
    (B.filter (fun L => p L.z)).length = (A.filter (fun L => p L.z)).length := by
  induction h with
  | nil => rfl
  | cons hL _ ih =>
    rename_i X Y _ _ _
    simp only [List.filter_cons, hL.1]
    split_ifs <;> simp [ih]

/-- Pausing a program whose layers have been filtered. -/
theorem pause_filtered {g0 g : GCode α} (hi : Indexed g0) (hf : EmptyFlat g0) (hg : g = { g0 with allLayers := g.allLayers }) (hs : SameShape g0.allLayers g.allLayers)
    {mode : RoundMode} {digits : ℕ} (pauses : List ℤ) :
    ∃ g' k, accept mode digits ((heights mode digits g0).insertionSort (· ≤ ·)) (pauseVisitor pauses) () g = .ok ((), g') ∧
      g'.allLayers = withPauses k g.allLayers ∧
      ((List.range g.allLayers.length).map k).sum =
        (g0.allLayers.filter (fun L => codePause mode digits ((heights mode digits g0).insertionSort (· ≤ ·)) pauses L.z)).length := by
  have hpos := positionsFrom_shape hs 0
  have hix : Indexed ({ g with lines := (layerLines g).flatten } : GCode α) := by
    refine ⟨rfl, ?_, ?_⟩
    · have : g.layerIdxs = g0.layerIdxs := by rw [hg]
      show g.layerIdxs = ((positions (layerLines g)).map (·.1))
      rw [this, hi.layer]
      unfold positions layerLines
      rw [hpos]
    · have : g.lineIdxs = g0.lineIdxs := by rw [hg]
      show g.lineIdxs = ((positions (layerLines g)).map (·.2))
      rw [this, hi.line]
      unfold positions layerLines
      rw [hpos]
  obtain ⟨g', k, h1, h2, _, _, _, h6, _⟩ := pause_loop (mode := mode) (digits := digits) (pauses := pauses)
    (zs := (heights mode digits g0).insertionSort (· ≤ ·)) ({ g with lines := (layerLines g).flatten } : GCode α)
    (fun z hz hn => by
      rw [codePause_iff] at hz
      obtain ⟨x, hx, _⟩ := hz
      rw [hn] at hx; simp at hx) (hs.emptyFlat hf) g.allLayers.length 0 (fun _ => 0) 0 ({ g with lines := (layerLines g).flatten } : GCode α) (by simp)
    (withPauses_zero _).symm hix rfl (fun _ _ _ _ => rfl)
  obtain ⟨b', hb, hs'⟩ := accept_lines g.allLayers.length 0 0 (a := ({ g with lines := (layerLines g).flatten } : GCode α)) (b := g) rfl h1
  refine ⟨b', k, hb, ?_, ?_⟩
  · have : b'.allLayers = g'.allLayers := by rw [hs']
    rw [this, h2]
  · rw [h6]
    simp only [List.drop_zero]
    rw [hs.count (fun z => codePause mode digits ((heights mode digits g0).insertionSort (· ≤ ·)) pauses z)]
    simp

end GCodeUtils
