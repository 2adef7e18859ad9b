import Verif.Lemmas.Reading

/-
  The stretch filter on a program and the same program at another place of the bed.
-/

set_option linter.unusedSectionVars false

namespace GCodeUtils

open Spec

variable {α : Type} [Field α] [LinearOrder α] [IsStrictOrderedRing α] [FloorRing α]

/-! ### what the passes see of a line -/

theorem Shift.args {dx dy : α} {l l' : PyLine α} (h : Shift dx dy l l') : ∃ a b : α, ArgShift a b l l' := by
  cases h with
  | kept r s h1 h2 hs hn hnl hp hcmd ha hxy => exact ⟨0, 0, ha⟩
  | moved n hd hd' t ts ts' hn h1 h2 hne hne' hb hb' ht ht1 ht2 hts ha hcmd hx hy => exact ⟨dx, dy, ha⟩

theorem Shift.hasSub {dx dy : α} {l l' : PyLine α} (h : Shift dx dy l l') {c : Char} {ps : Str} (hc : c ∉ c!"GMXYZEFIJ 0123456789.+-") :
    GCodeUtils.hasSub (c :: ps) l'.raw = GCodeUtils.hasSub (c :: ps) l.raw := by
  cases h with
  | kept r s h1 h2 hs hn hnl hp hcmd ha hxy => rw [h1, h2]
  | moved n hd hd' t ts ts' hn h1 h2 hne hne' hb hb' ht ht1 ht2 hts ha hcmd hx hy =>
    rw [h1, h2, hasSub_bland hb hc, hasSub_bland hb' hc]

theorem bland_head {h : Str} (hb : Bland h) (hne : h ≠ []) {c : Char} (hc : c ∉ c!"GMXYZEFIJ 0123456789.+-") (t : Str) :
    ∃ d r, h ++ t = d :: r ∧ c ≠ d := by
  cases h with
  | nil => exact absurd rfl hne
  | cons d h => exact ⟨d, h ++ t, rfl, fun k => hc (by rw [k]; exact hb d (by simp))⟩

theorem Shift.dropPrefix {dx dy : α} {l l' : PyLine α} (h : Shift dx dy l l') {c : Char} {ps : Str} (hc : c ∉ c!"GMXYZEFIJ 0123456789.+-") :
    dropPrefix? (c :: ps) l'.raw = dropPrefix? (c :: ps) l.raw := by
  cases h with
  | kept r s h1 h2 hs hn hnl hp hcmd ha hxy => rw [h1, h2]
  | moved n hd hd' t ts ts' hn h1 h2 hne hne' hb hb' ht ht1 ht2 hts ha hcmd hx hy =>
    obtain ⟨d, r, e, hd1⟩ := bland_head hb hne hc t
    obtain ⟨d', r', e', hd2⟩ := bland_head hb' hne' hc t
    rw [h1, h2, e, e', dropPrefix?, dropPrefix?, if_neg hd1, if_neg hd2]

theorem Shift.startsWith {dx dy : α} {l l' : PyLine α} (h : Shift dx dy l l') {c : Char} {ps : Str} (hc : c ∉ c!"GMXYZEFIJ 0123456789.+-") :
    GCodeUtils.startsWith (c :: ps) l'.raw = GCodeUtils.startsWith (c :: ps) l.raw := by
  cases h with
  | kept r s h1 h2 hs hn hnl hp hcmd ha hxy => rw [h1, h2]
  | moved n hd hd' t ts ts' hn h1 h2 hne hne' hb hb' ht ht1 ht2 hts ha hcmd hx hy =>
    obtain ⟨d, r, e, hd1⟩ := bland_head hb hne hc t
    obtain ⟨d', r', e', hd2⟩ := bland_head hb' hne' hc t
    rw [h1, h2, e, e']
    have k1 : (c == d) = false := by simpa using hd1
    have k2 : (c == d') = false := by simpa using hd2
    simp only [GCodeUtils.startsWith, List.isPrefixOf, k1, k2, Bool.false_and]

theorem Shift.inLinear {dx dy : α} {l l' : PyLine α} (h : Shift dx dy l l') : l'.inLinear = l.inLinear := by
  obtain ⟨a, b, ha⟩ := h.args
  unfold PyLine.inLinear
  rw [ha.command]

theorem Shift.isCmd {dx dy : α} {l l' : PyLine α} (h : Shift dx dy l l') (c : Str) : l'.isCmd c = l.isCmd c := by
  obtain ⟨a, b, ha⟩ := h.args
  unfold PyLine.isCmd
  rw [ha.command]

theorem Shift.e {dx dy : α} {l l' : PyLine α} (h : Shift dx dy l l') : l'.e = l.e := by
  obtain ⟨a, b, ha⟩ := h.args
  exact ha.e

theorem Shift.xyMove {dx dy : α} {l l' : PyLine α} (h : Shift dx dy l l') : isXYMove l' = isXYMove l := by
  have hl := h.inLinear
  obtain ⟨a, b, ha⟩ := h.args
  unfold isXYMove
  rw [hl, ha.x, ha.y]
  simp

theorem Shift.add {dx dy : α} {l l' : PyLine α} (h : Shift dx dy l l') {sep m : Str} (hsep : sep = c!" ; " ∨ sep = c!"; ") (hm : m ∈ markTexts) :
    Shift dx dy (addMark sep m l) (addMark sep m l') := by
  have hmk : Marks (sep ++ m) := by have := Marks.cons sep m [] hsep hm .nil; rwa [List.append_nil] at this
  cases h with
  | kept r s h1 h2 hs hn hnl hp hcmd ha hxy =>
    refine .kept r (s ++ (sep ++ m)) ?_ ?_ (marks_append hs hmk) hn hnl hp hcmd ?_ hxy
    · simp [addMark, h1]
    · simp [addMark, h2]
    · exact ⟨ha.command, ha.x, ha.y, ha.z, ha.e, ha.f, ha.isMove, ha.relative, ha.relativeE, ha.extruding⟩
  | moved n hd hd' t ts ts' hn h1 h2 hne hne' hb hb' ht ht1 ht2 hts ha hcmd hx hy =>
    refine .moved n hd hd' (t ++ (sep ++ m)) ts ts' hn ?_ ?_ hne hne' hb hb' ?_ ht1 ht2 hts ?_ hcmd hx hy
    · simp [addMark, h1]
    · simp [addMark, h2]
    · right
      rcases marks_trailing hmk with k | k
      · exfalso
        rcases hsep with rfl | rfl <;> simp at k
      · rcases ht with rfl | ht
        · simpa using k
        · obtain ⟨sp, c, e1, e2⟩ := ht.form
          refine ⟨⟨sp, c ++ (sep ++ m), by rw [e1]; simp, e2⟩, ?_⟩
          intro d hd
          rcases List.mem_append.1 hd with hd | hd
          · exact ht.clean d hd
          · exact k.clean d hd
    · exact ⟨ha.command, ha.x, ha.y, ha.z, ha.e, ha.f, ha.isMove, ha.relative, ha.relativeE, ha.extruding⟩
theorem shift_reading (dx dy : α) : Reading (Shift dx dy) where
  hasSub h _ _ hc := h.hasSub hc
  dropPrefix h _ _ hc := h.dropPrefix hc
  startsWith h _ _ hc := h.startsWith hc
  inLinear h := h.inLinear
  isCmd h := ⟨h.isCmd _, h.isCmd _⟩
  e h := h.e
  xyMove h := h.xyMove
  add h _ _ hsep hm := h.add hsep hm

/-- Layers with shifted lines. -/
def LayersShift (dx dy : α) : List (Layer α) → List (Layer α) → Prop := LinesAlike (Shift dx dy)

end GCodeUtils
