import Verif.Lemmas.Marks
import Verif.Lemmas.Format
import Verif.Props.Format

set_option linter.unusedSectionVars false

namespace GCodeUtils

open Spec

variable {α : Type} [Field α] [LinearOrder α] [IsStrictOrderedRing α] [FloorRing α]

/-! ### annotation -/

theorem mk1 (l : PyLine α) {m : Str} (hm : m ∈ markTexts) : MarkedUp l (addMark c!" ; " m l) := markedUp_add l (.inl rfl) hm
theorem mk2 (l : PyLine α) {m : Str} (hm : m ∈ markTexts) : MarkedUp l (addMark c!"; " m l) := markedUp_add l (.inr rfl) hm

theorem mem_on : extrusionOnMarker ∈ markTexts := by decide
theorem mem_off : extrusionOffMarker ∈ markTexts := by decide
theorem mem_start : loopStartMarker ∈ markTexts := by decide
theorem mem_inner : innerEdgeMarker ∈ markTexts := by decide
theorem mem_outer : outerEdgeMarker ∈ markTexts := by decide
theorem mem_stop : loopStopMarker ∈ markTexts := by decide

theorem annotateExtrusion_marked (s : AnnSt α) (l : PyLine α) : MarkedUp l (annotateExtrusion s l).2 := by
  unfold annotateExtrusion
  split_ifs
  · exact mk1 l mem_on
  · exact mk1 l mem_off
  · exact markedUp_refl l

theorem optStop_marked (l : PyLine α) (p : Prop) [Decidable p] : MarkedUp l (if p then addMark c!" ; " loopStopMarker l else l) := by
  split_ifs
  · exact mk1 l mem_stop
  · exact markedUp_refl l

theorem slic3rPerimeter_marked (s : AnnSt α) (l : PyLine α) (ext : Bool) : MarkedUp l (slic3rPerimeter s l ext).2 := by
  unfold slic3rPerimeter
  cases ext with
  | true =>
    simp only [if_true]
    cases s.nextOuter with
    | true =>
      simp only [if_true]
      exact markedUp_trans (mk1 l mem_outer) (optStop_marked _ _)
    | false =>
      simp only [Bool.false_eq_true, if_false]
      exact markedUp_trans (mk1 l mem_inner) (optStop_marked _ _)
  | false =>
    simp only [Bool.false_eq_true, if_false]
    exact markedUp_trans (mk1 l mem_start) (optStop_marked _ _)

theorem slic3rLine_marked {repo : StretchRepo α} {s s' : AnnSt α} {l l' : PyLine α} {rest : List (PyLine α)}
    (h : slic3rLine repo s l rest = .ok (s', l')) : MarkedUp l l' := by
  unfold slic3rLine at h
  simp only at h
  generalize hq : (if hasSub c!"; perimeter external" (annotateExtrusion s l).2.raw = true then
      if (annotateExtrusion s l).1.type ≠ LoopType.external then slic3rPerimeter (annotateExtrusion s l).1 (annotateExtrusion s l).2 true
      else ((annotateExtrusion s l).1, (annotateExtrusion s l).2)
    else if hasSub c!"; perimeter" (annotateExtrusion s l).2.raw = true then
      if (annotateExtrusion s l).1.type ≠ LoopType.extra then slic3rPerimeter (annotateExtrusion s l).1 (annotateExtrusion s l).2 false
      else ((annotateExtrusion s l).1, (annotateExtrusion s l).2)
    else if hasSub c!"; move to first perimeter point" (annotateExtrusion s l).2.raw = true then
      match nextPerimeter rest with
      | some ext => slic3rPerimeter (annotateExtrusion s l).1 (annotateExtrusion s l).2 ext
      | none => ((annotateExtrusion s l).1, (annotateExtrusion s l).2)
    else if (!hasSub c!"unretract" (annotateExtrusion s l).2.raw) = true then
      ({ (annotateExtrusion s l).1 with type := LoopType.unknown },
        if (annotateExtrusion s l).1.type ≠ LoopType.unknown then addMark c!" ; " loopStopMarker (annotateExtrusion s l).2 else (annotateExtrusion s l).2)
    else ((annotateExtrusion s l).1, (annotateExtrusion s l).2)) = q at h
  have h0 := annotateExtrusion_marked s l
  have hm : MarkedUp l q.2 := by
    refine markedUp_trans h0 ?_
    subst hq
    split_ifs
    all_goals first
      | exact slic3rPerimeter_marked _ _ _
      | exact markedUp_refl _
      | exact mk1 _ mem_stop
      | skip
    cases nextPerimeter rest with
    | none => exact markedUp_refl _
    | some ext => exact slic3rPerimeter_marked _ _ _
  cases hw : slic3rEdgeWidth q.2.raw with
  | none => rw [hw] at h; simp only [Except.ok.injEq, Prod.mk.injEq] at h; rw [← h.2]; exact hm
  | some t =>
    rw [hw] at h
    simp only at h
    cases he : edgeFromText repo t with
    | error er => rw [he] at h; cases h
    | ok d => rw [he] at h; simp only [Except.ok.injEq, Prod.mk.injEq] at h; rw [← h.2]; exact hm

theorem curaPerimeter_marked (s : AnnSt α) (l : PyLine α) (a b : Bool) : MarkedUp l (curaPerimeter s l a b).2 := by
  unfold curaPerimeter
  simp only
  refine markedUp_trans ?_ (optStop_marked _ _)
  split_ifs
  · exact mk1 l mem_outer
  · exact mk1 l mem_inner
  · exact mk1 l mem_start

theorem curaStop_marked (s : AnnSt α) (l : PyLine α) : MarkedUp l (curaStop s l).2 := by
  unfold curaStop
  exact optStop_marked _ _

/-- Perimeter marks of the Cura pass, before the check for the end of the layer. -/
def curaType (s : AnnSt α) (l : PyLine α) : AnnSt α × PyLine α :=
  if hasSub c!"TYPE:WALL-OUTER" l.raw then ({ (curaStop s l).1 with next := some (true, true) }, (curaStop s l).2)
  else if hasSub c!"TYPE:WALL-INNER" l.raw then ({ (curaStop s l).1 with next := some (true, false) }, (curaStop s l).2)
  else if hasSub c!"TYPE:SKIN" l.raw then ({ (curaStop s l).1 with next := some (false, false) }, (curaStop s l).2)
  else if hasSub c!"TYPE:FILL" l.raw then curaStop s l
  else (s, l)

/-- The pending perimeter mark of the Cura pass. -/
def curaNext (s : AnnSt α) (l : PyLine α) : AnnSt α × PyLine α :=
  match s.next with
  | some (ext, outer) => curaPerimeter { s with next := none } l ext outer
  | none => (s, l)

/-- The marks of one line of the Cura pass. -/
def curaMarks (s : AnnSt α) (l : PyLine α) (isLast : Bool) : AnnSt α × PyLine α :=
  let p := annotateExtrusion s l
  let p := curaNext p.1 p.2
  let p := curaType p.1 p.2
  if isLast then curaStop p.1 p.2 else p

theorem curaLine_eq (repo : StretchRepo α) (profile : ProfileOracle α) (s : AnnSt α) (l : PyLine α) (isLast : Bool) :
    curaLine repo profile s l isLast =
      match dropPrefix? c!";CURA_PROFILE_STRING:" (curaMarks s l isLast).2.raw with
      | some t =>
        match profile t with
        | .error er => .error er
        | .ok (some w) => .ok ({ (curaMarks s l isLast).1 with dist := some (setEdgeWidth repo w), found := true }, (curaMarks s l isLast).2)
        | .ok none => .ok ({ (curaMarks s l isLast).1 with found := false }, (curaMarks s l isLast).2)
      | none => .ok (curaMarks s l isLast) := by
  unfold curaLine curaMarks curaType curaNext
  rfl

theorem curaMarks_marked (s : AnnSt α) (l : PyLine α) (isLast : Bool) : MarkedUp l (curaMarks s l isLast).2 := by
  unfold curaMarks
  simp only
  have h1 : ∀ (s : AnnSt α) (l : PyLine α), MarkedUp l (curaNext s l).2 := by
    intro s l
    unfold curaNext
    cases s.next with
    | none => exact markedUp_refl l
    | some p => exact curaPerimeter_marked _ l p.1 p.2
  have h2 : ∀ (s : AnnSt α) (l : PyLine α), MarkedUp l (curaType s l).2 := by
    intro s l
    unfold curaType
    split_ifs
    all_goals first
      | exact curaStop_marked _ _
      | exact markedUp_refl _
  have h3 := markedUp_trans (markedUp_trans (annotateExtrusion_marked s l) (h1 (annotateExtrusion s l).1 _))
    (h2 (curaNext (annotateExtrusion s l).1 (annotateExtrusion s l).2).1 _)
  split_ifs
  · exact markedUp_trans h3 (curaStop_marked _ _)
  · exact h3

theorem curaLine_marked {repo : StretchRepo α} {profile : ProfileOracle α} {s s' : AnnSt α} {l l' : PyLine α} {b : Bool}
    (h : curaLine repo profile s l b = .ok (s', l')) : MarkedUp l l' ∧ l' = (curaMarks s l b).2 := by
  rw [curaLine_eq] at h
  have hm := curaMarks_marked s l b
  cases hd : dropPrefix? c!";CURA_PROFILE_STRING:" (curaMarks s l b).2.raw with
  | none => rw [hd] at h; simp only [Except.ok.injEq] at h; rw [h] at hm ⊢; exact ⟨hm, rfl⟩
  | some t =>
    rw [hd] at h
    simp only at h
    cases hp : profile t with
    | error er => rw [hp] at h; cases h
    | ok o =>
      rw [hp] at h
      cases o with
      | none => simp only [Except.ok.injEq, Prod.mk.injEq] at h; rw [← h.2]; exact ⟨hm, rfl⟩
      | some w => simp only [Except.ok.injEq, Prod.mk.injEq] at h; rw [← h.2]; exact ⟨hm, rfl⟩

theorem skeinforgeLine_marked {repo : StretchRepo α} {s s' : AnnSt α} {l l' : PyLine α}
    (h : skeinforgeLine repo s l = .ok (s', l')) : MarkedUp l l' := by
  unfold skeinforgeLine at h
  simp only at h
  generalize hq : (if l.isCmd c!"M101" = true then addMark c!"; " extrusionOnMarker l
    else if l.isCmd c!"M103" = true then addMark c!"; " extrusionOffMarker l
    else if startsWith c!"(<loop>" l.raw = true then addMark c!"; " loopStartMarker l
    else if (startsWith c!"(<edge>" l.raw && !startsWith c!"(<edge> outer" l.raw) = true then
      addMark c!"; " innerEdgeMarker l
    else if startsWith c!"(<edge> outer" l.raw = true then addMark c!"; " outerEdgeMarker l
    else if (startsWith c!"(</edge>)" l.raw || startsWith c!"(</loop>)" l.raw) = true then
      addMark c!"; " loopStopMarker l
    else l) = q at h
  have hm : MarkedUp l q := by
    subst hq
    split_ifs
    · exact mk2 l mem_on
    · exact mk2 l mem_off
    · exact mk2 l mem_start
    · exact mk2 l mem_inner
    · exact mk2 l mem_outer
    · exact mk2 l mem_stop
    · exact markedUp_refl l
  cases hw : skeinforgeEdgeWidth l.raw with
  | none => rw [hw] at h; simp only [Except.ok.injEq, Prod.mk.injEq] at h; rw [← h.2]; exact hm
  | some t =>
    rw [hw] at h
    simp only at h
    cases he : edgeFromText repo t with
    | error er => rw [he] at h; cases h
    | ok d => rw [he] at h; simp only [Except.ok.injEq, Prod.mk.injEq] at h; rw [← h.2]; exact hm

theorem slic3rLines_marked {repo : StretchRepo α} {s s' : AnnSt α} {ls ls' : List (PyLine α)}
    (h : slic3rLines repo s ls = .ok (s', ls')) : List.Forall₂ MarkedUp ls ls' := by
  induction ls generalizing s s' ls' with
  | nil => simp only [slic3rLines, Except.ok.injEq, Prod.mk.injEq] at h; rw [← h.2]; exact .nil
  | cons l ls ih =>
    rw [slic3rLines] at h
    cases h1 : slic3rLine repo s l ls with
    | error er => rw [h1] at h; cases h
    | ok p =>
      rw [h1] at h
      simp only at h
      cases h2 : slic3rLines repo p.1 ls with
      | error er => rw [h2] at h; cases h
      | ok q =>
        rw [h2] at h
        simp only [Except.ok.injEq, Prod.mk.injEq] at h
        rw [← h.2]
        exact .cons (slic3rLine_marked h1) (ih h2)

theorem curaLines_marked {repo : StretchRepo α} {profile : ProfileOracle α} {s s' : AnnSt α} {ls ls' : List (PyLine α)}
    (h : curaLines repo profile s ls = .ok (s', ls')) : List.Forall₂ MarkedUp ls ls' := by
  induction ls generalizing s s' ls' with
  | nil => simp only [curaLines, Except.ok.injEq, Prod.mk.injEq] at h; rw [← h.2]; exact .nil
  | cons l ls ih =>
    rw [curaLines] at h
    cases h1 : curaLine repo profile s l ls.isEmpty with
    | error er => rw [h1] at h; cases h
    | ok p =>
      rw [h1] at h
      simp only at h
      cases h2 : curaLines repo profile p.1 ls with
      | error er => rw [h2] at h; cases h
      | ok q =>
        rw [h2] at h
        simp only [Except.ok.injEq, Prod.mk.injEq] at h
        rw [← h.2]
        exact .cons (curaLine_marked h1).1 (ih h2)

theorem skeinforgeLines_marked {repo : StretchRepo α} {s s' : AnnSt α} {ls ls' : List (PyLine α)}
    (h : skeinforgeLines repo s ls = .ok (s', ls')) : List.Forall₂ MarkedUp ls ls' := by
  induction ls generalizing s s' ls' with
  | nil => simp only [skeinforgeLines, Except.ok.injEq, Prod.mk.injEq] at h; rw [← h.2]; exact .nil
  | cons l ls ih =>
    rw [skeinforgeLines] at h
    cases h1 : skeinforgeLine repo s l with
    | error er => rw [h1] at h; cases h
    | ok p =>
      rw [h1] at h
      simp only at h
      cases h2 : skeinforgeLines repo p.1 ls with
      | error er => rw [h2] at h; cases h
      | ok q =>
        rw [h2] at h
        simp only [Except.ok.injEq, Prod.mk.injEq] at h
        rw [← h.2]
        exact .cons (skeinforgeLine_marked h1) (ih h2)

theorem annotateLayer_marked {slicer : Slicer} {repo : StretchRepo α} {profile : ProfileOracle α} {s s' : AnnSt α} {ls ls' : List (PyLine α)}
    (h : annotateLayer slicer repo profile s ls = .ok (s', ls')) : List.Forall₂ MarkedUp ls ls' := by
  cases slicer with
  | slic3r => exact slic3rLines_marked h
  | cura => exact curaLines_marked h
  | skeinforge => exact skeinforgeLines_marked h

theorem annotateLayers_marked {slicer : Slicer} {repo : StretchRepo α} {profile : ProfileOracle α} {s s' : AnnSt α} {Ls Ls' : List (Layer α)}
    (h : annotateLayers slicer repo profile s Ls = .ok (s', Ls')) : List.Forall₂ (SameLayer MarkedUp) Ls Ls' := by
  induction Ls generalizing s s' Ls' with
  | nil => simp only [annotateLayers, Except.ok.injEq, Prod.mk.injEq] at h; rw [← h.2]; exact .nil
  | cons L Ls ih =>
    rw [annotateLayers] at h
    cases h1 : annotateLayer slicer repo profile s L.lines with
    | error er => rw [h1] at h; cases h
    | ok p =>
      rw [h1] at h
      simp only at h
      cases h2 : annotateLayers slicer repo profile p.1 Ls with
      | error er => rw [h2] at h; cases h
      | ok q =>
        rw [h2] at h
        simp only [Except.ok.injEq, Prod.mk.injEq] at h
        rw [← h.2]
        exact .cons ⟨rfl, annotateLayer_marked h1⟩ (ih h2)

theorem setupFilter_marked {slicer : Slicer} {repo : StretchRepo α} {profile : ProfileOracle α} {d : Option (StretchDist α)} {Ls Ls' : List (Layer α)}
    (h : setupFilter slicer repo profile Ls = .ok (d, Ls')) : List.Forall₂ (SameLayer MarkedUp) Ls Ls' := by
  unfold setupFilter at h
  cases h1 : annotateLayers slicer repo profile {} Ls with
  | error er => rw [h1] at h; cases h
  | ok p =>
    rw [h1] at h
    simp only [Except.ok.injEq, Prod.mk.injEq] at h
    rw [← h.2]
    exact annotateLayers_marked h1

end GCodeUtils
