import Verif.Lemmas.Elsewhere

/-
  The passes of the stretch filter that look at the texts of the lines, on two programs whose lines look alike to them.
-/

set_option linter.unusedSectionVars false

namespace GCodeUtils

open Spec

variable {α : Type} [Field α] [LinearOrder α] [IsStrictOrderedRing α] [FloorRing α]

/-- Related lines look alike to the passes over the texts, also after marks have been added. -/
structure Reading (R : PyLine α → PyLine α → Prop) : Prop where
  hasSub : ∀ {l l' : PyLine α}, R l l' → ∀ {c : Char} {ps : Str}, c ∉ c!"GMXYZEFIJ 0123456789.+-" → hasSub (c :: ps) l'.raw = hasSub (c :: ps) l.raw
  dropPrefix : ∀ {l l' : PyLine α}, R l l' → ∀ {c : Char} {ps : Str}, c ∉ c!"GMXYZEFIJ 0123456789.+-" → dropPrefix? (c :: ps) l'.raw = dropPrefix? (c :: ps) l.raw
  startsWith : ∀ {l l' : PyLine α}, R l l' → ∀ {c : Char} {ps : Str}, c ∉ c!"GMXYZEFIJ 0123456789.+-" → startsWith (c :: ps) l'.raw = startsWith (c :: ps) l.raw
  inLinear : ∀ {l l' : PyLine α}, R l l' → l'.inLinear = l.inLinear
  isCmd : ∀ {l l' : PyLine α}, R l l' → l'.isCmd c!"M101" = l.isCmd c!"M101" ∧ l'.isCmd c!"M103" = l.isCmd c!"M103"
  e : ∀ {l l' : PyLine α}, R l l' → l'.e = l.e
  xyMove : ∀ {l l' : PyLine α}, R l l' → isXYMove l' = isXYMove l
  add : ∀ {l l' : PyLine α}, R l l' → ∀ {sep m : Str}, (sep = c!" ; " ∨ sep = c!"; ") → m ∈ markTexts → R (addMark sep m l) (addMark sep m l')

variable {R : PyLine α → PyLine α → Prop} (A : Reading R)

include A

/-! ### the annotation passes -/

/-- Same state, shifted line. -/
def AnnAlike (R : PyLine α → PyLine α → Prop) (p q : AnnSt α × PyLine α) : Prop := q.1 = p.1 ∧ R p.2 q.2

theorem annotateExtrusion_alike (s : AnnSt α) {l l' : PyLine α} (h : R l l') :
    AnnAlike R (annotateExtrusion s l) (annotateExtrusion s l') := by
  unfold annotateExtrusion
  rw [A.inLinear h, A.e h]
  by_cases h1 : (!s.extruding && l.inLinear && l.e.isSome) = true
  · rw [if_pos h1, if_pos h1]; exact ⟨rfl, A.add h (.inl rfl) (by decide)⟩
  · rw [if_neg h1, if_neg h1]
    by_cases h2 : (s.extruding && l.inLinear && l.e.isNone && decide (s.type ≠ .unknown)) = true
    · rw [if_pos h2, if_pos h2]; exact ⟨rfl, A.add h (.inl rfl) (by decide)⟩
    · rw [if_neg h2, if_neg h2]; exact ⟨rfl, h⟩

theorem Reading.addIf {l l' : PyLine α} (h : R l l') (p : Prop) [Decidable p] {m : Str} (hm : m ∈ markTexts) :
    R (if p then addMark c!" ; " m l else l) (if p then addMark c!" ; " m l' else l') := by
  by_cases hp : p
  · rw [if_pos hp, if_pos hp]; exact A.add h (.inl rfl) hm
  · rw [if_neg hp, if_neg hp]; exact h

theorem slic3rPerimeter_alike (s : AnnSt α) {l l' : PyLine α} (h : R l l') (ext : Bool) :
    AnnAlike R (slic3rPerimeter s l ext) (slic3rPerimeter s l' ext) := by
  unfold slic3rPerimeter
  cases ext with
  | true =>
    simp only [if_true]
    cases s.nextOuter with
    | true => simp only [if_true]; exact ⟨rfl, A.addIf (A.add h (.inl rfl) (by decide)) _ (by decide)⟩
    | false => simp only [Bool.false_eq_true, if_false]; exact ⟨rfl, A.addIf (A.add h (.inl rfl) (by decide)) _ (by decide)⟩
  | false =>
    simp only [Bool.false_eq_true, if_false]
    exact ⟨rfl, A.addIf (A.add h (.inl rfl) (by decide)) _ (by decide)⟩

theorem nextPerimeter_alike {ls ls' : List (PyLine α)} (h : List.Forall₂ R ls ls') : nextPerimeter ls' = nextPerimeter ls := by
  induction h with
  | nil => rfl
  | cons h1 _ ih =>
    unfold nextPerimeter
    rw [A.hasSub h1 (by decide), A.hasSub h1 (by decide), ih]

/-- The middle of `slic3rLine`. -/
def slic3rPartMid (p : AnnSt α × PyLine α) (rest : List (PyLine α)) : AnnSt α × PyLine α :=
  if hasSub c!"; perimeter external" p.2.raw then
    if p.1.type ≠ .external then slic3rPerimeter p.1 p.2 true else p
  else if hasSub c!"; perimeter" p.2.raw then
    if p.1.type ≠ .extra then slic3rPerimeter p.1 p.2 false else p
  else if hasSub c!"; move to first perimeter point" p.2.raw then
    match nextPerimeter rest with
    | some ext => slic3rPerimeter p.1 p.2 ext
    | none => p
  else if !hasSub c!"unretract" p.2.raw then
    ({ p.1 with type := .unknown }, if p.1.type ≠ .unknown then addMark c!" ; " loopStopMarker p.2 else p.2)
  else p

/-- The end of `slic3rLine`. -/
def slic3rPartTail (repo : StretchRepo α) (p : AnnSt α × PyLine α) : Except Err (AnnSt α × PyLine α) :=
  match slic3rEdgeWidth p.2.raw with
  | some t =>
    match edgeFromText repo t with
    | .error er => .error er
    | .ok d => .ok ({ p.1 with dist := some d, found := true }, p.2)
  | none => .ok p

omit A in
theorem slic3rLine_parts (repo : StretchRepo α) (s : AnnSt α) (l : PyLine α) (rest : List (PyLine α)) :
    slic3rLine repo s l rest = slic3rPartTail repo (slic3rPartMid (annotateExtrusion s l) rest) := by
  unfold slic3rLine slic3rPartMid slic3rPartTail
  rfl

theorem slic3rMid_alike {p p' : AnnSt α × PyLine α} (h : AnnAlike R p p') {rest rest' : List (PyLine α)}
    (hr : List.Forall₂ R rest rest') : AnnAlike R (slic3rPartMid p rest) (slic3rPartMid p' rest') := by
  obtain ⟨s1, l1⟩ := p
  obtain ⟨s1', l1'⟩ := p'
  obtain ⟨e1, h1⟩ := h
  simp only at e1 h1
  subst e1
  unfold slic3rPartMid
  simp only
  rw [A.hasSub h1 (by decide), A.hasSub h1 (by decide), A.hasSub h1 (by decide), A.hasSub h1 (by decide), nextPerimeter_alike A hr]
  split_ifs
  · exact slic3rPerimeter_alike A _ h1 _
  · exact ⟨rfl, h1⟩
  · exact slic3rPerimeter_alike A _ h1 _
  · exact ⟨rfl, h1⟩
  · cases nextPerimeter rest with
    | none => exact ⟨rfl, h1⟩
    | some ext => exact slic3rPerimeter_alike A _ h1 _
  · exact ⟨rfl, A.add h1 (.inl rfl) (by decide)⟩
  · exact ⟨rfl, h1⟩
  · exact ⟨rfl, h1⟩

theorem slic3rTail_alike (repo : StretchRepo α) {p p' : AnnSt α × PyLine α} (h : AnnAlike R p p') :
    SameEnd (AnnAlike R) (slic3rPartTail repo p) (slic3rPartTail repo p') := by
  obtain ⟨s1, l1⟩ := p
  obtain ⟨s1', l1'⟩ := p'
  obtain ⟨e1, h1⟩ := h
  simp only at e1 h1
  subst e1
  unfold slic3rPartTail
  have : slic3rEdgeWidth l1'.raw = slic3rEdgeWidth l1.raw := by
    unfold slic3rEdgeWidth
    rw [A.dropPrefix h1 (by decide)]
  simp only [this]
  cases slic3rEdgeWidth l1.raw with
  | none => exact ⟨rfl, h1⟩
  | some t =>
    simp only
    cases edgeFromText repo t with
    | error er => exact rfl
    | ok d => exact ⟨rfl, h1⟩

theorem slic3rLine_alike (repo : StretchRepo α) (s : AnnSt α) {l l' : PyLine α} (h : R l l') {rest rest' : List (PyLine α)}
    (hr : List.Forall₂ R rest rest') : SameEnd (AnnAlike R) (slic3rLine repo s l rest) (slic3rLine repo s l' rest') := by
  rw [slic3rLine_parts, slic3rLine_parts]
  exact slic3rTail_alike A repo (slic3rMid_alike A (annotateExtrusion_alike A s h) hr)

theorem curaPerimeter_alike (s : AnnSt α) {l l' : PyLine α} (h : R l l') (ext outer : Bool) :
    AnnAlike R (curaPerimeter s l ext outer) (curaPerimeter s l' ext outer) := by
  unfold curaPerimeter
  refine ⟨rfl, ?_⟩
  simp only
  refine A.addIf ?_ _ (by decide)
  cases ext with
  | true =>
    cases outer with
    | true => exact A.add h (.inl rfl) (by decide)
    | false => exact A.add h (.inl rfl) (by decide)
  | false => exact A.add h (.inl rfl) (by decide)

theorem curaStop_alike (s : AnnSt α) {l l' : PyLine α} (h : R l l') : AnnAlike R (curaStop s l) (curaStop s l') :=
  ⟨rfl, A.addIf h _ (by decide)⟩

/-- The parts of `curaLine`. -/
def curaPartNext (p : AnnSt α × PyLine α) : AnnSt α × PyLine α :=
  match p.1.next with
  | some (ext, outer) => curaPerimeter { p.1 with next := none } p.2 ext outer
  | none => p

@[inherit_doc curaPartNext] def curaPartType (p : AnnSt α × PyLine α) : AnnSt α × PyLine α :=
  if hasSub c!"TYPE:WALL-OUTER" p.2.raw then ({ (curaStop p.1 p.2).1 with next := some (true, true) }, (curaStop p.1 p.2).2)
  else if hasSub c!"TYPE:WALL-INNER" p.2.raw then ({ (curaStop p.1 p.2).1 with next := some (true, false) }, (curaStop p.1 p.2).2)
  else if hasSub c!"TYPE:SKIN" p.2.raw then ({ (curaStop p.1 p.2).1 with next := some (false, false) }, (curaStop p.1 p.2).2)
  else if hasSub c!"TYPE:FILL" p.2.raw then curaStop p.1 p.2
  else p

@[inherit_doc curaPartNext] def curaPartEnd (isLast : Bool) (p : AnnSt α × PyLine α) : AnnSt α × PyLine α :=
  if isLast then curaStop p.1 p.2 else p

@[inherit_doc curaPartNext] def curaPartTail (repo : StretchRepo α) (profile : ProfileOracle α) (p : AnnSt α × PyLine α) : Except Err (AnnSt α × PyLine α) :=
  match dropPrefix? c!";CURA_PROFILE_STRING:" p.2.raw with
  | some t =>
    match profile t with
    | .error er => .error er
    | .ok (some w) => .ok ({ p.1 with dist := some (setEdgeWidth repo w), found := true }, p.2)
    | .ok none => .ok ({ p.1 with found := false }, p.2)
  | none => .ok p

omit A in
theorem curaLine_parts (repo : StretchRepo α) (profile : ProfileOracle α) (s : AnnSt α) (l : PyLine α) (isLast : Bool) :
    curaLine repo profile s l isLast = curaPartTail repo profile (curaPartEnd isLast (curaPartType (curaPartNext (annotateExtrusion s l)))) := by
  unfold curaLine curaPartTail curaPartEnd curaPartType curaPartNext
  rfl

theorem curaLine_alike (repo : StretchRepo α) (profile : ProfileOracle α) (s : AnnSt α) {l l' : PyLine α} (h : R l l')
    (isLast : Bool) : SameEnd (AnnAlike R) (curaLine repo profile s l isLast) (curaLine repo profile s l' isLast) := by
  have hnext : ∀ {p p' : AnnSt α × PyLine α}, AnnAlike R p p' → AnnAlike R (curaPartNext p) (curaPartNext p') := by
    rintro ⟨s1, l1⟩ ⟨s1', l1'⟩ ⟨e1, h1⟩
    simp only at e1 h1
    subst e1
    unfold curaPartNext
    simp only
    cases s1'.next with
    | none => exact ⟨rfl, h1⟩
    | some q => exact curaPerimeter_alike A _ h1 _ _
  have htype : ∀ {p p' : AnnSt α × PyLine α}, AnnAlike R p p' → AnnAlike R (curaPartType p) (curaPartType p') := by
    rintro ⟨s1, l1⟩ ⟨s1', l1'⟩ ⟨e1, h1⟩
    simp only at e1 h1
    subst e1
    unfold curaPartType
    simp only
    rw [A.hasSub h1 (by decide), A.hasSub h1 (by decide), A.hasSub h1 (by decide), A.hasSub h1 (by decide)]
    have hst := curaStop_alike A s1' h1
    split_ifs
    · exact ⟨by rw [hst.1], hst.2⟩
    · exact ⟨by rw [hst.1], hst.2⟩
    · exact ⟨by rw [hst.1], hst.2⟩
    · exact hst
    · exact ⟨rfl, h1⟩
  have hend : ∀ {p p' : AnnSt α × PyLine α}, AnnAlike R p p' → AnnAlike R (curaPartEnd isLast p) (curaPartEnd isLast p') := by
    rintro ⟨s1, l1⟩ ⟨s1', l1'⟩ ⟨e1, h1⟩
    simp only at e1 h1
    subst e1
    unfold curaPartEnd
    cases isLast with
    | true => exact curaStop_alike A _ h1
    | false => exact ⟨rfl, h1⟩
  rw [curaLine_parts, curaLine_parts]
  have hh := hend (htype (hnext (annotateExtrusion_alike A s h)))
  revert hh
  generalize curaPartEnd isLast (curaPartType (curaPartNext (annotateExtrusion s l))) = p
  generalize curaPartEnd isLast (curaPartType (curaPartNext (annotateExtrusion s l'))) = p'
  obtain ⟨s1, l1⟩ := p
  obtain ⟨s1', l1'⟩ := p'
  rintro ⟨e1, h1⟩
  simp only at e1 h1
  subst e1
  unfold curaPartTail
  simp only [A.dropPrefix h1 (c := ';') (by decide)]
  cases dropPrefix? c!";CURA_PROFILE_STRING:" l1.raw with
  | none => exact ⟨rfl, h1⟩
  | some t =>
    simp only
    cases profile t with
    | error er => exact rfl
    | ok w =>
      cases w with
      | none => exact ⟨rfl, h1⟩
      | some w => exact ⟨rfl, h1⟩

theorem skeinforgeLine_alike (repo : StretchRepo α) (s : AnnSt α) {l l' : PyLine α} (h : R l l') :
    SameEnd (AnnAlike R) (skeinforgeLine repo s l) (skeinforgeLine repo s l') := by
  unfold skeinforgeLine
  have he : skeinforgeEdgeWidth l'.raw = skeinforgeEdgeWidth l.raw := by
    unfold skeinforgeEdgeWidth
    rw [A.dropPrefix h (by decide)]
  simp only [he, (A.isCmd h).1, (A.isCmd h).2, A.startsWith h (c := '(') (by decide)]
  have hm : R
      (if l.isCmd c!"M101" then addMark c!"; " extrusionOnMarker l
      else if l.isCmd c!"M103" then addMark c!"; " extrusionOffMarker l
      else if startsWith c!"(<loop>" l.raw then addMark c!"; " loopStartMarker l
      else if startsWith c!"(<edge>" l.raw && !startsWith c!"(<edge> outer" l.raw then
        addMark c!"; " innerEdgeMarker l
      else if startsWith c!"(<edge> outer" l.raw then addMark c!"; " outerEdgeMarker l
      else if startsWith c!"(</edge>)" l.raw || startsWith c!"(</loop>)" l.raw then
        addMark c!"; " loopStopMarker l
      else l)
      (if l.isCmd c!"M101" then addMark c!"; " extrusionOnMarker l'
      else if l.isCmd c!"M103" then addMark c!"; " extrusionOffMarker l'
      else if startsWith c!"(<loop>" l.raw then addMark c!"; " loopStartMarker l'
      else if startsWith c!"(<edge>" l.raw && !startsWith c!"(<edge> outer" l.raw then
        addMark c!"; " innerEdgeMarker l'
      else if startsWith c!"(<edge> outer" l.raw then addMark c!"; " outerEdgeMarker l'
      else if startsWith c!"(</edge>)" l.raw || startsWith c!"(</loop>)" l.raw then
        addMark c!"; " loopStopMarker l'
      else l') := by
    split_ifs <;> first | exact A.add h (.inr rfl) (by decide) | exact h
  cases skeinforgeEdgeWidth l.raw with
  | none => exact ⟨rfl, hm⟩
  | some t =>
    simp only
    cases edgeFromText repo t with
    | error er => exact rfl
    | ok d => exact ⟨rfl, hm⟩

/-- Same state, shifted lines. -/
def AnnsAlike (R : PyLine α → PyLine α → Prop) (p q : AnnSt α × List (PyLine α)) : Prop := q.1 = p.1 ∧ List.Forall₂ R p.2 q.2

theorem slic3rLines_alike (repo : StretchRepo α) {ls ls' : List (PyLine α)} (h : List.Forall₂ R ls ls') : ∀ s : AnnSt α,
    SameEnd (AnnsAlike R) (slic3rLines repo s ls) (slic3rLines repo s ls') := by
  induction h with
  | nil => intro s; exact ⟨rfl, .nil⟩
  | @cons l l' rest rest' h1 hr ih =>
    intro s
    unfold slic3rLines
    have hl := slic3rLine_alike A repo s h1 hr
    revert hl
    cases slic3rLine repo s l rest with
    | error er => cases slic3rLine repo s l' rest' <;> first | exact id | exact False.elim
    | ok p =>
      cases slic3rLine repo s l' rest' with
      | error er => exact False.elim
      | ok p' =>
        obtain ⟨s1, l1⟩ := p
        obtain ⟨s1', l1'⟩ := p'
        rintro ⟨e1, k1⟩
        simp only at e1 k1
        subst e1
        simp only
        have hi := ih s1'
        revert hi
        cases slic3rLines repo s1' rest with
        | error er => cases slic3rLines repo s1' rest' <;> exact id
        | ok q =>
          cases slic3rLines repo s1' rest' with
          | error er => exact False.elim
          | ok q' => exact fun hi => ⟨hi.1, .cons k1 hi.2⟩

theorem curaLines_alike (repo : StretchRepo α) (profile : ProfileOracle α) {ls ls' : List (PyLine α)}
    (h : List.Forall₂ R ls ls') : ∀ s : AnnSt α, SameEnd (AnnsAlike R) (curaLines repo profile s ls) (curaLines repo profile s ls') := by
  induction h with
  | nil => intro s; exact ⟨rfl, .nil⟩
  | @cons l l' rest rest' h1 hr ih =>
    intro s
    unfold curaLines
    have he : rest'.isEmpty = rest.isEmpty := by cases hr <;> rfl
    have hl := curaLine_alike A repo profile s h1 rest.isEmpty
    rw [he]
    revert hl
    cases curaLine repo profile s l rest.isEmpty with
    | error er => cases curaLine repo profile s l' rest.isEmpty <;> first | exact id | exact False.elim
    | ok p =>
      cases curaLine repo profile s l' rest.isEmpty with
      | error er => exact False.elim
      | ok p' =>
        obtain ⟨s1, l1⟩ := p
        obtain ⟨s1', l1'⟩ := p'
        rintro ⟨e1, k1⟩
        simp only at e1 k1
        subst e1
        simp only
        have hi := ih s1'
        revert hi
        cases curaLines repo profile s1' rest with
        | error er => cases curaLines repo profile s1' rest' <;> exact id
        | ok q =>
          cases curaLines repo profile s1' rest' with
          | error er => exact False.elim
          | ok q' => exact fun hi => ⟨hi.1, .cons k1 hi.2⟩

theorem skeinforgeLines_alike (repo : StretchRepo α) {ls ls' : List (PyLine α)} (h : List.Forall₂ R ls ls') : ∀ s : AnnSt α,
    SameEnd (AnnsAlike R) (skeinforgeLines repo s ls) (skeinforgeLines repo s ls') := by
  induction h with
  | nil => intro s; exact ⟨rfl, .nil⟩
  | @cons l l' rest rest' h1 hr ih =>
    intro s
    unfold skeinforgeLines
    have hl := skeinforgeLine_alike A repo s h1
    revert hl
    cases skeinforgeLine repo s l with
    | error er => cases skeinforgeLine repo s l' <;> first | exact id | exact False.elim
    | ok p =>
      cases skeinforgeLine repo s l' with
      | error er => exact False.elim
      | ok p' =>
        obtain ⟨s1, l1⟩ := p
        obtain ⟨s1', l1'⟩ := p'
        rintro ⟨e1, k1⟩
        simp only at e1 k1
        subst e1
        simp only
        have hi := ih s1'
        revert hi
        cases skeinforgeLines repo s1' rest with
        | error er => cases skeinforgeLines repo s1' rest' <;> exact id
        | ok q =>
          cases skeinforgeLines repo s1' rest' with
          | error er => exact False.elim
          | ok q' => exact fun hi => ⟨hi.1, .cons k1 hi.2⟩

theorem annotateLayer_alike (slicer : Slicer) (repo : StretchRepo α) (profile : ProfileOracle α) {ls ls' : List (PyLine α)}
    (h : List.Forall₂ R ls ls') (s : AnnSt α) :
    SameEnd (AnnsAlike R) (annotateLayer slicer repo profile s ls) (annotateLayer slicer repo profile s ls') := by
  cases slicer with
  | slic3r => exact slic3rLines_alike A repo h _
  | cura => exact curaLines_alike A repo profile h _
  | skeinforge => exact skeinforgeLines_alike A repo h _

/-- Layers with shifted lines. -/
def LinesAlike (R : PyLine α → PyLine α → Prop) : List (Layer α) → List (Layer α) → Prop := List.Forall₂ (fun L L' => List.Forall₂ R L.lines L'.lines)

theorem annotateLayers_alike (slicer : Slicer) (repo : StretchRepo α) (profile : ProfileOracle α) {Ls Ls' : List (Layer α)}
    (h : LinesAlike R Ls Ls') : ∀ s : AnnSt α,
    SameEnd (fun p q => q.1 = p.1 ∧ LinesAlike R p.2 q.2) (annotateLayers slicer repo profile s Ls) (annotateLayers slicer repo profile s Ls') := by
  unfold LinesAlike at h
  induction h with
  | nil => intro s; exact ⟨rfl, .nil⟩
  | @cons L L' rest rest' h1 hr ih =>
    intro s
    unfold annotateLayers
    have hl := annotateLayer_alike A slicer repo profile h1 s
    revert hl
    cases annotateLayer slicer repo profile s L.lines with
    | error er => cases annotateLayer slicer repo profile s L'.lines <;> first | exact id | exact False.elim
    | ok p =>
      cases annotateLayer slicer repo profile s L'.lines with
      | error er => exact False.elim
      | ok p' =>
        obtain ⟨s1, l1⟩ := p
        obtain ⟨s1', l1'⟩ := p'
        rintro ⟨e1, k1⟩
        simp only at e1 k1
        subst e1
        simp only
        have hi := ih s1'
        revert hi
        cases annotateLayers slicer repo profile s1' rest with
        | error er => cases annotateLayers slicer repo profile s1' rest' <;> exact id
        | ok q =>
          cases annotateLayers slicer repo profile s1' rest' with
          | error er => exact False.elim
          | ok q' => exact fun hi => ⟨hi.1, .cons k1 hi.2⟩

theorem setupFilter_alike (slicer : Slicer) (repo : StretchRepo α) (profile : ProfileOracle α) {Ls Ls' : List (Layer α)}
    (h : LinesAlike R Ls Ls') :
    SameEnd (fun p q => q.1 = p.1 ∧ LinesAlike R p.2 q.2) (setupFilter slicer repo profile Ls) (setupFilter slicer repo profile Ls') := by
  unfold setupFilter
  have hl := annotateLayers_alike A slicer repo profile h {}
  revert hl
  cases annotateLayers slicer repo profile {} Ls with
  | error er => cases annotateLayers slicer repo profile {} Ls' <;> exact id
  | ok p =>
    cases annotateLayers slicer repo profile {} Ls' with
    | error er => exact False.elim
    | ok p' =>
      obtain ⟨s1, l1⟩ := p
      obtain ⟨s1', l1'⟩ := p'
      rintro ⟨e1, k1⟩
      simp only at e1 k1
      subst e1
      exact ⟨rfl, k1⟩


/-! ### walking along the lines -/

section walk

variable {ls ls' : List (PyLine α)}


theorem marked_alike {l l' : PyLine α} (h : R l l') {m : Str} (hm : m.head? = some 's') : marked m l' = marked m l := by
  cases m with
  | nil => cases hm
  | cons c ps =>
    simp only [List.head?_cons, Option.some.injEq] at hm
    subst hm
    exact A.hasSub h (by decide)

theorem get_alike (h : List.Forall₂ R ls ls') (n : ℕ) :
    (ls[n]? = none ∧ ls'[n]? = none) ∨ ∃ l l', ls[n]? = some l ∧ ls'[n]? = some l' ∧ R l l' := by
  induction h generalizing n with
  | nil => exact .inl ⟨rfl, rfl⟩
  | cons h1 _ ih =>
    cases n with
    | zero => exact .inr ⟨_, _, rfl, rfl, h1⟩
    | succ n => simpa using ih n

theorem searchDown_alike (h : List.Forall₂ R ls ls') {m : Str} (hm : m.head? = some 's') (lo : ℕ) : ∀ k,
    searchDown (marked m) ls' lo k = searchDown (marked m) ls lo k := by
  intro k
  induction k with
  | zero => rfl
  | succ k ih =>
    unfold searchDown
    rw [ih]
    rcases get_alike A h k with ⟨h1, h2⟩ | ⟨l, l', h1, h2, h3⟩
    · rw [h1, h2]
    · rw [h1, h2]
      simp only [marked_alike A h3 hm]

theorem searchUp_alike (h : List.Forall₂ R ls ls') {m : Str} (hm : m.head? = some 's') (k : ℕ) :
    searchUp (marked m) ls' k = searchUp (marked m) ls k := by
  unfold searchUp
  have key : ∀ {a b : List (PyLine α)}, List.Forall₂ R a b → b.findIdx? (marked m) = a.findIdx? (marked m) := by
    intro a b hab
    induction hab with
    | nil => rfl
    | cons h1 _ ih => rw [List.findIdx?_cons, List.findIdx?_cons, marked_alike A h1 hm, ih]
  rw [key (List.forall₂_drop k h)]

theorem resetIndex_alike (h : List.Forall₂ R ls ls') (kind : ItKind) (i : ℤ) : resetIndex kind ls' i = resetIndex kind ls i := by
  unfold resetIndex
  cases kind <;> simp only [searchDown_alike A h (m := extrusionOnMarker) rfl, searchDown_alike A h (m := loopStartMarker) rfl,
    searchUp_alike A h (m := extrusionOffMarker) rfl, searchUp_alike A h (m := loopStopMarker) rfl]

theorem lineAt_alike (h : List.Forall₂ R ls ls') (i : ℤ) :
    (lineAt ls i = none ∧ lineAt ls' i = none) ∨ ∃ l l', lineAt ls i = some l ∧ lineAt ls' i = some l' ∧ R l l' := by
  unfold lineAt
  by_cases hi : 0 ≤ i
  · rw [if_pos hi, if_pos hi]; exact get_alike A h _
  · rw [if_neg hi, if_neg hi]; exact .inl ⟨rfl, rfl⟩

theorem indexSetup_alike (h : List.Forall₂ R ls ls') (kind : ItKind) (st : ItSt) : indexSetup kind ls' st = indexSetup kind ls st := by
  unfold indexSetup
  rw [resetIndex_alike A h]
  cases kind with
  | fwdLegacy => rfl
  | fwd => rfl
  | bwdLegacy => rfl
  | curaFwd =>
    simp only
    rcases lineAt_alike A h st.idx with ⟨h1, h2⟩ | ⟨l, l', h1, h2, h3⟩
    · rw [h1, h2]
    · rw [h1, h2]; simp only [marked_alike A h3 (m := loopStopMarker) rfl]
  | bwd =>
    simp only
    rcases lineAt_alike A h (st.idx + 1) with ⟨h1, h2⟩ | ⟨l, l', h1, h2, h3⟩
    · rw [h1, h2]
    · rw [h1, h2]; simp only [marked_alike A h3 (m := loopStartMarker) rfl]
  | curaBwd =>
    simp only
    rcases lineAt_alike A h (st.idx + 1) with ⟨h1, h2⟩ | ⟨l, l', h1, h2, h3⟩
    · rw [h1, h2]
    · rw [h1, h2]; simp only [marked_alike A h3 (m := loopStartMarker) rfl]

/-- The results of a step along the lines. -/
def StepAlike (R : PyLine α → PyLine α → Prop) (p q : PyLine α × ItSt) : Prop := q.2 = p.2 ∧ R p.1 q.1 ∧ isXYMove p.1 = true

theorem getNextLoop_alike (h : List.Forall₂ R ls ls') (kind : ItKind) : ∀ (fuel : ℕ) (st : ItSt),
    SameEnd (StepAlike R) (getNextLoop kind ls fuel st) (getNextLoop kind ls' fuel st) := by
  intro fuel
  induction fuel with
  | zero => intro st; exact rfl
  | succ fuel ih =>
    intro st
    unfold getNextLoop
    rcases lineAt_alike A h st.idx with ⟨h1, h2⟩ | ⟨l, l', h1, h2, h3⟩
    · rw [h1, h2]; exact rfl
    · rw [h1, h2]
      simp only [marked_alike A h3 (m := extrusionOffMarker) rfl, resetIndex_alike A h, A.xyMove h3]
      by_cases c1 : st.first = some st.idx
      · rw [if_pos c1, if_pos c1]; exact rfl
      rw [if_neg c1, if_neg c1]
      by_cases c2 : (marked extrusionOffMarker l && kind.stopOnOff) = true
      · rw [if_pos c2, if_pos c2]
        cases resetIndex kind ls st.idx with
        | error er => exact rfl
        | ok k => exact ih _
      · rw [if_neg c2, if_neg c2]
        by_cases c3 : isXYMove l = true
        · rw [if_pos c3, if_pos c3]; exact ⟨rfl, h3, c3⟩
        · rw [if_neg c3, if_neg c3]; exact ih _

theorem getNext_alike (h : List.Forall₂ R ls ls') (fuel : ℕ) (kind : ItKind) (st : ItSt) :
    SameEnd (StepAlike R) (getNext fuel kind ls st) (getNext fuel kind ls' st) := by
  unfold getNext
  rw [indexSetup_alike A h]
  cases indexSetup kind ls st with
  | error er => exact rfl
  | ok st => exact getNextLoop_alike A h kind fuel st

end walk

end GCodeUtils
