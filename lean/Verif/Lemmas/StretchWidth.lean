import Verif.Lemmas.StretchRun

set_option linter.unusedSectionVars false

namespace GCodeUtils

open Spec

variable {α : Type} [Field α] [LinearOrder α] [IsStrictOrderedRing α] [FloorRing α]

/-! ### the comment patterns -/

theorem dropPrefix_iff (p s r : Str) : dropPrefix? p s = some r ↔ s = p ++ r := by
  induction p generalizing s with
  | nil => simp [dropPrefix?, eq_comm]
  | cons c p ih =>
    cases s with
    | nil => simp [dropPrefix?]
    | cons d s =>
      simp only [dropPrefix?]
      by_cases h : c = d
      · rw [if_pos h, ih]; simp [h]
      · rw [if_neg h]; simp [Ne.symm h]

theorem isNumChar_iff (c : Char) : isNumChar c = true ↔ c ∈ c!"0123456789." := by
  unfold isNumChar
  rw [Bool.or_eq_true]
  constructor
  · rintro (h | h)
    · exact List.mem_append_left ['.'] ((isDig_iff c).1 h)
    · have := of_decide_eq_true h; rw [this]; decide
  · intro h
    have : c ∈ c!"0123456789" ++ ['.'] := h
    rcases List.mem_append.1 this with h | h
    · exact .inl ((isDig_iff c).2 h)
    · right; simpa using h

theorem takeDrop_split (p : Char → Bool) (a r : Str) (ha : ∀ c ∈ a, p c = true) (hr : ∀ c, r.head? = some c → p c = false) :
    (a ++ r).takeWhile p = a ∧ (a ++ r).dropWhile p = r := by
  induction a with
  | nil =>
    cases r with
    | nil => exact ⟨rfl, rfl⟩
    | cons c r =>
      have := hr c rfl
      constructor <;> simp [this]
  | cons c a ih =>
    have h1 := ha c (by simp)
    obtain ⟨h2, h3⟩ := ih (fun d hd => ha d (by simp [hd]))
    simp only [List.cons_append, List.takeWhile_cons, List.dropWhile_cons, h1, if_true]
    exact ⟨by rw [h2], h3⟩

theorem slic3rEdgeWidth_iff (raw n : Str) : slic3rEdgeWidth raw = some n ↔ WidthComment raw n := by
  unfold slic3rEdgeWidth WidthComment
  constructor
  · intro h
    cases h1 : dropPrefix? c!"; external perimeters extrusion width" raw with
    | none => rw [h1] at h; cases h
    | some r =>
      rw [h1] at h
      simp only at h
      have e1 := (dropPrefix_iff _ _ _).1 h1
      by_cases h2 : (r.takeWhile isSpace).isEmpty = true
      · rw [if_pos h2] at h; cases h
      · rw [if_neg h2] at h
        cases h3 : r.dropWhile isSpace with
        | nil => rw [h3] at h; cases h
        | cons c r1 =>
          rw [h3] at h
          by_cases hc : c = '='
          · subst hc
            simp only at h
            by_cases h4 : (r1.takeWhile isSpace).isEmpty = true
            · rw [if_pos h4] at h; cases h
            · rw [if_neg h4] at h
              by_cases h5 : ((r1.dropWhile isSpace).takeWhile isNumChar).isEmpty = true
              · rw [if_pos h5] at h; cases h
              · rw [if_neg h5] at h
                have key : ∃ rest, (r1.dropWhile isSpace).dropWhile isNumChar = c!"mm" ++ rest ∧ (r1.dropWhile isSpace).takeWhile isNumChar = n := by
                  split at h
                  · rename_i rest he
                    simp only [Option.some.injEq] at h
                    exact ⟨rest, he, h⟩
                  · cases h
                obtain ⟨rest, k1, k2⟩ := key
                refine ⟨r.takeWhile isSpace, r1.takeWhile isSpace, rest, ?_, ?_, ?_, ?_, ?_, ?_, ?_⟩
                · rw [e1]
                  have a1 := List.takeWhile_append_dropWhile (p := isSpace) (l := r)
                  have a2 := List.takeWhile_append_dropWhile (p := isSpace) (l := r1)
                  have a3 := List.takeWhile_append_dropWhile (p := isNumChar) (l := r1.dropWhile isSpace)
                  rw [k1, k2] at a3
                  rw [← a3] at a2
                  rw [h3] at a1
                  conv_lhs => rw [← a1, ← a2]
                  simp [List.append_assoc]
                · simpa using h2
                · intro c hc; exact (isSpace_iff c).1 (List.mem_takeWhile_imp hc)
                · simpa using h4
                · intro c hc; exact (isSpace_iff c).1 (List.mem_takeWhile_imp hc)
                · rw [← k2]; simpa using h5
                · intro c hc; rw [← k2] at hc; exact (isNumChar_iff c).1 (List.mem_takeWhile_imp hc)
          · exfalso
            split at h
            · rename_i heq; exact hc (List.cons.inj heq).1
            · cases h
  · rintro ⟨a, b, rest, h, ha, ha', hb, hb', hn, hn'⟩
    have e : raw = c!"; external perimeters extrusion width" ++ (a ++ ('=' :: (b ++ (n ++ ('m' :: 'm' :: rest))))) := by
      rw [h]; simp [List.append_assoc]
    rw [(dropPrefix_iff _ _ _).2 e]
    simp only
    obtain ⟨t1, d1⟩ := takeDrop_split isSpace a ('=' :: (b ++ (n ++ ('m' :: 'm' :: rest)))) (fun c hc => (isSpace_iff c).2 (ha' c hc))
      (by intro c hc; cases hc; decide)
    have hhead : ∀ c, (n ++ ('m' :: 'm' :: rest)).head? = some c → isSpace c = false := by
      intro c hc
      obtain ⟨d, n', rfl⟩ := List.exists_cons_of_ne_nil hn
      simp only [List.cons_append, List.head?_cons, Option.some.injEq] at hc
      subst hc
      have hall : ∀ d ∈ c!"0123456789.", isSpace d = false := by decide
      exact hall d (hn' d (by simp))
    obtain ⟨t2, d2⟩ := takeDrop_split isSpace b (n ++ ('m' :: 'm' :: rest)) (fun c hc => (isSpace_iff c).2 (hb' c hc)) hhead
    obtain ⟨t3, d3⟩ := takeDrop_split isNumChar n ('m' :: 'm' :: rest) (fun c hc => (isNumChar_iff c).2 (hn' c hc))
      (by intro c hc; cases hc; decide)
    rw [t1, d1]
    simp only
    rw [if_neg (by simpa using ha), t2, d2, t3, d3, if_neg (by simpa using hb), if_neg (by simpa using hn)]
    rfl

theorem widthComment_unique {raw n n' : Str} (h : WidthComment raw n) (h' : WidthComment raw n') : n = n' := by
  rw [← slic3rEdgeWidth_iff] at h h'
  rw [h] at h'
  exact Option.some.inj h'

theorem skeinforgeEdgeWidth_iff (raw n : Str) : skeinforgeEdgeWidth raw = some n ↔ SkeinWidthComment raw n := by
  unfold skeinforgeEdgeWidth SkeinWidthComment
  constructor
  · intro h
    cases h1 : dropPrefix? c!"(<edgeWidth> " raw with
    | none => rw [h1] at h; cases h
    | some r =>
      rw [h1] at h
      simp only at h
      have e1 := (dropPrefix_iff _ _ _).1 h1
      by_cases h2 : (r.takeWhile isNumChar).isEmpty = true
      · rw [if_pos h2] at h; cases h
      · rw [if_neg h2] at h
        simp only [Option.some.injEq] at h
        refine ⟨r.dropWhile isNumChar, ?_, ?_, ?_, ?_⟩
        · rw [e1, ← h, List.append_assoc, List.takeWhile_append_dropWhile]
        · rw [← h]; simpa using h2
        · intro c hc; rw [← h] at hc; exact (isNumChar_iff c).1 (List.mem_takeWhile_imp hc)
        · intro c hc hm
          have : isNumChar c = false := by
            have := List.head?_dropWhile_not isNumChar r
            rw [hc] at this
            simpa using this
          rw [(isNumChar_iff c).2 hm] at this
          cases this
  · rintro ⟨rest, h, hn, hn', hr⟩
    rw [(dropPrefix_iff _ _ _).2 (by rw [h, List.append_assoc] : raw = c!"(<edgeWidth> " ++ (n ++ rest))]
    simp only
    obtain ⟨t, _⟩ := takeDrop_split isNumChar n rest (fun c hc => (isNumChar_iff c).2 (hn' c hc))
      (by intro c hc; rw [Bool.eq_false_iff]; intro hm; exact hr c hc ((isNumChar_iff c).1 hm))
    rw [t, if_neg (by simpa using hn)]

/-! ### marks do not make width comments -/

theorem marks_no_m {s : Str} (h : Marks s) : 'm' ∉ s := by
  induction h with
  | nil => simp
  | cons sep m s hs hm _ ih =>
    intro hc
    rcases List.mem_append.1 hc with hc | hc
    · rcases List.mem_append.1 hc with hc | hc
      · rcases hs with rfl | rfl
        · revert hc; decide
        · revert hc; decide
      · have : ∀ m ∈ markTexts, 'm' ∉ m := by decide
        exact this m hm hc
    · exact ih hc

theorem prefix_of_append {M raw r : Str} (h : M <+: raw ++ r) (hl : M.getLast? = some 'm') (hr : 'm' ∉ r) : M <+: raw := by
  rcases List.prefix_or_prefix_of_prefix h (List.prefix_append raw r) with h1 | ⟨y, h1⟩
  · exact h1
  · cases y with
    | nil => rw [← h1]; simp
    | cons c y =>
      exfalso
      apply hr
      have h2 : (c :: y) <+: r := by
        rw [← h1] at h
        exact (List.prefix_append_right_inj raw).1 h
      apply h2.subset
      rw [← h1, List.getLast?_append_of_ne_nil _ (by simp)] at hl
      exact List.mem_of_getLast? hl

theorem widthComment_marks {raw s n : Str} (h : Marks s) : WidthComment (raw ++ s) n ↔ WidthComment raw n := by
  constructor
  · rintro ⟨a, b, rest, he, h1⟩
    have hp : (c!"; external perimeters extrusion width" ++ a ++ c!"=" ++ b ++ n ++ c!"mm") <+: raw ++ s := ⟨rest, he.symm⟩
    obtain ⟨rest', hr⟩ := prefix_of_append hp (by rw [List.getLast?_append_of_ne_nil _ (by simp)]; rfl) (marks_no_m h)
    exact ⟨a, b, rest', hr.symm, h1⟩
  · rintro ⟨a, b, rest, he, h1⟩
    exact ⟨a, b, rest ++ s, by rw [he]; simp [List.append_assoc], h1⟩

theorem slic3rEdgeWidth_marked {l l' : PyLine α} (h : MarkedUp l l') : slic3rEdgeWidth l'.raw = slic3rEdgeWidth l.raw := by
  obtain ⟨s, hs, rfl⟩ := h
  show slic3rEdgeWidth (l.raw ++ s) = _
  cases h1 : slic3rEdgeWidth l.raw with
  | some n => rw [slic3rEdgeWidth_iff] at h1 ⊢; exact (widthComment_marks hs).2 h1
  | none =>
    cases h2 : slic3rEdgeWidth (l.raw ++ s) with
    | none => rfl
    | some n =>
      rw [slic3rEdgeWidth_iff, widthComment_marks hs, ← slic3rEdgeWidth_iff, h1] at h2
      cases h2

/-! ### what the annotation passes find -/

theorem lastSays_here {β : Type} {tells : PyLine α → β → Prop} {l : PyLine α} {w : β} (ls : List (PyLine α)) (h : tells l w) :
    LastSays tells (ls ++ [l]) w := ⟨ls, l, [], rfl, h, by simp⟩

theorem lastSays_more {β : Type} {tells : PyLine α → β → Prop} {ls : List (PyLine α)} {l : PyLine α} {w : β} (h : LastSays tells ls w)
    (hn : ∀ v, ¬ tells l v) : LastSays tells (ls ++ [l]) w := by
  obtain ⟨a, x, b, rfl, hx, hb⟩ := h
  refine ⟨a, x, b ++ [l], by simp, hx, ?_⟩
  intro y hy
  rcases List.mem_append.1 hy with hy | hy
  · exact hb y hy
  · rw [List.mem_singleton.1 hy]; exact hn

theorem noneSays_more {β : Type} {tells : PyLine α → β → Prop} {ls : List (PyLine α)} {l : PyLine α} (h : NoneSays tells ls)
    (hn : ∀ v, ¬ tells l v) : NoneSays tells (ls ++ [l]) := by
  intro y hy
  rcases List.mem_append.1 hy with hy | hy
  · exact h y hy
  · rw [List.mem_singleton.1 hy]; exact hn

/-- What the annotation pass knows after the lines `orig`, marked up as `ann`. -/
def WidthInv (slicer : Slicer) (repo : StretchRepo α) (profile : ProfileOracle α) (orig ann : List (PyLine α)) (s : AnnSt α) : Prop :=
  match slicer with
  | .slic3r => (s.found = false ∧ NoneSays slic3rSays orig) ∨ (s.found = true ∧ ∃ w, s.dist = some (setEdgeWidth repo w) ∧ LastSays slic3rSays orig w)
  | .cura => (s.found = false ∧ (LastSays (curaSays profile) ann none ∨ NoneSays (curaSays profile) ann)) ∨
      (s.found = true ∧ ∃ w, s.dist = some (setEdgeWidth repo w) ∧ LastSays (curaSays profile) ann (some w))
  | .skeinforge => (s.dist = none ∧ NoneSays skeinforgeSays orig) ∨ ∃ w, s.dist = some (setEdgeWidth repo w) ∧ LastSays skeinforgeSays orig w

theorem annotateExtrusion_keep (s : AnnSt α) (l : PyLine α) : (annotateExtrusion s l).1.dist = s.dist ∧ (annotateExtrusion s l).1.found = s.found := by
  unfold annotateExtrusion
  split_ifs <;> exact ⟨rfl, rfl⟩

theorem slic3rPerimeter_keep (s : AnnSt α) (l : PyLine α) (b : Bool) : (slic3rPerimeter s l b).1.dist = s.dist ∧ (slic3rPerimeter s l b).1.found = s.found := by
  unfold slic3rPerimeter
  cases b
  · exact ⟨rfl, rfl⟩
  · simp only [if_true]
    split_ifs <;> exact ⟨rfl, rfl⟩

theorem curaStop_keep (s : AnnSt α) (l : PyLine α) : (curaStop s l).1.dist = s.dist ∧ (curaStop s l).1.found = s.found := ⟨rfl, rfl⟩

theorem curaMarks_keep (s : AnnSt α) (l : PyLine α) (b : Bool) : (curaMarks s l b).1.dist = s.dist ∧ (curaMarks s l b).1.found = s.found := by
  have h1 : ∀ (s : AnnSt α) (l : PyLine α), (curaNext s l).1.dist = s.dist ∧ (curaNext s l).1.found = s.found := by
    intro s l
    unfold curaNext
    cases s.next with
    | none => exact ⟨rfl, rfl⟩
    | some p => exact ⟨rfl, rfl⟩
  have h2 : ∀ (s : AnnSt α) (l : PyLine α), (curaType s l).1.dist = s.dist ∧ (curaType s l).1.found = s.found := by
    intro s l
    unfold curaType
    split_ifs <;> exact ⟨rfl, rfl⟩
  have h0 := annotateExtrusion_keep s l
  have h3 := h1 (annotateExtrusion s l).1 (annotateExtrusion s l).2
  have h4 := h2 (curaNext (annotateExtrusion s l).1 (annotateExtrusion s l).2).1 (curaNext (annotateExtrusion s l).1 (annotateExtrusion s l).2).2
  unfold curaMarks
  simp only
  split_ifs
  · exact ⟨h4.1.trans (h3.1.trans h0.1), h4.2.trans (h3.2.trans h0.2)⟩
  · exact ⟨h4.1.trans (h3.1.trans h0.1), h4.2.trans (h3.2.trans h0.2)⟩

theorem slic3rLine_state {repo : StretchRepo α} {s s' : AnnSt α} {l l' : PyLine α} {rest : List (PyLine α)}
    (h : slic3rLine repo s l rest = .ok (s', l')) :
    match slic3rEdgeWidth l.raw with
    | none => s'.dist = s.dist ∧ s'.found = s.found
    | some t => ∃ w, parseFloat t = some w ∧ s'.dist = some (setEdgeWidth repo w) ∧ s'.found = true := by
  have hm := slic3rLine_marked h
  rw [← slic3rEdgeWidth_marked hm]
  unfold slic3rLine at h
  simp only at h
  generalize hq : (if hasSub c!"; perimeter external" (annotateExtrusion s l).2.raw = true then
      if (annotateExtrusion s l).1.type ≠ LoopType.external then slic3rPerimeter (annotateExtrusion s l).1 (annotateExtrusion s l).2 true
      else ((annotateExtrusion s l).1, (annotateExtrusion s l).2)
    else if hasSub c!"; perimeter" (annotateExtrusion s l).2.raw = true then
      if (annotateExtrusion s l).1.type ≠ LoopType.extra then slic3rPerimeter (annotateExtrusion s l).1 (annotateExtrusion s l).2 false
      else ((annotateExtrusion s l).1, (annotateExtrusion s l).2)
    else if hasSub c!"; move to first perimeter point" (annotateExtrusion s l).2.raw = true then
      match nextPerimeter rest with
      | some ext => slic3rPerimeter (annotateExtrusion s l).1 (annotateExtrusion s l).2 ext
      | none => ((annotateExtrusion s l).1, (annotateExtrusion s l).2)
    else if (!hasSub c!"unretract" (annotateExtrusion s l).2.raw) = true then
      ({ (annotateExtrusion s l).1 with type := LoopType.unknown },
        if (annotateExtrusion s l).1.type ≠ LoopType.unknown then addMark c!" ; " loopStopMarker (annotateExtrusion s l).2 else (annotateExtrusion s l).2)
    else ((annotateExtrusion s l).1, (annotateExtrusion s l).2)) = q at h
  have h0 := annotateExtrusion_keep s l
  have hk : q.1.dist = s.dist ∧ q.1.found = s.found := by
    have key : q.1.dist = (annotateExtrusion s l).1.dist ∧ q.1.found = (annotateExtrusion s l).1.found := by
      subst hq
      split_ifs
      all_goals first
        | exact slic3rPerimeter_keep _ _ _
        | exact ⟨rfl, rfl⟩
        | skip
      cases nextPerimeter rest with
      | none => exact ⟨rfl, rfl⟩
      | some ext => exact slic3rPerimeter_keep _ _ _
    exact ⟨key.1.trans h0.1, key.2.trans h0.2⟩
  cases hw : slic3rEdgeWidth q.2.raw with
  | none =>
    rw [hw] at h
    simp only [Except.ok.injEq, Prod.mk.injEq] at h
    rw [← h.2, hw, ← h.1]
    exact hk
  | some t =>
    rw [hw] at h
    simp only at h
    cases he : edgeFromText repo t with
    | error er => rw [he] at h; cases h
    | ok d =>
      rw [he] at h
      simp only [Except.ok.injEq, Prod.mk.injEq] at h
      rw [← h.2, hw, ← h.1]
      unfold edgeFromText at he
      cases hp : (parseFloat t : Option α) with
      | none => rw [hp] at he; cases he
      | some w =>
        rw [hp] at he
        simp only [Except.ok.injEq] at he
        exact ⟨w, hp, by rw [← he], rfl⟩

theorem skeinforgeLine_state {repo : StretchRepo α} {s s' : AnnSt α} {l l' : PyLine α}
    (h : skeinforgeLine repo s l = .ok (s', l')) :
    match skeinforgeEdgeWidth l.raw with
    | none => s'.dist = s.dist
    | some t => ∃ w, parseFloat t = some w ∧ s'.dist = some (setEdgeWidth repo w) := by
  unfold skeinforgeLine at h
  simp only at h
  cases hw : skeinforgeEdgeWidth l.raw with
  | none =>
    rw [hw] at h
    simp only [Except.ok.injEq, Prod.mk.injEq] at h
    simp only [← h.1]
  | some t =>
    rw [hw] at h
    simp only at h
    cases he : edgeFromText repo t with
    | error er => rw [he] at h; cases h
    | ok d =>
      rw [he] at h
      simp only [Except.ok.injEq, Prod.mk.injEq] at h
      unfold edgeFromText at he
      cases hp : (parseFloat t : Option α) with
      | none => rw [hp] at he; cases he
      | some w =>
        rw [hp] at he
        simp only [Except.ok.injEq] at he
        exact ⟨w, hp, by rw [← h.1, ← he]⟩

theorem curaLine_state {repo : StretchRepo α} {profile : ProfileOracle α} {s s' : AnnSt α} {l l' : PyLine α} {b : Bool}
    (h : curaLine repo profile s l b = .ok (s', l')) :
    (s'.dist = s.dist ∧ s'.found = s.found ∧ ∀ v, ¬ curaSays profile l' v) ∨
    (s'.found = false ∧ curaSays profile l' none) ∨
    (∃ w, s'.dist = some (setEdgeWidth repo w) ∧ s'.found = true ∧ curaSays profile l' (some w)) := by
  have hl := (curaLine_marked h).2
  rw [curaLine_eq] at h
  have hk := curaMarks_keep s l b
  cases hd : dropPrefix? c!";CURA_PROFILE_STRING:" (curaMarks s l b).2.raw with
  | none =>
    rw [hd] at h
    simp only [Except.ok.injEq] at h
    left
    rw [h] at hk
    refine ⟨hk.1, hk.2, ?_⟩
    rintro v ⟨t, ht, _⟩
    rw [hl, ← dropPrefix_iff, hd] at ht
    cases ht
  | some t =>
    rw [hd] at h
    have ht := (dropPrefix_iff _ _ _).1 hd
    simp only at h
    right
    cases hp : profile t with
    | error er => rw [hp] at h; cases h
    | ok o =>
      rw [hp] at h
      cases o with
      | none =>
        simp only [Except.ok.injEq, Prod.mk.injEq] at h
        left
        exact ⟨by rw [← h.1], t, by rw [hl, ht], hp⟩
      | some w =>
        simp only [Except.ok.injEq, Prod.mk.injEq] at h
        right
        exact ⟨w, by rw [← h.1], by rw [← h.1], t, by rw [hl, ht], hp⟩

theorem slic3rLine_width {repo : StretchRepo α} {profile : ProfileOracle α} {s s' : AnnSt α} {l l' : PyLine α} {rest orig ann : List (PyLine α)}
    (hi : WidthInv .slic3r repo profile orig ann s) (h : slic3rLine repo s l rest = .ok (s', l')) :
    WidthInv .slic3r repo profile (orig ++ [l]) (ann ++ [l']) s' := by
  have hs := slic3rLine_state h
  unfold WidthInv at hi ⊢
  simp only at hi ⊢
  cases hw : slic3rEdgeWidth l.raw with
  | none =>
    rw [hw] at hs
    simp only at hs
    have hn : ∀ v : α, ¬ slic3rSays l v := by
      rintro v ⟨n, hn, _⟩
      rw [← slic3rEdgeWidth_iff, hw] at hn
      cases hn
    rw [hs.1, hs.2]
    rcases hi with ⟨h1, h2⟩ | ⟨h1, w, h2, h3⟩
    · exact .inl ⟨h1, noneSays_more h2 hn⟩
    · exact .inr ⟨h1, w, h2, lastSays_more h3 hn⟩
  | some t =>
    rw [hw] at hs
    simp only at hs
    obtain ⟨w, h1, h2, h3⟩ := hs
    exact .inr ⟨h3, w, h2, lastSays_here _ ⟨t, (slic3rEdgeWidth_iff _ _).1 hw, h1⟩⟩

theorem skeinforgeLine_width {repo : StretchRepo α} {profile : ProfileOracle α} {s s' : AnnSt α} {l l' : PyLine α} {orig ann : List (PyLine α)}
    (hi : WidthInv .skeinforge repo profile orig ann s) (h : skeinforgeLine repo s l = .ok (s', l')) :
    WidthInv .skeinforge repo profile (orig ++ [l]) (ann ++ [l']) s' := by
  have hs := skeinforgeLine_state h
  unfold WidthInv at hi ⊢
  simp only at hi ⊢
  cases hw : skeinforgeEdgeWidth l.raw with
  | none =>
    rw [hw] at hs
    simp only at hs
    have hn : ∀ v : α, ¬ skeinforgeSays l v := by
      rintro v ⟨n, hn, _⟩
      rw [← skeinforgeEdgeWidth_iff, hw] at hn
      cases hn
    rw [hs]
    rcases hi with ⟨h1, h2⟩ | ⟨w, h2, h3⟩
    · exact .inl ⟨h1, noneSays_more h2 hn⟩
    · exact .inr ⟨w, h2, lastSays_more h3 hn⟩
  | some t =>
    rw [hw] at hs
    simp only at hs
    obtain ⟨w, h1, h2⟩ := hs
    exact .inr ⟨w, h2, lastSays_here _ ⟨t, (skeinforgeEdgeWidth_iff _ _).1 hw, h1⟩⟩

theorem curaLine_width {repo : StretchRepo α} {profile : ProfileOracle α} {s s' : AnnSt α} {l l' : PyLine α} {b : Bool} {orig ann : List (PyLine α)}
    (hi : WidthInv .cura repo profile orig ann s) (h : curaLine repo profile s l b = .ok (s', l')) :
    WidthInv .cura repo profile (orig ++ [l]) (ann ++ [l']) s' := by
  unfold WidthInv at hi ⊢
  simp only at hi ⊢
  rcases curaLine_state h with ⟨h1, h2, hn⟩ | ⟨h1, h2⟩ | ⟨w, h1, h2, h3⟩
  · rw [h1, h2]
    rcases hi with ⟨h1, h2 | h2⟩ | ⟨h1, w, h2, h3⟩
    · exact .inl ⟨h1, .inl (lastSays_more h2 hn)⟩
    · exact .inl ⟨h1, .inr (noneSays_more h2 hn)⟩
    · exact .inr ⟨h1, w, h2, lastSays_more h3 hn⟩
  · exact .inl ⟨h1, .inl (lastSays_here _ h2)⟩
  · exact .inr ⟨h2, w, h1, lastSays_here _ h3⟩

theorem annotateLayer_width {slicer : Slicer} {repo : StretchRepo α} {profile : ProfileOracle α} {ls : List (PyLine α)} :
    ∀ {s s' : AnnSt α} {ls' orig ann : List (PyLine α)}, WidthInv slicer repo profile orig ann s →
    annotateLayer slicer repo profile s ls = .ok (s', ls') → WidthInv slicer repo profile (orig ++ ls) (ann ++ ls') s' := by
  intro s s' ls' orig ann hi h
  cases slicer with
  | slic3r =>
    unfold annotateLayer at h
    simp only at h
    have hi' : WidthInv .slic3r repo profile orig ann { s with nextOuter := true, type := .unknown } := hi
    clear hi
    generalize ({ s with nextOuter := true, type := .unknown } : AnnSt α) = s0 at h hi'
    induction ls generalizing s0 ls' orig ann with
    | nil => simp only [slic3rLines, Except.ok.injEq, Prod.mk.injEq] at h; rw [← h.1, ← h.2]; simpa using hi'
    | cons l ls ih =>
      rw [slic3rLines] at h
      cases h1 : slic3rLine repo s0 l ls with
      | error er => rw [h1] at h; cases h
      | ok p =>
        rw [h1] at h
        simp only at h
        cases h2 : slic3rLines repo p.1 ls with
        | error er => rw [h2] at h; cases h
        | ok q =>
          rw [h2] at h
          simp only [Except.ok.injEq, Prod.mk.injEq] at h
          have := ih p.1 (by rw [h2, ← h.1]) (slic3rLine_width hi' h1)
          rw [← h.2]
          simpa using this
  | cura =>
    unfold annotateLayer at h
    simp only at h
    have hi' : WidthInv .cura repo profile orig ann { s with type := .unknown, next := none } := hi
    clear hi
    generalize ({ s with type := .unknown, next := none } : AnnSt α) = s0 at h hi'
    induction ls generalizing s0 ls' orig ann with
    | nil => simp only [curaLines, Except.ok.injEq, Prod.mk.injEq] at h; rw [← h.1, ← h.2]; simpa using hi'
    | cons l ls ih =>
      rw [curaLines] at h
      cases h1 : curaLine repo profile s0 l ls.isEmpty with
      | error er => rw [h1] at h; cases h
      | ok p =>
        rw [h1] at h
        simp only at h
        cases h2 : curaLines repo profile p.1 ls with
        | error er => rw [h2] at h; cases h
        | ok q =>
          rw [h2] at h
          simp only [Except.ok.injEq, Prod.mk.injEq] at h
          have := ih p.1 (by rw [h2, ← h.1]) (curaLine_width hi' h1)
          rw [← h.2]
          simpa using this
  | skeinforge =>
    unfold annotateLayer at h
    simp only at h
    induction ls generalizing s ls' orig ann with
    | nil => simp only [skeinforgeLines, Except.ok.injEq, Prod.mk.injEq] at h; rw [← h.1, ← h.2]; simpa using hi
    | cons l ls ih =>
      rw [skeinforgeLines] at h
      cases h1 : skeinforgeLine repo s l with
      | error er => rw [h1] at h; cases h
      | ok p =>
        rw [h1] at h
        simp only at h
        cases h2 : skeinforgeLines repo p.1 ls with
        | error er => rw [h2] at h; cases h
        | ok q =>
          rw [h2] at h
          simp only [Except.ok.injEq, Prod.mk.injEq] at h
          have := ih (skeinforgeLine_width hi h1) (by rw [h2, ← h.1])
          rw [← h.2]
          simpa using this

theorem annotateLayers_width {slicer : Slicer} {repo : StretchRepo α} {profile : ProfileOracle α} {Ls : List (Layer α)} :
    ∀ {s s' : AnnSt α} {Ls' : List (Layer α)} {orig ann : List (PyLine α)}, WidthInv slicer repo profile orig ann s →
    annotateLayers slicer repo profile s Ls = .ok (s', Ls') →
    WidthInv slicer repo profile (orig ++ Ls.flatMap (·.lines)) (ann ++ Ls'.flatMap (·.lines)) s' := by
  induction Ls with
  | nil =>
    intro s s' Ls' orig ann hi h
    simp only [annotateLayers, Except.ok.injEq, Prod.mk.injEq] at h
    rw [← h.1, ← h.2]
    simpa using hi
  | cons L Ls ih =>
    intro s s' Ls' orig ann hi h
    rw [annotateLayers] at h
    cases h1 : annotateLayer slicer repo profile s L.lines with
    | error er => rw [h1] at h; cases h
    | ok p =>
      rw [h1] at h
      simp only at h
      cases h2 : annotateLayers slicer repo profile p.1 Ls with
      | error er => rw [h2] at h; cases h
      | ok q =>
        rw [h2] at h
        simp only [Except.ok.injEq, Prod.mk.injEq] at h
        have := ih (annotateLayer_width hi h1) h2
        rw [← h.1, ← h.2]
        simpa using this

/-- The distances are those of the edge width found. -/
theorem setupFilter_width {slicer : Slicer} {repo : StretchRepo α} {profile : ProfileOracle α} {d : Option (StretchDist α)} {Ls Ls' : List (Layer α)}
    (h : setupFilter slicer repo profile Ls = .ok (d, Ls')) :
    (∃ w, d = some (setEdgeWidth repo w) ∧ EdgeWidth slicer profile (Ls.flatMap (·.lines)) (Ls'.flatMap (·.lines)) w) ∨
    (slicer = .skeinforge ∧ d = none ∧ NoneSays (skeinforgeSays (α := α)) (Ls.flatMap (·.lines))) := by
  unfold setupFilter at h
  cases h1 : annotateLayers slicer repo profile {} Ls with
  | error er => rw [h1] at h; cases h
  | ok p =>
    obtain ⟨s, Ls1⟩ := p
    rw [h1] at h
    simp only [Except.ok.injEq, Prod.mk.injEq] at h
    have hw : WidthInv slicer repo profile ([] ++ Ls.flatMap (·.lines)) ([] ++ Ls1.flatMap (·.lines)) s := by
      refine annotateLayers_width ?_ h1
      cases slicer with
      | slic3r => exact .inl ⟨rfl, by intro x hx; cases hx⟩
      | cura => exact .inl ⟨rfl, .inr (by intro x hx; cases hx)⟩
      | skeinforge => exact .inl ⟨rfl, by intro x hx; cases hx⟩
    simp only [List.nil_append] at hw
    rw [← h.2, ← h.1]
    cases slicer with
    | slic3r =>
      left
      rcases hw with ⟨k1, k2⟩ | ⟨k1, w, k2, k3⟩
      · exact ⟨4 / 10, by simp [k1], .inr ⟨k2, rfl⟩⟩
      · exact ⟨w, by simp [k1, k2], .inl k3⟩
    | cura =>
      left
      rcases hw with ⟨k1, k2⟩ | ⟨k1, w, k2, k3⟩
      · exact ⟨4 / 10, by simp [k1], .inr ⟨k2, rfl⟩⟩
      · exact ⟨w, by simp [k1, k2], .inl k3⟩
    | skeinforge =>
      rcases hw with ⟨k1, k2⟩ | ⟨w, k2, k3⟩
      · exact .inr ⟨rfl, k1, k2⟩
      · exact .inl ⟨w, k2, k3⟩

/-! ### the whole filter -/

theorem limits_width (repo : StretchRepo α) (w : α) : Limits (reach repo w) (some (setEdgeWidth repo w)) := by
  intro D hD
  cases hD
  exact ⟨rfl, rfl, rfl⟩

theorem stretch_parts {sqrt : α → α} {fuel : ℕ} {slicer : Slicer} {repo : StretchRepo α} {profile : ProfileOracle α} {g g' : GCode α}
    (h : g.stretch sqrt fuel slicer repo profile = .ok g') : ∃ d Ls st Ls', setupFilter slicer repo profile g.allLayers = .ok (d, Ls) ∧
      stretchLayers sqrt fuel slicer.forward slicer.backward { StretchSt.init with dist := d } Ls = .ok (st, Ls') ∧ g' = { g with allLayers := Ls' } := by
  unfold GCode.stretch at h
  cases h1 : setupFilter slicer repo profile g.allLayers with
  | error er => rw [h1] at h; cases h
  | ok p =>
    rw [h1] at h
    simp only at h
    cases h2 : stretchLayers sqrt fuel slicer.forward slicer.backward { StretchSt.init with dist := p.1 } p.2 with
    | error er => rw [h2] at h; cases h
    | ok q =>
      rw [h2] at h
      simp only [Except.ok.injEq] at h
      exact ⟨p.1, p.2, q.1, q.2, rfl, h2, h.symm⟩

/-- Without an edge width no line belongs to a loop. -/
theorem stretchLayers_noWidth {sqrt : α → α} {fuel : ℕ} {kf kb : ItKind} : ∀ {Ls : List (Layer α)}
    {st st' : StretchSt α} {out : List (Layer α)}, st.dist = none → stretchLayers sqrt fuel kf kb st Ls = .ok (st', out) →
    ∀ l ∈ Ls.flatMap (·.lines), ¬ c!"stretch-loop-start" <:+: l.raw := by
  have hline : ∀ {cur : List (PyLine α)} {n : ℕ} {st st' : StretchSt α} {l r : PyLine α} {b : Bool}, st.dist = none →
      stretchParseLine sqrt fuel kf kb cur n st l = .ok (st', r, b) → st'.dist = none ∧ ¬ c!"stretch-loop-start" <:+: l.raw := by
    intro cur n st st' l r b hd h
    unfold stretchParseLine at h
    cases hsw : loopSwitch st l with
    | error er => rw [hsw] at h; cases h
    | ok s1 =>
      rw [hsw] at h
      simp only at h
      have key : s1.dist = none ∧ ¬ c!"stretch-loop-start" <:+: l.raw := by
        unfold loopSwitch at hsw
        simp only [hd] at hsw
        by_cases h1 : marked innerEdgeMarker l = true
        · rw [if_pos h1] at hsw; cases hsw
        · rw [if_neg h1] at hsw
          by_cases h2 : marked outerEdgeMarker l = true
          · rw [if_pos h2] at hsw; cases hsw
          · rw [if_neg h2] at hsw
            by_cases h3 : marked loopStartMarker l = true
            · rw [if_pos h3] at hsw; cases hsw
            · rw [if_neg h3] at hsw
              refine ⟨?_, fun hc => h3 ((marked_iff _ _).2 hc)⟩
              split_ifs at hsw <;> (simp only [Except.ok.injEq] at hsw; rw [← hsw]; try exact hd)
      refine ⟨?_, key.2⟩
      split_ifs at h
      · unfold stretchLine at h
        simp only [key.1] at h
        split_ifs at h
        · simp only [Except.ok.injEq, Prod.mk.injEq] at h; rw [← h.1]
      · simp only [Except.ok.injEq, Prod.mk.injEq] at h; rw [← h.1]; exact key.1
  have hlayer : ∀ {ls cur : List (PyLine α)} {n : ℕ} {st st' : StretchSt α} {out : List (PyLine α)}, st.dist = none →
      stretchLayer sqrt fuel kf kb st cur n ls = .ok (st', out) → st'.dist = none ∧ ∀ l ∈ ls, ¬ c!"stretch-loop-start" <:+: l.raw := by
    intro ls
    induction ls with
    | nil =>
      intro cur n st st' out hd h
      simp only [stretchLayer, Except.ok.injEq, Prod.mk.injEq] at h
      rw [← h.1]
      exact ⟨hd, by simp⟩
    | cons l ls ih =>
      intro cur n st st' out hd h
      rw [stretchLayer] at h
      cases h1 : stretchParseLine sqrt fuel kf kb cur n st l with
      | error er => rw [h1] at h; cases h
      | ok p =>
        obtain ⟨s1, r, same⟩ := p
        rw [h1] at h
        simp only at h
        cases h2 : reparse r with
        | error er => rw [h2] at h; cases h
        | ok l' =>
          rw [h2] at h
          simp only at h
          obtain ⟨k1, k2⟩ := hline hd h1
          cases h3 : stretchLayer sqrt fuel kf kb s1 (if same = true then cur.set n l' else cur) (n + 1) ls with
          | error er => rw [h3] at h; cases h
          | ok q =>
            rw [h3] at h
            simp only [Except.ok.injEq, Prod.mk.injEq] at h
            obtain ⟨k3, k4⟩ := ih k1 h3
            rw [← h.1]
            refine ⟨k3, ?_⟩
            intro x hx
            rcases List.mem_cons.1 hx with rfl | hx
            · exact k2
            · exact k4 x hx
  intro Ls
  induction Ls with
  | nil => intro st st' out hd h l hl; cases hl
  | cons L Ls ih =>
    intro st st' out hd h
    rw [stretchLayers] at h
    cases h1 : stretchLayer sqrt fuel kf kb st L.lines 0 L.lines with
    | error er => rw [h1] at h; cases h
    | ok p =>
      rw [h1] at h
      simp only at h
      obtain ⟨k1, k2⟩ := hlayer hd h1
      cases h3 : stretchLayers sqrt fuel kf kb p.1 Ls with
      | error er => rw [h3] at h; cases h
      | ok q =>
        have := ih k1 h3
        intro x hx
        rw [List.flatMap_cons] at hx
        rcases List.mem_append.1 hx with hx | hx
        · exact k2 x hx
        · exact this x hx

theorem loopAt_none {ls : List (PyLine α)} (h : ∀ l ∈ ls, ¬ c!"stretch-loop-start" <:+: l.raw) : loopAt ls = none := by
  induction ls using List.reverseRecOn with
  | nil => rfl
  | append_singleton ls l ih =>
    rw [loopAt_snoc, ih (fun x hx => h x (by simp [hx]))]
    have hl := h l (by simp)
    unfold loopStep
    have e1 : c!"stretch-loop-start" <:+: c!"stretch-loop-start stretch-inner-edge-start" := ⟨[], c!" stretch-inner-edge-start", by decide⟩
    have e2 : c!"stretch-loop-start" <:+: c!"stretch-loop-start stretch-outer-edge-start" := ⟨[], c!" stretch-outer-edge-start", by decide⟩
    rw [if_neg (fun hc => hl (e1.trans hc)), if_neg (fun hc => hl (e2.trans hc)), if_neg hl]
    split_ifs <;> rfl

/-- The filter: layers and lines keep their places; the lines are marked up and then stretched, with the limits that follow from
the edge width.  Without an edge width (Skeinforge programs only) nothing is in a loop. -/
theorem stretch_spec {ε : α} {sqrt : α → α} (hs : IsSqrt ε sqrt) {fuel : ℕ} {slicer : Slicer} {repo : StretchRepo α} {profile : ProfileOracle α} {g g' : GCode α}
    (h : g.stretch sqrt fuel slicer repo profile = .ok g') :
    ∃ (Ls : List (Layer α)) (w : α), (∃ d, setupFilter slicer repo profile g.allLayers = .ok (d, Ls)) ∧
      (EdgeWidth slicer profile (g.allLayers.flatMap (·.lines)) (Ls.flatMap (·.lines)) w ∨
        (slicer = .skeinforge ∧ NoneSays (skeinforgeSays (α := α)) (g.allLayers.flatMap (·.lines)) ∧
          ∀ l ∈ Ls.flatMap (·.lines), ¬ c!"stretch-loop-start" <:+: l.raw)) ∧
      Stretches ε (reach repo w) [] (Ls.flatMap (·.lines)) (g'.allLayers.flatMap (·.lines)) ∧
      List.Forall₂ (fun L L' => L' = { L with lines := L'.lines } ∧ L'.lines.length = L.lines.length) Ls g'.allLayers ∧
      g' = { g with allLayers := g'.allLayers } := by
  obtain ⟨d, Ls, st, Ls', h1, h2, rfl⟩ := stretch_parts h
  rcases setupFilter_width h1 with ⟨w, rfl, hw⟩ | ⟨rfl, rfl, hn⟩
  · have := stretchLayers_spec hs (limits_width repo w) (stInv_init (reach repo w) _) h2
    exact ⟨Ls, w, ⟨_, h1⟩, .inl hw, this.1, this.2, rfl⟩
  · have hl := stretchLayers_noWidth rfl h2
    have := stretchLayers_spec hs (most := reach repo 0) (fun D (hD : (none : Option (StretchDist α)) = some D) => by cases hD) (stInv_init (reach repo 0) _) h2
    exact ⟨Ls, 0, ⟨_, h1⟩, .inr ⟨rfl, hn, hl⟩, this.1, this.2, rfl⟩

/-- Line by line. -/
theorem stretches_get {ε : α} {most : LoopKind → α} {hist a b : List (PyLine α)} (h : Stretches ε most hist a b) :
    ∀ (k : ℕ) (l l' : PyLine α), a[k]? = some l → b[k]? = some l' → LineStretch ε most (hist ++ a.take (k + 1)) l l' := by
  induction h with
  | done => intro k l l' h1; simp at h1
  | @step hist x x' a b hx _ ih =>
    intro k l l' h1 h2
    cases k with
    | zero =>
      simp only [List.getElem?_cons_zero, Option.some.injEq] at h1 h2
      subst h1 h2
      simpa using hx
    | succ k =>
      simp only [List.getElem?_cons_succ] at h1 h2
      have := ih k l l' h1 h2
      simpa [List.append_assoc] using this

end GCodeUtils
