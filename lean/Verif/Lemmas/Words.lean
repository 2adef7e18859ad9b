import Verif.Lemmas.Framing
import Verif.Spec.Words

/-
  The words of a spaced line.
-/

set_option linter.unusedSectionVars false

namespace GCodeUtils

open Spec

/-- The tokens of one word. -/
def wordToks (w : Str) : List (Char × Str) :=
  match w with
  | [] => []
  | c :: n => if c.toLower ∈ wordLetters then [(c.toLower, n.take (numLen n))] else []

/-- The values of one word under a letter. -/
def wordVals (code : Char) (w : Str) : List Str :=
  match w with
  | [] => []
  | c :: n => if c = code then [n.take (numLen n)] else []

theorem numeric_inert {c : Char} (h : c ∈ c!"0123456789.+-") :
    Inert c ∧ c ≠ 'P' ∧ c.toLower = c ∧ c ∉ c!"();/*\n" := by
  simp only [List.mem_cons, List.not_mem_nil, or_false] at h
  rcases h with rfl | rfl | rfl | rfl | rfl | rfl | rfl | rfl | rfl | rfl | rfl | rfl | rfl <;>
    exact ⟨⟨by decide, by decide⟩, by decide, by decide, by decide⟩

theorem lower_numeral {d : Str} (h : ∀ c ∈ d, c ∈ c!"0123456789.+-") : lower d = d := by
  unfold lower
  conv_rhs => rw [← List.map_id d]
  exact List.map_congr_left fun c hc => (numeric_inert (h c hc)).2.2.1

theorem latin_special : ∀ c ∈ latin, c ∉ c!"();/*\n" ∧ c.toLower ∉ c!"();/*\n" ∧ c ∉ c!"0123456789.+-" := by decide

theorem Spec.WordText.plain {w : Str} (h : WordText w) : Plain w ∧ w ≠ [] ∧ NotNumeric w := by
  obtain ⟨c, n, rfl, hc, hn⟩ := h
  refine ⟨?_, by simp, ?_⟩
  · intro d hd
    rcases List.mem_cons.1 hd with rfl | hd
    · exact (latin_special _ hc).1
    · exact (numeric_inert (hn d hd)).2.2.2
  · intro d hd
    simp only [List.head?_cons, Option.some.injEq] at hd
    subst hd
    exact (latin_special _ hc).2.2

theorem Spec.WordText.toks {w : Str} (h : WordText w) (st : Bool) :
    findallAux st 0 (lower w) = (wordToks w).map some := by
  obtain ⟨c, n, rfl, hc, hn⟩ := h
  rw [show lower (c :: n) = c.toLower :: lower n from rfl, lower_numeral hn]
  have hin : ∀ st k, findallAux st k n = [] := findallAux_inert n (fun x hx => (numeric_inert (hn x hx)).1)
  simp only [findallAux, wordToks]
  rw [matchTok_plain st _ n (latin_special _ hc).2.1]
  by_cases hw : c.toLower ∈ wordLetters
  · simp only [if_pos hw, hin]; rfl
  · simp only [if_neg hw, hin]; rfl

theorem Spec.WordText.vals {w : Str} (h : WordText w) : findSpecificAux 'P' 0 w = wordVals 'P' w := by
  obtain ⟨c, n, rfl, hc, hn⟩ := h
  have hin : ∀ k, findSpecificAux 'P' k n = [] :=
    findSpecificAux_inert 'P' n (fun x hx => ⟨(numeric_inert (hn x hx)).2.1, (numeric_inert (hn x hx)).2.2.2⟩)
  simp only [findSpecificAux, wordVals]
  rw [matchSpecific_plain 'P' c n (latin_special _ hc).1]
  by_cases hw : c = 'P'
  · simp only [if_pos hw, hin]
  · simp only [if_neg hw, hin]

theorem gaps_notNumeric (gs : List (Str × Str)) (hg : ∀ g ∈ gs, ∀ b ∈ g.1, b ∈ blanks)
    (hw : ∀ g ∈ gs, WordText g.2) : NotNumeric (gs.flatMap (fun g => g.1 ++ g.2)) := by
  cases gs with
  | nil => intro c h; simp at h
  | cons g gs =>
    rw [List.flatMap_cons, List.append_assoc]
    refine notNumeric_blank _ _ (hg g (by simp)) ?_
    have := (hw g (by simp)).plain
    intro c hc
    rw [List.head?_append_of_ne_nil _ this.2.1] at hc
    exact this.2.2 c hc

theorem gaps_toks (gs : List (Str × Str)) (hg : ∀ g ∈ gs, ∀ b ∈ g.1, b ∈ blanks) (hw : ∀ g ∈ gs, WordText g.2) :
    findallAux false 0 (lower (gs.flatMap (fun g => g.1 ++ g.2))) =
      ((gs.map Prod.snd).flatMap wordToks).map some := by
  induction gs with
  | nil => rfl
  | cons g gs ih =>
    have ih' := ih (fun x hx => hg x (by simp [hx])) (fun x hx => hw x (by simp [hx]))
    have hnn := gaps_notNumeric gs (fun x hx => hg x (by simp [hx])) (fun x hx => hw x (by simp [hx]))
    have hb := hg g (by simp)
    have hww := hw g (by simp)
    have hpl := hww.plain
    rw [List.flatMap_cons, List.append_assoc, lower_append, lower_blank _ hb, findallAux_blank _ _ hb, lower_append,
      findallAux_closed (Plain.closed (Plain.lower hpl.1)) _ (NotNumeric.lower hnn) false 0 (Nat.zero_le _)
        (lower_ne_nil hpl.2.1), ih', hww.toks]
    simp

theorem gaps_vals (gs : List (Str × Str)) (hg : ∀ g ∈ gs, ∀ b ∈ g.1, b ∈ blanks) (hw : ∀ g ∈ gs, WordText g.2) :
    findSpecificAux 'P' 0 (gs.flatMap (fun g => g.1 ++ g.2)) = (gs.map Prod.snd).flatMap (wordVals 'P') := by
  induction gs with
  | nil => rfl
  | cons g gs ih =>
    have ih' := ih (fun x hx => hg x (by simp [hx])) (fun x hx => hw x (by simp [hx]))
    have hnn := gaps_notNumeric gs (fun x hx => hg x (by simp [hx])) (fun x hx => hw x (by simp [hx]))
    have hb := hg g (by simp)
    have hww := hw g (by simp)
    have hpl := hww.plain
    rw [List.flatMap_cons, List.append_assoc, findSpecific_blank _ _ hb,
      findSpecificAux_closed 'P' (Plain.closed hpl.1) _ hnn 0 (Nat.zero_le _), ih', hww.vals]
    simp

theorem wordToks_filter (k : Char) (ws : List Str) :
    (ws.flatMap wordToks).filter (fun w => w.1 = k) = (ws.filter (hasLetter k)).flatMap wordToks := by
  induction ws with
  | nil => rfl
  | cons w ws ih =>
    rw [List.flatMap_cons, List.filter_append, ih, List.filter_cons]
    have key : (wordToks w).filter (fun w => w.1 = k) = if hasLetter k w = true then wordToks w else [] := by
      cases w with
      | nil => simp [wordToks, hasLetter]
      | cons c n =>
        simp only [wordToks, hasLetter, List.head?_cons, Option.map_some, Option.some.injEq, decide_eq_true_eq]
        by_cases h1 : c.toLower ∈ wordLetters
        · by_cases h2 : c.toLower = k
          · simp [h2]
          · simp [h1, h2]
        · simp [if_neg h1]
    rw [key]
    by_cases h : hasLetter k w = true
    · rw [if_pos h, if_pos h, List.flatMap_cons]
    · rw [if_neg h, if_neg h, List.nil_append]

theorem wordVals_filter (ws : List Str) :
    ws.flatMap (wordVals 'P') = (ws.filter (hasLetter 'p')).flatMap (wordVals 'P') := by
  induction ws with
  | nil => rfl
  | cons w ws ih =>
    rw [List.flatMap_cons, List.filter_cons, ih]
    by_cases h : hasLetter 'p' w = true
    · rw [if_pos h, List.flatMap_cons]
    · rw [if_neg h]
      have : wordVals 'P' w = [] := by
        cases w with
        | nil => rfl
        | cons c n =>
          simp only [wordVals]
          rw [if_neg]
          rintro rfl
          exact h (by simp [hasLetter])
      rw [this, List.nil_append]

/-- Spacing, and order between different letters, do not change the meaning. -/
theorem sameMeaning_words {w : Str} (hs : StartsWord w) (hw : WordText w) {ws ws' : List Str}
    (h1 : ∀ x ∈ ws, WordText x) (h2 : ∀ x ∈ ws', WordText x) (hsame : SameWords ws ws') {t t' : Str}
    (ht : SpacedAs w ws t) (ht' : SpacedAs w ws' t') : SameMeaning t t' := by
  obtain ⟨gs, hg, rfl, rfl⟩ := ht
  obtain ⟨gs', hg', rfl, rfl⟩ := ht'
  have hwg : ∀ g ∈ gs, WordText g.2 := fun g hgs => h1 _ (List.mem_map_of_mem hgs)
  have hwg' : ∀ g ∈ gs', WordText g.2 := fun g hgs => h2 _ (List.mem_map_of_mem hgs)
  have hpl := hw.plain
  obtain ⟨w0, rest, hw0, -, hn⟩ := hs.tokens
  have hrest : rest = [] := by
    have h := hw.toks true
    rw [show findallAux true 0 (lower w) = findall (lower w) from rfl, hw0] at h
    cases w with
    | nil => exact absurd rfl hpl.2.1
    | cons c n =>
      simp only [wordToks] at h
      split_ifs at h <;> simp_all
  subst hrest
  have hdrop : ∀ X, dropN (some w0 :: X) = some w0 :: X := by
    intro X
    obtain ⟨a, v⟩ := w0
    simp only [dropN]
    rw [if_neg hn]
  have tok : ∀ gs : List (Str × Str), (∀ g ∈ gs, ∀ b ∈ g.1, b ∈ blanks) → (∀ g ∈ gs, WordText g.2) →
      dropN (findall (lower (written w gs))) = some w0 :: ((gs.map Prod.snd).flatMap wordToks).map some := by
    intro gs hg hwg
    unfold written
    rw [lower_append, findall_closed_append (Plain.closed (Plain.lower hpl.1)) (lower_ne_nil hpl.2.1)
      (NotNumeric.lower (gaps_notNumeric gs hg hwg)), hw0, gaps_toks gs hg hwg]
    exact hdrop _
  have val : ∀ gs : List (Str × Str), (∀ g ∈ gs, ∀ b ∈ g.1, b ∈ blanks) → (∀ g ∈ gs, WordText g.2) →
      findSpecificAux 'P' 0 (written w gs) = wordVals 'P' w ++ (gs.map Prod.snd).flatMap (wordVals 'P') := by
    intro gs hg hwg
    unfold written
    rw [findSpecificAux_closed 'P' (Plain.closed hpl.1) _ (gaps_notNumeric gs hg hwg) 0 (Nat.zero_le _),
      gaps_vals gs hg hwg, hw.vals]
  refine ⟨⟨w0, _, _, tok gs hg hwg, tok gs' hg' hwg', ?_⟩, ?_⟩
  · have hid : ∀ l : List (Char × Str), (l.map some).filterMap id = l := by
      intro l; simp
    rw [hid, hid]
    intro k
    rw [wordToks_filter, wordToks_filter, hsame k]
  · rw [val gs hg hwg, val gs' hg' hwg', wordVals_filter, wordVals_filter (gs'.map Prod.snd), hsame 'p']

/-- Rearranging words with different letters keeps the words under every letter. -/
theorem sameWords_perm {ws ws' : List Str} (hp : ws.Perm ws')
    (hd : (ws.map (fun w => w.head?.map Char.toLower)).Nodup) : SameWords ws ws' := by
  intro k
  induction hp with
  | nil => rfl
  | cons x h ih =>
    rw [List.filter_cons, List.filter_cons, ih (by simp only [List.map_cons, List.nodup_cons] at hd; exact hd.2)]
  | swap x y l =>
    simp only [List.map_cons, List.nodup_cons, List.mem_cons, not_or] at hd
    have hxy := hd.1.1
    rw [List.filter_cons, List.filter_cons, List.filter_cons, List.filter_cons]
    by_cases hx : hasLetter k x = true
    · have hy : ¬ hasLetter k y = true := by
        intro hy
        simp only [hasLetter, decide_eq_true_eq] at hx hy
        exact hxy (hy.trans hx.symm)
      rw [if_pos hx, if_neg hy, if_neg hy, if_pos hx]
    · rw [if_neg hx, if_neg hx]
  | trans h1 h2 ih1 ih2 =>
    rw [ih1 hd, ih2 ((h1.map _).nodup_iff.1 hd)]

end GCodeUtils
