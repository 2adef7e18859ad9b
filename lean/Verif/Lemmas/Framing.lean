import Verif.Lemmas.Meaning
import Verif.Spec.Framing

/-
  Line numbers and checksums leave no trace among the words of a line.
-/

set_option linter.unusedSectionVars false

namespace GCodeUtils

open Spec

theorem SameMeaning.trans {a b c : Str} (h1 : SameMeaning a b) (h2 : SameMeaning b c) : SameMeaning a c := by
  obtain ⟨⟨w, r, r', ha, hb, he⟩, hd⟩ := h1
  obtain ⟨⟨w2, s, s', hb2, hc, he2⟩, hd2⟩ := h2
  rw [hb] at hb2
  simp only [List.cons.injEq, Option.some.injEq] at hb2
  obtain ⟨rfl, rfl⟩ := hb2
  exact ⟨⟨w, r, s', ha, hc, he.trans he2⟩, hd.trans hd2⟩

/-- Characters that start no token. -/
def Inert (c : Char) : Prop := c ∉ wordLetters ∧ c ∉ c!"();/*\n"

theorem findallAux_inert (s : Str) (h : ∀ c ∈ s, Inert c) (st : Bool) (k : ℕ) : findallAux st k s = [] := by
  induction s generalizing st k with
  | nil => rfl
  | cons c s ih =>
    have ih' := ih (fun d hd => h d (by simp [hd]))
    have hc := h c (by simp)
    cases k with
    | succ k => simp only [findallAux]; exact ih' false k
    | zero =>
      simp only [findallAux]
      rw [matchTok_plain st c s hc.2, if_neg hc.1]
      exact ih' false 0

theorem findSpecificAux_inert (code : Char) (s : Str) (h : ∀ c ∈ s, c ≠ code ∧ c ∉ c!"();/*\n") (k : ℕ) :
    findSpecificAux code k s = [] := by
  induction s generalizing k with
  | nil => rfl
  | cons c s ih =>
    have ih' := ih (fun d hd => h d (by simp [hd]))
    have hc := h c (by simp)
    cases k with
    | succ k => simp only [findSpecificAux]; exact ih' k
    | zero =>
      simp only [findSpecificAux]
      rw [matchSpecific_plain code c s hc.2, if_neg hc.1]
      exact ih' 0

theorem digit_inert {c : Char} (h : c ∈ c!"0123456789") : Inert c ∧ c ≠ 'P' ∧ c.toLower = c ∧ c ∉ c!"();/*\n" := by
  simp only [List.mem_cons, List.not_mem_nil, or_false] at h
  rcases h with rfl | rfl | rfl | rfl | rfl | rfl | rfl | rfl | rfl | rfl <;>
    exact ⟨⟨by decide, by decide⟩, by decide, by decide, by decide⟩

theorem lower_digits {d : Str} (h : Digits d) : lower d = d := by
  unfold lower
  conv_rhs => rw [← List.map_id d]
  exact List.map_congr_left fun c hc => (digit_inert (h c hc)).2.2.1

theorem Spec.StartsWord.hasCommand {s : Str} (h : StartsWord s) : HasCommand s := by
  obtain ⟨c, t, rfl, hc⟩ := h
  exact ⟨c, by simp, hc⟩

theorem Spec.StartsWord.ne_nil {s : Str} (h : StartsWord s) : s ≠ [] := HasCommand.ne_nil h.hasCommand

theorem Spec.StartsWord.head {s : Str} (h : StartsWord s) :
    NotNumeric s ∧ ∃ (d : Char) (t : Str), lower s = d :: t ∧ d ∈ wordLetters ∧ d ≠ 'n' ∧ d ∉ c!"();/*\n" := by
  obtain ⟨c, t, rfl, hc⟩ := h
  refine ⟨?_, c.toLower, lower t, rfl, ?_⟩
  · intro d hd
    simp only [List.head?_cons, Option.some.injEq] at hd
    subst hd
    simp only [List.mem_cons, List.not_mem_nil, or_false] at hc
    rcases hc with rfl | rfl | rfl | rfl | rfl | rfl | rfl | rfl | rfl | rfl | rfl | rfl | rfl | rfl | rfl | rfl |
      rfl | rfl | rfl | rfl <;> decide
  · simp only [List.mem_cons, List.not_mem_nil, or_false] at hc
    rcases hc with rfl | rfl | rfl | rfl | rfl | rfl | rfl | rfl | rfl | rfl | rfl | rfl | rfl | rfl | rfl | rfl |
      rfl | rfl | rfl | rfl <;> decide

/-- The first token of a text that starts with a word is that word, wherever the text stands. -/
theorem Spec.StartsWord.tokens {s : Str} (h : StartsWord s) : ∃ w rest, findall (lower s) = some w :: rest ∧
    findallAux false 0 (lower s) = some w :: rest ∧ w.1 ≠ 'n' := by
  obtain ⟨_, d, t, hs, hd, hn, hp⟩ := h.head
  rw [hs]
  refine ⟨(d, t.take (numLen t)), findallAux false (numLen t) t, ?_, ?_, hn⟩
  · simp only [findall, findallAux]
    rw [matchTok_plain true d t hp, if_pos hd]
  · simp only [findallAux]
    rw [matchTok_plain false d t hp, if_pos hd]

/-- A line number in front. -/
theorem sameMeaning_number {p s : Str} (hp : LineNumber p) (hs : StartsWord s) : SameMeaning s (p ++ s) := by
  obtain ⟨w, rest, h1, h2, hw⟩ := hs.tokens
  have hdrop : dropN (some w :: rest) = some w :: rest := by
    obtain ⟨a, v⟩ := w
    simp only [dropN]
    rw [if_neg hw]
  rcases hp with rfl | ⟨c, d, sp, hc, hd, hsp, rfl⟩
  · exact ⟨⟨w, rest, rest, by rw [h1, hdrop], by rw [List.nil_append, h1, hdrop], .of_eq rfl⟩, rfl⟩
  · have hcl : c.toLower = 'n' ∧ c ≠ 'P' ∧ c ∉ c!"();/*\n" := by
      simp only [List.mem_cons, List.not_mem_nil, or_false] at hc
      rcases hc with rfl | rfl <;> decide
    have hpl : Plain (c :: d) := by
      intro x hx
      rcases List.mem_cons.1 hx with rfl | hx
      · exact hcl.2.2
      · exact (digit_inert (hd x hx)).2.2.2
    have hnn : NotNumeric (sp ++ s) := notNumeric_blank sp s hsp hs.head.1
    have heq : c :: (d ++ sp) ++ s = (c :: d) ++ (sp ++ s) := by simp
    have htok : findall (lower (c :: (d ++ sp) ++ s)) = some ('n', d.take (numLen d)) :: some w :: rest := by
      rw [heq, lower_append, findall_closed_append (Plain.closed (Plain.lower hpl)) (lower_ne_nil (by simp))
        (NotNumeric.lower hnn), lower_append, lower_blank sp hsp, findallAux_blank sp _ hsp, h2]
      have : findall (lower (c :: d)) = [some ('n', d.take (numLen d))] := by
        have hl : lower (c :: d) = 'n' :: d := by
          rw [show lower (c :: d) = c.toLower :: lower d from rfl, hcl.1, lower_digits hd]
        rw [hl]
        simp only [findall, findallAux]
        rw [matchTok_plain true 'n' d (by decide), if_pos (by decide)]
        simp only
        rw [findallAux_inert d (fun x hx => (digit_inert (hd x hx)).1)]
      rw [this]
      rfl
    refine ⟨⟨w, rest, rest, by rw [h1, hdrop], by rw [htok]; simp [dropN], .of_eq rfl⟩, ?_⟩
    rw [heq, findSpecificAux_closed 'P' (Plain.closed hpl) _ hnn 0 (Nat.zero_le _), findSpecific_blank sp _ hsp,
      findSpecificAux_inert 'P' (c :: d), List.nil_append]
    intro x hx
    rcases List.mem_cons.1 hx with rfl | hx
    · exact hcl.2
    · exact ⟨(digit_inert (hd x hx)).2.1, (digit_inert (hd x hx)).2.2.2⟩

/-- A checksum behind. -/
theorem sameMeaning_checksum {s q : Str} (hs : Plain s) (hc : HasCommand s) (hq : Checksum q) :
    SameMeaning s (s ++ q) := by
  rcases hq with rfl | ⟨sp, d, hsp, hd, rfl⟩
  · refine sameMeaning_append hs hc ?_ rfl rfl
    intro c h; simp at h
  · have hsp' : ∀ c ∈ sp, c ∈ blanks := fun c h => (hsp c h).1
    have hnl : ('\n' : Char) ∉ d := fun h => by
      have := hd _ h; revert this; decide
    have hany : slashLen d = none := by
      unfold slashLen
      rw [if_neg]
      simpa using hnl
    refine sameMeaning_append hs hc (notNumeric_blank sp _ hsp' ?_) ?_ ?_
    · intro c h
      simp only [List.head?_cons, Option.some.injEq] at h
      subst h; decide
    · rw [lower_append, lower_blank sp hsp', findallAux_blank sp _ hsp',
        show lower ('*' :: d) = '*' :: lower d from rfl, lower_digits hd]
      simp only [findallAux]
      have : matchTok false '*' d = none := by simp [matchTok, hany]
      rw [this]
      simp only
      rw [findallAux_inert d (fun x hx => (digit_inert (hd x hx)).1)]
      rfl
    · rw [findSpecific_blank sp _ hsp']
      simp only [findSpecificAux]
      have : matchSpecific 'P' '*' d = none := by simp [matchSpecific, hany]
      rw [this]
      simp only
      exact findSpecificAux_inert 'P' d (fun x hx => ⟨(digit_inert (hd x hx)).2.1, (digit_inert (hd x hx)).2.2.2⟩) 0

/-- Framing does not change the meaning. -/
theorem sameMeaning_framed {s b : Str} (hs : Plain s) (hw : StartsWord s) (hf : Framed s b)
    (hnl : '\n' ∉ b) : SameMeaning s b := by
  obtain ⟨p, q, hp, hq, rfl⟩ := hf
  refine (sameMeaning_number hp hw).trans (sameMeaning_checksum ?_ ?_ hq)
  · intro c hc
    rcases List.mem_append.1 hc with hc | hc
    · rcases hp with rfl | ⟨c', d, sp, hc', hd, hsp, rfl⟩
      · simp at hc
      · simp only [List.mem_cons, List.mem_append] at hc
        rcases hc with rfl | hc | hc
        · simp only [List.mem_cons, List.not_mem_nil, or_false] at hc'
          rcases hc' with rfl | rfl <;> decide
        · exact (digit_inert (hd c hc)).2.2.2
        · have hcn : c ≠ '\n' := by
            rintro rfl
            exact hnl (by simp [hc])
          have := hsp c hc
          simp only [blanks, List.mem_cons, List.not_mem_nil, or_false] at this
          rcases this with rfl | rfl | rfl | rfl | rfl | rfl <;> first | decide | exact absurd rfl hcn
    · exact hs c hc
  · obtain ⟨c, hc, h⟩ := hw.hasCommand
    exact ⟨c, by simp [hc], h⟩

end GCodeUtils
