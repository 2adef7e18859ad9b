import Verif.Spec.Stdin
import Verif.Model.Stdin
import Verif.Props.Layout

/-
  C135: standard input, pipes and newline translation.
-/

set_option linter.unusedSectionVars false

namespace GCodeUtils

open Spec

variable {α : Type} [Field α] [LinearOrder α] [IsStrictOrderedRing α] [FloorRing α]

/-- C135: with a named input, the commands are those of the other theorems when newlines are not translated. -/
theorem C135_named (P : List Str → Except Err Str) (env : Env α) (a b z : α) (c : Bool) (s : Option Str) (p : Str) (out : Option Str)
    (stdin : Str) (w : World) :
    toolMain .asIs P false (some p) out stdin w = filterMain P p out w ∧ toolMain .asIs P true (some p) out stdin w = inplaceMain P p out w ∧
    tempcalTool .asIs env a b z c s (some p) out stdin w = tempcalMain env a b z c s p out w := by
  exact ⟨rfl, rfl, rfl⟩

/-- C135: reading a program from standard input does what reading it from a file does, as long as that file is not the output. -/
theorem C135_stdin (nl : Newlines) (P : List Str → Except Err Str) (env : Env α) (a b z : α) (c : Bool) (s : Option Str) {p text : Str} {out : Option Str}
    {w : World} (h : w.files p = some text) (ho : out ≠ some p) (stdin : Str) :
    toolMain nl P false none out text w = toolMain nl P false (some p) out stdin w ∧
    tempcalTool nl env a b z c s none out text w = tempcalTool nl env a b z c s (some p) out stdin w := by
  have e : ((w.openW out).files p).getD [] = text := by
    cases out with
    | none => simp [World.openW, h]
    | some q =>
      have : ¬ p = q := fun e => ho (by rw [e])
      simp [World.openW, World.put, this, h]
  constructor
  · unfold toolMain
    simp only [h, e]
    rfl
  · unfold tempcalTool
    simp only [h, e]

/-- C135: a command that reads standard input changes no file but its output file, with or without `--inplace`; and `--inplace`
makes no difference. -/
theorem C135_inplace (nl : Newlines) (P : List Str → Except Err Str) (i : Bool) (out : Option Str) (stdin : Str) (w : World) :
    toolMain nl P i none out stdin w = toolMain nl P false none out stdin w ∧
    ∀ q, out ≠ some q → (toolMain nl P i none out stdin w).1.files q = w.files q := by
  refine ⟨rfl, fun q hq => ?_⟩
  have ho : (w.openW out).files q = w.files q := by
    cases out with
    | none => rfl
    | some p =>
      have : ¬ q = p := fun e => hq (by rw [e])
      simp [World.openW, World.put, this]
  unfold toolMain
  simp only
  split
  · exact ho
  · rw [← ho]
    cases out with
    | none => rfl
    | some p =>
      have : ¬ q = p := fun e => hq (by rw [e])
      simp [World.emit, World.put, this]

/-- C135: two commands joined by a pipe do what they do one after the other with a file in between. -/
theorem C135_pipe (nl : Newlines) (P Q : List Str → Except Err Str) (inp out : Option Str) (tmp : Str) (stdin : Str) (w : World)
    (hi : ∀ p, inp = some p → (w.files p).isSome ∧ p ≠ tmp) (ho : out ≠ some tmp) :
    let second := toolMain nl Q false (some tmp) out [] (toolMain nl P false inp (some tmp) stdin w).1
    let joined := piped (toolMain nl P false inp none) (toolMain nl Q false none out) stdin w
    SameElsewhere tmp joined.1 second.1 ∧ joined.2 = second.2 := by
  intro second joined
  -- what the first command reads
  obtain ⟨text, h1, h2⟩ : ∃ text, (∀ v, toolMain nl P false inp none stdin { w with stdout := v } =
        match P (readlines (nl.read text)) with
        | .error er => (({ w with stdout := v } : World), .error er)
        | .ok t => (({ w with stdout := v ++ t } : World), .ok ())) ∧
      toolMain nl P false inp (some tmp) stdin w =
        match P (readlines (nl.read text)) with
        | .error er => (w.put tmp [], .error er)
        | .ok t => ((w.put tmp []).put tmp t, .ok ()) := by
    cases inp with
    | none =>
      refine ⟨stdin, fun v => ?_, ?_⟩
      · unfold toolMain
        rfl
      · unfold toolMain
        simp only [World.openW, World.emit]
        cases P (readlines (nl.read stdin)) with
        | error er => rfl
        | ok t => simp [World.put]
    | some p =>
      obtain ⟨k1, k2⟩ := hi p rfl
      obtain ⟨text, ht⟩ := Option.isSome_iff_exists.1 k1
      refine ⟨text, fun v => ?_, ?_⟩
      · unfold toolMain
        simp only [ht, World.openW, Option.getD_some, Bool.false_eq_true, if_false]
        rfl
      · have e : ((w.put tmp []).files p).getD [] = text := by simp [World.put, k2, ht]
        unfold toolMain
        simp only [ht, World.openW, World.emit, e, Bool.false_eq_true, if_false]
        cases P (readlines (nl.read text)) with
        | error er => rfl
        | ok t => simp [World.put]
  have key : ∀ (t : Str) (v : World), v.files tmp = some t → SameElsewhere tmp w v →
      SameElsewhere tmp (toolMain nl Q false none out t w).1 (toolMain nl Q false (some tmp) out [] v).1 ∧
      (toolMain nl Q false none out t w).2 = (toolMain nl Q false (some tmp) out [] v).2 := by
    intro t v hv hs
    rw [← (C135_stdin (α := ℚ) nl Q ⟨fun _ _ => 0, .halfEven⟩ 0 0 0 false none hv ho []).1]
    unfold toolMain
    simp only
    cases Q (readlines (nl.read t)) with
    | error er => exact ⟨elsewhere_openW hs out, rfl⟩
    | ok u => exact ⟨elsewhere_emit (elsewhere_openW hs out) out u, rfl⟩
  simp only [second, joined, piped, h1 [], h2]
  cases P (readlines (nl.read text)) with
  | error er =>
    refine key [] _ (by simp [World.put]) ⟨rfl, fun q hq => ?_⟩
    simp [World.put, hq]
  | ok t =>
    refine key t _ (by simp [World.put]) ⟨rfl, fun q hq => ?_⟩
    simp [World.put, hq]

/-! ### Newline translation -/

theorem translate_plain {c : Char} (h : c ≠ '\r') (cs : Str) : translateNewlines (c :: cs) = c :: translateNewlines cs := by
  rw [translateNewlines.eq_4 c cs (fun _ e _ => h e) (fun e => h e)]

theorem translate_cr {cs : Str} (h : cs.head? ≠ some '\n') : translateNewlines ('\r' :: cs) = '\n' :: translateNewlines cs := by
  rw [translateNewlines.eq_3 cs (fun t e => h (by rw [e]; rfl))]

theorem translate_crlf (cs : Str) : translateNewlines ('\r' :: '\n' :: cs) = '\n' :: translateNewlines cs := by
  rw [translateNewlines.eq_2]

/-- No carriage return is left. -/
theorem translate_no_cr (t : Str) : '\r' ∉ translateNewlines t := by
  fun_induction translateNewlines t with
  | case1 => simp
  | case2 cs ih => simp [ih]
  | case3 cs h ih => simp [ih]
  | case4 c cs h1 h2 ih =>
    simp only [List.mem_cons, not_or]
    exact ⟨fun e => h2 e.symm, ih⟩

theorem translate_append {p : Str} (h : '\r' ∉ p) (rest : Str) : translateNewlines (p ++ rest) = p ++ translateNewlines rest := by
  induction p with
  | nil => rfl
  | cons c p ih =>
    rw [List.cons_append, translate_plain (fun e => h (by simp [e])), ih (fun k => h (by simp [k]))]
    rfl

theorem intercalate_two (s p q : Str) (ps : List Str) : List.intercalate s (p :: q :: ps) = p ++ s ++ List.intercalate s (q :: ps) := by
  simp [List.intercalate]

theorem intercalate_one (s p : Str) : List.intercalate s [p] = p := by simp [List.intercalate]

/-- C135: the translated text is the same whether the lines end as on Unix, on Windows or on old Macintosh systems. -/
theorem C135_conventions {ps : List Str} (h : ∀ p ∈ ps, '\n' ∉ p ∧ '\r' ∉ p) :
    ∀ s ∈ lineEndings, translateNewlines (List.intercalate s ps) = List.intercalate ['\n'] ps := by
  intro s hs
  induction ps with
  | nil => rfl
  | cons p ps ih =>
    obtain ⟨hp1, hp2⟩ := h p (by simp)
    cases ps with
    | nil =>
      rw [intercalate_one, intercalate_one]
      have := translate_append hp2 []
      simpa [translateNewlines] using this
    | cons q ps =>
      have ih := ih (fun p hp => h p (List.mem_cons_of_mem _ hp))
      rw [intercalate_two, intercalate_two, List.append_assoc, translate_append hp2, List.append_assoc, ← ih]
      congr 1
      simp only [lineEndings, List.mem_cons, List.not_mem_nil, or_false] at hs
      rcases hs with rfl | rfl | rfl
      · exact translate_plain (by decide) _
      · exact translate_crlf _
      · refine translate_cr ?_
        obtain ⟨hq1, hq2⟩ := h q (by simp)
        cases ps with
        | nil =>
          rw [intercalate_one]
          cases q with
          | nil => simp
          | cons c q => simpa using fun e => hq1 (by simp [e])
        | cons r ps =>
          rw [intercalate_two]
          cases q with
          | nil => simp
          | cons c q => simpa using fun e => hq1 (by simp [e])

/-- C135: so every command does the same with the three. -/
theorem C135_conventions_tools {ps : List Str} (h : ∀ p ∈ ps, '\n' ∉ p ∧ '\r' ∉ p) (P : List Str → Except Err Str) (env : Env α) (a b z : α) (c : Bool)
    (st : Option Str) (out : Option Str) (w : World) : ∀ s ∈ lineEndings,
    toolMain .translated P false none out (List.intercalate s ps) w = toolMain .asIs P false none out (List.intercalate ['\n'] ps) w ∧
    tempcalTool .translated env a b z c st none out (List.intercalate s ps) w = tempcalTool .asIs env a b z c st none out (List.intercalate ['\n'] ps) w := by
  intro s hs
  have e : Newlines.translated.read (List.intercalate s ps) = Newlines.asIs.read (List.intercalate ['\n'] ps) := C135_conventions h s hs
  constructor
  · unfold toolMain
    simp only [e]
  · unfold tempcalTool
    simp only [e]

theorem trimmed_append {a b l m : List Str} (h : Trimmed a l) (k : Trimmed b m) : Trimmed (a ++ b) (l ++ m) := by
  induction h with
  | nil => exact k
  | blank h1 _ ih => exact .blank h1 ih
  | line h1 h2 _ ih => exact .line h1 h2 ih

theorem intercalate_join {s : Str} {ps qs : List Str} (h1 : ps ≠ []) (h2 : qs ≠ []) :
    List.intercalate s (ps ++ qs) = List.intercalate s ps ++ s ++ List.intercalate s qs := by
  induction ps with
  | nil => exact absurd rfl h1
  | cons p ps ih =>
    cases ps with
    | nil =>
      cases qs with
      | nil => exact absurd rfl h2
      | cons q qs => rw [List.singleton_append, intercalate_two, intercalate_one]
    | cons r ps =>
      rw [List.cons_append, List.cons_append, intercalate_two, ← List.cons_append, ih (by simp), intercalate_two]
      simp [List.append_assoc]

/-- The pieces of a text can be taken not to be missing. -/
theorem content_pieces {t : Str} {ls : List Str} (h : HasContent t ls) :
    ∃ ps, ps ≠ [] ∧ t = List.intercalate ['\n'] ps ∧ (∀ p ∈ ps, '\n' ∉ p) ∧ Trimmed ps ls := by
  obtain ⟨ps, h1, h2, h3⟩ := h
  cases ps with
  | nil =>
    cases h3
    exact ⟨[[]], by simp, by rw [h1, intercalate_one]; rfl, by simp, .blank (by decide) .nil⟩
  | cons p ps => exact ⟨p :: ps, by simp, h1, h2, h3⟩

theorem content_append {t u : Str} {ls ms : List Str} (h : HasContent t ls) (k : HasContent u ms) : HasContent (t ++ '\n' :: u) (ls ++ ms) := by
  obtain ⟨ps, h0, rfl, h2, h3⟩ := content_pieces h
  obtain ⟨qs, k0, rfl, k2, k3⟩ := content_pieces k
  refine ⟨ps ++ qs, by rw [intercalate_join h0 k0]; simp, ?_, trimmed_append h3 k3⟩
  intro p hp
  rcases List.mem_append.1 hp with hp | hp
  · exact h2 p hp
  · exact k2 p hp

theorem content_blank {t : Str} (h : IsBlank t) (hn : '\n' ∉ t) : HasContent t [] :=
  ⟨[t], (intercalate_one _ _).symm, by simpa using hn, .blank h .nil⟩

theorem isStrip_cons {c : Char} (hc : c ∈ blanks) {p l : Str} (h : IsStrip p l) : IsStrip (c :: p) l := by
  obtain ⟨⟨a, b, h1, h2, h3⟩, h4, h5⟩ := h
  refine ⟨⟨c :: a, b, by rw [h1]; simp, ?_, h3⟩, h4, h5⟩
  intro d hd
  rcases List.mem_cons.1 hd with rfl | hd
  · exact hc
  · exact h2 d hd

/-- A blank in front. -/
theorem content_cons {c : Char} (hc : c ∈ blanks) {t : Str} {ls : List Str} (h : HasContent t ls) : HasContent (c :: t) ls := by
  by_cases hn : c = '\n'
  · subst hn
    have := content_append (content_blank (t := []) (by decide) (by decide)) h
    simpa using this
  · obtain ⟨ps, h0, rfl, h2, h3⟩ := content_pieces h
    cases ps with
    | nil => exact absurd rfl h0
    | cons p ps =>
      refine ⟨(c :: p) :: ps, ?_, ?_, ?_⟩
      · cases ps with
        | nil => rw [intercalate_one, intercalate_one]
        | cons q ps => rw [intercalate_two, intercalate_two]; simp
      · intro q hq
        rcases List.mem_cons.1 hq with rfl | hq
        · simp only [List.mem_cons, not_or]
          exact ⟨fun e => hn e.symm, h2 p (by simp)⟩
        · exact h2 q (by simp [hq])
      · cases h3 with
        | blank k1 k2 =>
          refine .blank ?_ k2
          intro d hd
          rcases List.mem_cons.1 hd with rfl | hd
          · exact hc
          · exact k1 d hd
        | line k1 k2 k3 => exact .line (isStrip_cons hc k1) k2 k3

theorem content_blanks {t : Str} (h : IsBlank t) : HasContent t [] := by
  induction t with
  | nil => exact content_blank (by decide) (by decide)
  | cons c t ih => exact content_cons (h c (by simp)) (ih (fun d hd => h d (by simp [hd])))

/-- Blanks after a line. -/
theorem content_snoc {l b : Str} (hl : IsStrip l l) (hn : '\n' ∉ l) (h0 : l ≠ []) (hb : IsBlank b) : HasContent (l ++ b) [l] := by
  -- up to the first newline of `b` the blanks belong to the line
  obtain ⟨b1, b2, e, h1, h2⟩ : ∃ b1 b2, b = b1 ++ b2 ∧ '\n' ∉ b1 ∧ (b2 = [] ∨ ∃ b3, b2 = '\n' :: b3) := by
    clear hb
    induction b with
    | nil => exact ⟨[], [], rfl, by simp, .inl rfl⟩
    | cons c b ih =>
      by_cases hc : c = '\n'
      · exact ⟨[], c :: b, rfl, by simp, .inr ⟨b, by rw [hc]⟩⟩
      · obtain ⟨b1, b2, e, h1, h2⟩ := ih
        refine ⟨c :: b1, b2, by rw [e]; rfl, ?_, h2⟩
        simp only [List.mem_cons, not_or]
        exact ⟨fun e => hc e.symm, h1⟩
  have hb1 : IsBlank b1 := fun c hc => hb c (by rw [e]; simp [hc])
  have hline : HasContent (l ++ b1) [l] := by
    refine ⟨[l ++ b1], (intercalate_one _ _).symm, ?_, .line (isStrip_right hl hb1) h0 .nil⟩
    simp only [List.mem_singleton, forall_eq, List.mem_append, not_or]
    exact ⟨hn, h1⟩
  rcases h2 with rfl | ⟨b3, rfl⟩
  · rw [e, List.append_nil]; exact hline
  · rw [e, ← List.append_assoc]
    exact content_append hline (content_blanks (fun c hc => hb c (by rw [e]; simp [hc])))

theorem translate_blank {t : Str} (h : IsBlank t) : IsBlank (translateNewlines t) := by
  fun_induction translateNewlines t with
  | case1 => exact h
  | case2 cs ih =>
    intro c hc
    rcases List.mem_cons.1 hc with rfl | hc
    · decide
    · exact ih (fun d hd => h d (by simp [hd])) c hc
  | case3 cs _ ih =>
    intro c hc
    rcases List.mem_cons.1 hc with rfl | hc
    · decide
    · exact ih (fun d hd => h d (by simp [hd])) c hc
  | case4 c cs h1 h2 ih =>
    intro d hd
    rcases List.mem_cons.1 hd with rfl | hd
    · exact h d (by simp)
    · exact ih (fun d hd => h d (by simp [hd])) d hd

/-- Translation before and after a text that does not begin with a newline. -/
theorem translate_split (a : Str) {rest : Str} (h : rest.head? ≠ some '\n') : translateNewlines (a ++ rest) = translateNewlines a ++ translateNewlines rest := by
  fun_induction translateNewlines a with
  | case1 => rfl
  | case2 cs ih => rw [List.cons_append, List.cons_append, translate_crlf, ih]; rfl
  | case3 cs hc ih =>
    rw [List.cons_append, translate_cr, ih]
    · rfl
    · cases cs with
      | nil => exact h
      | cons c cs => simpa using fun e => hc cs (by rw [e])
  | case4 c cs h1 h2 ih => rw [List.cons_append, translate_plain (fun e => h2 e), ih]; rfl

/-- One piece, possibly followed by a newline. -/
theorem translate_piece {p : Str} {ls : List Str} (h : Trimmed [p] ls) (hn : '\n' ∉ p) (hc : ∀ l ∈ ls, '\r' ∉ l) :
    HasContent (translateNewlines p) ls ∧ ∃ u, (∀ rest, translateNewlines (p ++ '\n' :: rest) = u ++ '\n' :: translateNewlines rest) ∧ HasContent u ls := by
  -- blanks without a newline
  have tail : ∀ b : Str, IsBlank b → ∃ u, (∀ rest, translateNewlines (b ++ '\n' :: rest) = u ++ '\n' :: translateNewlines rest) ∧ IsBlank u := by
    intro b hb
    fun_induction translateNewlines b with
    | case1 => exact ⟨[], fun rest => translate_plain (by decide) rest, by decide⟩
    | case2 cs ih =>
      obtain ⟨u, h1, h2⟩ := ih (fun d hd => hb d (by simp [hd]))
      refine ⟨'\n' :: u, fun rest => by rw [List.cons_append, List.cons_append, translate_crlf, h1]; rfl, ?_⟩
      intro d hd
      rcases List.mem_cons.1 hd with rfl | hd
      · decide
      · exact h2 d hd
    | case3 cs k ih =>
      cases cs with
      | nil => exact ⟨[], fun rest => translate_crlf rest, by decide⟩
      | cons c cs =>
        obtain ⟨u, h1, h2⟩ := ih (fun d hd => hb d (by simp [hd]))
        refine ⟨'\n' :: u, fun rest => ?_, ?_⟩
        · rw [List.cons_append, translate_cr (by simpa using fun e => k cs (by rw [e])), h1]; rfl
        · intro d hd
          rcases List.mem_cons.1 hd with rfl | hd
          · decide
          · exact h2 d hd
    | case4 c cs k1 k2 ih =>
      obtain ⟨u, h1, h2⟩ := ih (fun d hd => hb d (by simp [hd]))
      refine ⟨c :: u, fun rest => by rw [List.cons_append, translate_plain (fun e => k2 e), h1]; rfl, ?_⟩
      intro d hd
      rcases List.mem_cons.1 hd with rfl | hd
      · exact hb d (by simp)
      · exact h2 d hd
  have front : ∀ {a t : Str} {ms : List Str}, IsBlank a → HasContent t ms → HasContent (a ++ t) ms := by
    intro a t ms ha ht
    induction a with
    | nil => exact ht
    | cons c a ih => exact content_cons (ha c (by simp)) (ih (fun d hd => ha d (by simp [hd])))
  cases h with
  | blank h1 h2 =>
    cases h2
    obtain ⟨u, k1, k2⟩ := tail p h1
    exact ⟨content_blanks (translate_blank h1), u, k1, content_blanks k2⟩
  | @line _ l _ _ h1 h2 h3 =>
    cases h3
    have hr : '\r' ∉ l := hc l (by simp)
    obtain ⟨⟨a, b, rfl, ha, hb⟩, h4, h5⟩ := h1
    have hl : IsStrip l l := ⟨⟨[], [], by simp, by simp, by simp⟩, h4, h5⟩
    have hnl : '\n' ∉ l := fun k => hn (by simp [k])
    have hh : ∀ v : Str, (l ++ v).head? ≠ some '\n' := by
      intro v
      cases l with
      | nil => exact absurd rfl h2
      | cons c l => simpa using fun e => hnl (by simp [e])
    obtain ⟨u, k1, k2⟩ := tail b hb
    have e : ∀ v : Str, translateNewlines (a ++ l ++ v) = translateNewlines a ++ (l ++ translateNewlines v) := by
      intro v
      rw [List.append_assoc, translate_split a (hh v), translate_append hr]
    refine ⟨?_, translateNewlines a ++ (l ++ u), fun rest => ?_, ?_⟩
    · rw [e]
      exact front (translate_blank ha) (content_snoc hl hnl h2 (translate_blank hb))
    · rw [List.append_assoc (a ++ l), e, k1]
      simp [List.append_assoc]
    · exact front (translate_blank ha) (content_snoc hl hnl h2 k2)

theorem trimmed_cons {p : Str} {ps ls : List Str} (h : Trimmed (p :: ps) ls) : ∃ l1 l2, ls = l1 ++ l2 ∧ Trimmed [p] l1 ∧ Trimmed ps l2 := by
  cases h with
  | blank k1 k2 => exact ⟨[], ls, rfl, .blank k1 .nil, k2⟩
  | line k1 k2 k3 => exact ⟨[_], _, rfl, .line k1 k2 .nil, k3⟩

/-- Translation leaves the lines of a text as they are if no carriage return is inside a line. -/
theorem translate_content {text : Str} {ls : List Str} (h : HasContent text ls) (hc : ∀ l ∈ ls, '\r' ∉ l) : HasContent (translateNewlines text) ls := by
  obtain ⟨ps, rfl, h2, h3⟩ := h
  induction ps generalizing ls with
  | nil => cases h3; exact content_blank (by decide) (by decide)
  | cons p ps ih =>
    obtain ⟨l1, l2, rfl, k1, k2⟩ := trimmed_cons h3
    obtain ⟨m1, u, m2, m3⟩ := translate_piece k1 (h2 p (by simp)) (fun l hl => hc l (by simp [hl]))
    cases ps with
    | nil =>
      cases k2
      rw [intercalate_one, List.append_nil]; exact m1
    | cons q ps =>
      rw [intercalate_two, List.append_assoc, List.singleton_append, m2]
      exact content_append m3 (ih (fun l hl => hc l (by simp [hl])) (fun p hp => h2 p (List.mem_cons_of_mem _ hp)) k2)

theorem translate_ne {text : Str} (h : text ≠ []) : translateNewlines text ≠ [] := by
  fun_cases translateNewlines text with
  | case1 => exact absurd rfl h
  | case2 => simp
  | case3 => simp
  | case4 => simp

/-- C135: newline translation makes no difference to a program without a carriage return inside a line: the same program is read,
or the same error raised. -/
theorem C135_translation (nl nl' : Newlines) (env : Env α) (light : Bool) (home : Home α) {text : Str} {ls : List Str} (h : HasContent text ls)
    (hc : ∀ l ∈ ls, '\r' ∉ l) :
    (GCode.load env (readlines (nl.read text)) light home : Except Err (GCode α)) = GCode.load env (readlines (nl'.read text)) light home := by
  have key : (GCode.load env (readlines (translateNewlines text)) light home : Except Err (GCode α)) = GCode.load env (readlines text) light home := by
    by_cases h0 : text = []
    · subst h0; rfl
    · exact (C117_load env light home ⟨ls, translate_content h hc, h⟩ (translate_ne h0) h0).1
  cases nl <;> cases nl' <;> first | rfl | exact key | exact key.symm

/-- C135: nor does it make any to what the command lines do with a program from standard input. -/
theorem C135_translation_tools (nl nl' : Newlines) (env : Env α) (x y : Option α) (e : Bool) (p : Option ℤ) (tr : Trig α) (sqrt : α → α) (fuel : ℕ)
    (repo : StretchRepo α) (profile : ProfileOracle α) (a b z : α) (c : Bool) (s : Option Str) (out : Option Str) (w : World) {text : Str} {ls : List Str}
    (h : HasContent text ls) (hc : ∀ l ∈ ls, '\r' ∉ l) :
    (∀ P ∈ [modPipeline env x y e p, arcPipeline env tr, stretchPipeline env sqrt fuel repo profile],
      toolMain nl P false none out text w = toolMain nl' P false none out text w) ∧
    tempcalTool nl env a b z c s none out text w = tempcalTool nl' env a b z c s none out text w := by
  have key := C135_translation nl nl' env false Home.init h hc
  constructor
  · intro P hP
    simp only [List.mem_cons, List.not_mem_nil, or_false] at hP
    have hP : P (readlines (nl.read text)) = P (readlines (nl'.read text)) := by
      rcases hP with rfl | rfl | rfl
      · unfold modPipeline; rw [key]
      · unfold arcPipeline; rw [key]
      · unfold stretchPipeline; rw [key]
    unfold toolMain
    simp only [hP]
  · unfold tempcalTool
    simp only [key]

/-- A program with Windows line endings, read from standard input by `gcode_mod -x 1` and handed through a pipe to
`gcode_mod -y 1`; the result is in the second command's output file. -/
example :
    let w : World := { files := fun _ => none, stdout := c!"$ " }
    let mv (x y : Option ℚ) := modPipeline qEnv x y false none
    let r := piped (toolMain .translated (mv (some 1) none) false none none) (toolMain .translated (mv none (some 1)) false none (some c!"o"))
      c!"G90\r\nG1 X1 Y1\r\n" w
    HasContent c!"G90\r\nG1 X1 Y1\r\n" [c!"G90", c!"G1 X1 Y1"] ∧ r.1.files c!"o" = some c!"G90\nG1 X2.000 Y2.000\n" ∧ r.1.stdout = c!"$ " ∧ r.2 = .ok () := by
  refine ⟨⟨[c!"G90\r", c!"G1 X1 Y1\r", []], by decide, by decide, .line ?_ (by decide) (.line ?_ (by decide) (.blank (by decide) .nil))⟩, ?_⟩
  · exact isStrip_right (p := c!"G90") ⟨⟨[], [], by decide, by decide, by decide⟩, by decide, by decide⟩ (by decide)
  · exact isStrip_right (p := c!"G1 X1 Y1") ⟨⟨[], [], by decide, by decide, by decide⟩, by decide, by decide⟩ (by decide)
  · decide +kernel

/-- C135: a carriage return inside a line ends the line only with newline translation: the same command on the same text moves the
program differently. -/
theorem C135_cr_refuted : ∃ text : Str, toolMain .translated (modPipeline qEnv (some 1) none false none) false none none text ⟨fun _ => none, []⟩ |>.1.stdout ≠
    (toolMain .asIs (modPipeline qEnv (some 1) none false none) false none none text ⟨fun _ => none, []⟩).1.stdout :=
  ⟨c!"G90\rG1 X1\r", by decide +kernel⟩

end GCodeUtils
