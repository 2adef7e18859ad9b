import Verif.Spec.Layout
import Verif.Model.Report
import Verif.Model.Callback
import Verif.Props.Cli
import Verif.Props.Load

/-
  C117: line endings, indentation and blank lines do not matter.
-/

set_option linter.unusedSectionVars false

namespace GCodeUtils

open Spec

variable {α : Type} [Field α] [LinearOrder α] [IsStrictOrderedRing α] [FloorRing α]

theorem strip_blank {p : Str} (h : IsBlank p) : strip p = [] := by
  symm
  refine C01_strip_unique p [] ⟨⟨p, [], by simp, h, by simp⟩, by simp, by simp⟩

theorem readlines_piece {p : Str} (h : '\n' ∉ p) (rest : Str) : readlines (p ++ '\n' :: rest) = (p ++ ['\n']) :: readlines rest := by
  induction p with
  | nil => simp [readlines]
  | cons c p ih =>
    have hc : c ≠ '\n' := fun e => h (by simp [e])
    rw [List.cons_append, readlines, if_neg hc, ih (fun k => h (by simp [k]))]
    rfl

theorem readlines_last {p : Str} (h : '\n' ∉ p) : readlines p = if p = [] then [] else [p] := by
  induction p with
  | nil => rfl
  | cons c p ih =>
    have hc : c ≠ '\n' := fun e => h (by simp [e])
    rw [readlines, if_neg hc, ih (fun k => h (by simp [k]))]
    by_cases hp : p = []
    · subst hp; rfl
    · rw [if_neg hp]; rfl

theorem trimmed_map {ps ls : List Str} (h : Trimmed ps ls) : (ps.map strip).filter (fun s => !s.isEmpty) = ls := by
  induction h with
  | nil => rfl
  | blank h1 _ ih => rw [List.map_cons, strip_blank h1]; simpa using ih
  | @line p l ps ls h1 h2 _ ih =>
    rw [List.map_cons, ← C01_strip_unique p l h1, List.filter_cons, if_pos (by simpa [List.isEmpty_iff] using h2), ih]

theorem readlines_pieces (ps : List Str) (h : ∀ p ∈ ps, '\n' ∉ p) :
    ((readlines (List.intercalate ['\n'] ps)).map strip).filter (fun s => !s.isEmpty) = (ps.map strip).filter (fun s => !s.isEmpty) := by
  have sp : ∀ p : Str, strip (p ++ ['\n']) = strip p := fun p => strip_append_space p ['\n'] (by decide)
  induction ps with
  | nil => rfl
  | cons p ps ih =>
    cases ps with
    | nil =>
      have e : List.intercalate ['\n'] [p] = p := by simp [List.intercalate]
      rw [e, readlines_last (h p (by simp))]
      by_cases hp : p = []
      · subst hp; rfl
      · rw [if_neg hp]
    | cons q ps =>
      have e : List.intercalate ['\n'] (p :: q :: ps) = p ++ '\n' :: List.intercalate ['\n'] (q :: ps) := by simp [List.intercalate]
      rw [e, readlines_piece (h p (by simp)), List.map_cons, sp, List.filter_cons, ih (fun p hp => h p (by simp [hp])), List.map_cons (l := q :: ps), List.filter_cons]

theorem content_lines {text : Str} {ls : List Str} (h : HasContent text ls) : ((readlines text).map strip).filter (fun s => !s.isEmpty) = ls := by
  obtain ⟨ps, rfl, h2, h3⟩ := h
  rw [readlines_pieces ps h2, trimmed_map h3]

theorem content_readLines {text text' : Str} (h : SameContent text text') : (readLines (readlines text) : List (PyLine α)) = readLines (readlines text') := by
  obtain ⟨ls, h1, h2⟩ := h
  unfold readLines
  rw [content_lines h1, content_lines h2]

theorem readlines_isEmpty {text : Str} (h : text ≠ []) : (readlines text).isEmpty = false := by
  cases text with
  | nil => exact absurd rfl h
  | cons c cs =>
    unfold readlines
    split_ifs
    · rfl
    · cases readlines cs <;> rfl

/-- Every text has some content. -/
theorem hasContent_exists (text : Str) : ∃ ls, HasContent text ls := by
  have tr : ∀ ps : List Str, ∃ ls, Trimmed ps ls := by
    intro ps
    induction ps with
    | nil => exact ⟨_, .nil⟩
    | cons p ps ih =>
      obtain ⟨ls, h⟩ := ih
      by_cases hp : IsBlank p
      · exact ⟨ls, .blank hp h⟩
      · refine ⟨strip p :: ls, .line (strip_isStrip p) ?_ h⟩
        intro e
        obtain ⟨⟨a, b, h1, h2, h3⟩, _⟩ := strip_isStrip p
        apply hp
        rw [h1, e]
        intro c hc
        simp only [List.append_nil, List.mem_append] at hc
        rcases hc with hc | hc
        · exact h2 c hc
        · exact h3 c hc
  have cut : ∃ ps : List Str, text = List.intercalate ['\n'] ps ∧ (∀ p ∈ ps, '\n' ∉ p) ∧ ps ≠ [] := by
    induction text with
    | nil => exact ⟨[[]], by simp [List.intercalate], by simp, by simp⟩
    | cons c cs ih =>
      obtain ⟨ps, h1, h2, h3⟩ := ih
      by_cases hc : c = '\n'
      · refine ⟨[] :: ps, ?_, ?_, by simp⟩
        · cases ps with
          | nil => exact absurd rfl h3
          | cons q qs => rw [h1, hc]; simp [List.intercalate]
        · intro p hp
          rcases List.mem_cons.1 hp with rfl | hp
          · simp
          · exact h2 p hp
      · cases ps with
        | nil => exact absurd rfl h3
        | cons q qs =>
          refine ⟨(c :: q) :: qs, ?_, ?_, by simp⟩
          · rw [h1]
            cases qs <;> simp [List.intercalate]
          · intro p hp
            rcases List.mem_cons.1 hp with rfl | hp
            · intro k
              rcases List.mem_cons.1 k with k | k
              · exact hc k.symm
              · exact h2 q (by simp) k
            · exact h2 p (by simp [hp])
  obtain ⟨ps, h1, h2, _⟩ := cut
  obtain ⟨ls, h3⟩ := tr ps
  exact ⟨ls, ps, h1, h2, h3⟩

/-- C117: a text and the same text with other line endings, other blanks around its lines and other blank lines give the same
program, with the same callbacks, or the same error. -/
theorem C117_load (env : Env α) (light : Bool) (home : Home α) {text text' : Str} (h : SameContent text text') (h1 : text ≠ []) (h2 : text' ≠ []) :
    (GCode.load env (readlines text) light home : Except Err (GCode α)) = GCode.load env (readlines text') light home ∧
    (GCode.loadCb env (readlines text) light home : List (Callback α) × Except Err (GCode α)) = GCode.loadCb env (readlines text') light home ∧
    (loadFile env (readlines text) : Except Err (GCode α)) = loadFile env (readlines text') := by
  have e := content_readLines (α := α) h
  refine ⟨?_, ?_, ?_⟩
  · unfold GCode.load prepare
    rw [readlines_isEmpty h1, readlines_isEmpty h2, e]
  · unfold GCode.loadCb
    rw [readlines_isEmpty h1, readlines_isEmpty h2, e]
  · unfold loadFile
    rw [e]

theorem isStrip_right {p l b : Str} (h : IsStrip p l) (hb : IsBlank b) : IsStrip (p ++ b) l := by
  obtain ⟨⟨a, c, h1, h2, h3⟩, h4, h5⟩ := h
  refine ⟨⟨a, c ++ b, by rw [h1]; simp, h2, ?_⟩, h4, h5⟩
  intro k hk
  rcases List.mem_append.1 hk with hk | hk
  · exact h3 k hk
  · exact hb k hk

theorem intercalate_crlf (ps : List Str) (p : Str) :
    List.intercalate ['\r', '\n'] (ps ++ [p]) = List.intercalate ['\n'] (ps.map (· ++ ['\r']) ++ [p]) := by
  induction ps with
  | nil => simp [List.intercalate]
  | cons q ps ih =>
    cases ps with
    | nil => simp [List.intercalate]
    | cons r ps =>
      have e1 : List.intercalate ['\r', '\n'] ((q :: r :: ps) ++ [p]) = q ++ '\r' :: '\n' :: List.intercalate ['\r', '\n'] ((r :: ps) ++ [p]) := by simp [List.intercalate]
      have e2 : List.intercalate ['\n'] ((q :: r :: ps).map (· ++ ['\r']) ++ [p]) = (q ++ ['\r']) ++ '\n' :: List.intercalate ['\n'] ((r :: ps).map (· ++ ['\r']) ++ [p]) := by
        simp [List.intercalate]
      rw [e1, e2, ih]
      simp

/-- C117: the same lines with `\n` and with `\r\n` between them; with and without a line ending at the end. -/
theorem C117_endings (ps : List Str) (h : ∀ p ∈ ps, '\n' ∉ p) :
    SameContent (List.intercalate ['\n'] ps) (List.intercalate ['\r', '\n'] ps) ∧
    SameContent (List.intercalate ['\n'] ps) (List.intercalate ['\n'] (ps ++ [[]])) ∧
    SameContent (List.intercalate ['\n'] ps) (List.intercalate ['\r', '\n'] (ps ++ [[]])) := by
  obtain ⟨ls, hl⟩ : ∃ ls, Trimmed ps ls := by
    clear h
    induction ps with
    | nil => exact ⟨_, .nil⟩
    | cons p ps ih =>
      obtain ⟨ls, h⟩ := ih
      by_cases hp : IsBlank p
      · exact ⟨ls, .blank hp h⟩
      · refine ⟨strip p :: ls, .line (strip_isStrip p) ?_ h⟩
        intro e
        obtain ⟨⟨a, b, h1, h2, h3⟩, _⟩ := strip_isStrip p
        apply hp
        rw [h1, e]
        intro c hc
        simp only [List.append_nil, List.mem_append] at hc
        rcases hc with hc | hc
        · exact h2 c hc
        · exact h3 c hc
  have cr : IsBlank ['\r'] := by decide
  have tcr : ∀ {ps ls : List Str}, Trimmed ps ls → Trimmed (ps.map (· ++ ['\r'])) ls := by
    intro ps ls h
    induction h with
    | nil => exact .nil
    | @blank p ps ls h1 _ ih =>
      refine .blank ?_ ih
      intro c hc
      rcases List.mem_append.1 hc with hc | hc
      · exact h1 c hc
      · exact cr c hc
    | line h1 h2 _ ih => exact .line (isStrip_right h1 cr) h2 ih
  have tapp : ∀ {a b l m : List Str}, Trimmed a l → Trimmed b m → Trimmed (a ++ b) (l ++ m) := by
    intro a b l m h k
    induction h with
    | nil => exact k
    | blank h1 _ ih => exact .blank h1 ih
    | line h1 h2 _ ih => exact .line h1 h2 ih
  have tend : Trimmed [([] : Str)] [] := .blank (by decide) .nil
  have base : HasContent (List.intercalate ['\n'] ps) ls := ⟨ps, rfl, h, hl⟩
  have hcr : ∀ (ps : List Str), (∀ p ∈ ps, '\n' ∉ p) → ∀ p ∈ ps.map (· ++ ['\r']), '\n' ∉ p := by
    intro ps h p hp hn
    obtain ⟨q, hq, rfl⟩ := List.mem_map.1 hp
    rcases List.mem_append.1 hn with k | k
    · exact h q hq k
    · revert k; decide
  refine ⟨⟨ls, base, ?_⟩, ⟨ls, base, ?_⟩, ⟨ls, base, ?_⟩⟩
  · rcases List.eq_nil_or_concat ps with rfl | ⟨qs, q, rfl⟩
    · exact ⟨[], rfl, by simp, hl⟩
    · rw [List.concat_eq_append] at h hl ⊢
      refine ⟨qs.map (· ++ ['\r']) ++ [q], intercalate_crlf qs q, ?_, ?_⟩
      · intro p hp
        rcases List.mem_append.1 hp with hp | hp
        · exact hcr qs (fun p hp => h p (by simp [hp])) p hp
        · rw [List.mem_singleton.1 hp]; exact h q (by simp)
      · clear base h
        obtain ⟨l1, l2, rfl, h1, h2⟩ : ∃ l1 l2, ls = l1 ++ l2 ∧ Trimmed qs l1 ∧ Trimmed [q] l2 := by
          induction qs generalizing ls with
          | nil => exact ⟨[], ls, rfl, .nil, hl⟩
          | cons r qs ih =>
            cases hl with
            | blank k1 k2 =>
              obtain ⟨l1, l2, rfl, h1, h2⟩ := ih _ k2
              exact ⟨l1, l2, rfl, .blank k1 h1, h2⟩
            | line k1 k2 k3 =>
              obtain ⟨l1, l2, rfl, h1, h2⟩ := ih _ k3
              exact ⟨_ :: l1, l2, rfl, .line k1 k2 h1, h2⟩
        exact tapp (tcr h1) h2
  · refine ⟨ps ++ [[]], rfl, ?_, ?_⟩
    · intro p hp
      rcases List.mem_append.1 hp with hp | hp
      · exact h p hp
      · rw [List.mem_singleton.1 hp]; simp
    · have := tapp hl tend
      rwa [List.append_nil] at this
  · refine ⟨ps.map (· ++ ['\r']) ++ [[]], intercalate_crlf ps [], ?_, ?_⟩
    · intro p hp
      rcases List.mem_append.1 hp with hp | hp
      · exact hcr ps h p hp
      · rw [List.mem_singleton.1 hp]; simp
    · have := tapp (tcr hl) tend
      rwa [List.append_nil] at this

theorem elsewhere_openW {f : Str} {w w' : World} (h : SameElsewhere f w w') (out : Option Str) : SameElsewhere f (w.openW out) (w'.openW out) := by
  cases out with
  | none => exact h
  | some p =>
    refine ⟨h.1, fun q hq => ?_⟩
    simp only [World.openW, World.put, h.2 q hq]

theorem elsewhere_emit {f : Str} {w w' : World} (h : SameElsewhere f w w') (out : Option Str) (t : Str) : SameElsewhere f (w.emit out t) (w'.emit out t) := by
  cases out with
  | none => exact ⟨by simp only [World.emit, h.1], h.2⟩
  | some p =>
    refine ⟨h.1, fun q hq => ?_⟩
    simp only [World.emit, World.put]
    by_cases hp : q = p
    · subst hp; rw [h.2 q hq]
    · rw [if_neg hp, if_neg hp, h.2 q hq]

/-- What an opened output leaves at the input: either nothing has changed there, or both are empty. -/
theorem openW_at {f : Str} {w w' : World} (h : SameUpToLayout f w w') (out : Option Str) :
    (∃ t t', (w.openW out).files f = some t ∧ (w'.openW out).files f = some t' ∧
      SameContent t t' ∧ (t ≠ [] ∧ t' ≠ [])) ∨ ((w.openW out).files f = some [] ∧ (w'.openW out).files f = some []) := by
  cases out with
  | none =>
    obtain ⟨t, t', h1, h2, h3, h4⟩ := h.there
    exact .inl ⟨t, t', h1, h2, h3, h4⟩
  | some p =>
    by_cases hp : f = p
    · exact .inr ⟨by simp [World.openW, World.put, hp], by simp [World.openW, World.put, hp]⟩
    · obtain ⟨t, t', h1, h2, h3, h4⟩ := h.there
      exact .inl ⟨t, t', by simp [World.openW, World.put, hp, h1], by simp [World.openW, World.put, hp, h2], h3, h4⟩

/-- A processing step that does not look at the layout of its input. -/
def LayoutFree {β : Type} (P : List Str → β) : Prop :=
  ∀ t t', SameContent t t' → t ≠ [] → t' ≠ [] → P (readlines t) = P (readlines t')

theorem layoutFree_at {β : Type} {P : List Str → β} (hP : LayoutFree P) {f : Str} {w w' : World} (h : SameUpToLayout f w w') (out : Option Str) :
    P (readlines (((w.openW out).files f).getD [])) = P (readlines (((w'.openW out).files f).getD [])) := by
  rcases openW_at h out with ⟨t, t', h1, h2, h3, h4, h5⟩ | ⟨h1, h2⟩
  · rw [h1, h2]; exact hP t t' h3 h4 h5
  · rw [h1, h2]

theorem filter_layout {P : List Str → Except Err Str} (hP : LayoutFree P) {inp : Str} {w w' : World} (h : SameUpToLayout inp w w') (out : Option Str) :
    SameElsewhere inp (filterMain P inp out w).1 (filterMain P inp out w').1 ∧ (filterMain P inp out w).2 = (filterMain P inp out w').2 := by
  obtain ⟨t, t', h1, h2, _⟩ := h.there
  have e := layoutFree_at hP h out
  unfold filterMain
  rw [h1, h2]
  simp only [e]
  cases P (readlines (((w'.openW out).files inp).getD [])) with
  | error er => exact ⟨elsewhere_openW h.elsewhere out, rfl⟩
  | ok t => exact ⟨elsewhere_emit (elsewhere_openW h.elsewhere out) out t, rfl⟩

theorem put_at (w : World) (f t : Str) : ((w.openW (some f)).emit (some f) t).files f = some t := by simp [World.openW, World.put, World.emit]

theorem inplace_layout {P : List Str → Except Err Str} (hP : LayoutFree P) {inp : Str} {w w' : World} (h : SameUpToLayout inp w w') (out : Option Str) :
    SameElsewhere inp (inplaceMain P inp out w).1 (inplaceMain P inp out w').1 ∧ (inplaceMain P inp out w).2 = (inplaceMain P inp out w').2 ∧
    ((inplaceMain P inp out w).2 = .ok () → (inplaceMain P inp out w).1.files inp = (inplaceMain P inp out w').1.files inp) := by
  obtain ⟨t, t', h1, h2, _⟩ := h.there
  have e := layoutFree_at hP h out
  unfold inplaceMain
  rw [h1, h2]
  simp only [e]
  cases P (readlines (((w'.openW out).files inp).getD [])) with
  | error er => exact ⟨elsewhere_openW h.elsewhere out, rfl, fun k => nomatch k⟩
  | ok t => exact ⟨elsewhere_emit (elsewhere_openW (elsewhere_openW h.elsewhere out) _) _ t, rfl, fun _ => by rw [put_at, put_at]⟩

theorem mod_layoutFree (env : Env α) (x y : Option α) (e : Bool) (p : Option ℤ) : LayoutFree (modPipeline env x y e p) := by
  intro t t' h h1 h2
  unfold modPipeline
  rw [(C117_load env false Home.init h h1 h2).1]

theorem arc_layoutFree (env : Env α) (tr : Trig α) : LayoutFree (arcPipeline env tr) := by
  intro t t' h h1 h2
  unfold arcPipeline
  rw [(C117_load env false Home.init h h1 h2).1]

theorem stretch_layoutFree (env : Env α) (sqrt : α → α) (fuel : ℕ) (repo : StretchRepo α) (profile : ProfileOracle α) :
    LayoutFree (stretchPipeline env sqrt fuel repo profile) := by
  intro t t' h h1 h2
  unfold stretchPipeline
  rw [(C117_load env false Home.init h h1 h2).1]

/-- C117: the command lines that write a result give the same output, the same other files and the same error for two inputs that
differ only in their layout. -/
theorem C117_filters (env : Env α) (x y : Option α) (e : Bool) (p : Option ℤ) (tr : Trig α) (sqrt : α → α) (fuel : ℕ) (repo : StretchRepo α)
    (profile : ProfileOracle α) {inp : Str} {w w' : World} (h : SameUpToLayout inp w w') (out : Option Str) :
    ∀ P ∈ [modPipeline env x y e p, arcPipeline env tr, stretchPipeline env sqrt fuel repo profile],
      SameElsewhere inp (filterMain P inp out w).1 (filterMain P inp out w').1 ∧ (filterMain P inp out w).2 = (filterMain P inp out w').2 := by
  intro P hP
  simp only [List.mem_cons, List.not_mem_nil, or_false] at hP
  rcases hP with rfl | rfl | rfl
  · exact filter_layout (mod_layoutFree env x y e p) h out
  · exact filter_layout (arc_layoutFree env tr) h out
  · exact filter_layout (stretch_layoutFree env sqrt fuel repo profile) h out

/-- C117: optimising in place and the Cura plugins leave the same file behind when they succeed. -/
theorem C117_in_place (env : Env α) (tr : Trig α) (sqrt : α → α) (fuel : ℕ) (strength : α) (profile : ProfileOracle α) (a b z s : α)
    {file : Str} {w w' : World} (h : SameUpToLayout file w w') (out : Option Str) :
    ∀ M ∈ [inplaceMain (arcPipeline env tr) file out, stretchPlugin env sqrt fuel strength profile file, tempcalPlugin env a b z s file],
      SameElsewhere file (M w).1 (M w').1 ∧ (M w).2 = (M w').2 ∧ ((M w).2 = .ok () → (M w).1.files file = (M w').1.files file) := by
  intro M hM
  simp only [List.mem_cons, List.not_mem_nil, or_false] at hM
  obtain ⟨t, t', h1, h2, h3, h4, h5⟩ := h.there
  have hl := (C117_load env false Home.init h3 h4 h5).2.2
  rcases hM with rfl | rfl | rfl
  · exact inplace_layout (arc_layoutFree env tr) h out
  · unfold stretchPlugin
    simp only [h1, h2, Option.getD_some, hl]
    split
    · exact ⟨h.elsewhere, rfl, fun k => nomatch k⟩
    · exact ⟨elsewhere_emit (elsewhere_openW h.elsewhere _) _ _, rfl, fun _ => by rw [put_at, put_at]⟩
  · unfold tempcalPlugin
    simp only [h1, h2, hl]
    split
    · exact ⟨h.elsewhere, rfl, fun k => nomatch k⟩
    · exact ⟨elsewhere_emit (elsewhere_openW h.elsewhere _) _ _, rfl, fun _ => by rw [put_at, put_at]⟩

/-- C117: the temperature command line and the report. -/
theorem C117_tempcal_report (env : Env α) (a b z : α) (continuous : Bool) (steps : Option Str) (prog sizes : Str)
    {inp : Str} {w w' : World} (h : SameUpToLayout inp w w') (out : Option Str) :
    ∀ M ∈ [tempcalMain env a b z continuous steps inp out, reportMain env prog sizes (some inp)],
      SameElsewhere inp (M w).1 (M w').1 ∧ (M w).2 = (M w').2 := by
  intro M hM
  simp only [List.mem_cons, List.not_mem_nil, or_false] at hM
  obtain ⟨t, t', h1, h2, h3, h4, h5⟩ := h.there
  rcases hM with rfl | rfl
  · have e := layoutFree_at (P := fun d => (GCode.load env d : Except Err (GCode α)))
      (fun t t' k k1 k2 => (C117_load env false Home.init k k1 k2).1) h out
    unfold tempcalMain
    simp only [h1, h2, e]
    split
    · exact ⟨elsewhere_openW h.elsewhere _, rfl⟩
    · exact ⟨elsewhere_emit (elsewhere_openW h.elsewhere _) _ _, rfl⟩
  · have hl := (C117_load env false Home.init h3 h4 h5).2.2
    unfold reportMain
    have k1 : (w.emit none sizes).files inp = some t := h1
    have k2 : (w'.emit none sizes).files inp = some t' := h2
    simp only [k1, k2, hl]
    split
    · exact ⟨elsewhere_emit h.elsewhere _ _, rfl⟩
    · exact ⟨elsewhere_emit (elsewhere_emit h.elsewhere _ _) _ _, rfl⟩

/-- A program typed with indentation, blank lines and Windows line endings, and the same program without. -/
example : SameContent c!"G90\nG1 X1 ; a\nM104 S200" c!"\r\n  G90\r\n \t\r\nG1 X1 ; a \r\n\r\nM104 S200\r\n" :=
  ⟨[c!"G90", c!"G1 X1 ; a", c!"M104 S200"],
   ⟨[c!"G90", c!"G1 X1 ; a", c!"M104 S200"], by decide +kernel, by decide +kernel,
    .line (strip_isStrip _) (by decide) (.line (strip_isStrip c!"G1 X1 ; a") (by decide) (.line (strip_isStrip c!"M104 S200") (by decide) .nil))⟩,
   ⟨[c!"\r", c!"  G90\r", c!" \t\r", c!"G1 X1 ; a \r", c!"\r", c!"M104 S200\r", c!""], by decide +kernel, by decide +kernel,
    .blank (by decide) (.line (strip_isStrip c!"  G90\r") (by decide) (.blank (by decide) (.line (strip_isStrip c!"G1 X1 ; a \r") (by decide)
      (.blank (by decide) (.line (strip_isStrip c!"M104 S200\r") (by decide) (.blank (by decide) .nil))))))⟩⟩

/-- The empty text has the same (no) lines as a text with one blank line, but the list of its lines is empty, and a program made
from the empty list is not analysed: it has no duration, while the other has duration zero. -/
theorem C117_empty_refuted : ∃ text text' : Str, SameContent text text' ∧
    (GCode.load qEnv (readlines text)).map (fun g => g.duration) ≠ (GCode.load qEnv (readlines text')).map (fun g => g.duration) :=
  ⟨c!"", c!"\n", ⟨[], ⟨[], by decide, by decide, .nil⟩, ⟨[[], []], by decide, by decide, .blank (by decide) (.blank (by decide) .nil)⟩⟩, by decide +kernel⟩

end GCodeUtils
