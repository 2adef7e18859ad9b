import Verif.Lemmas.Words
import Verif.Lemmas.Marks
import Verif.Lemmas.Grammar
import Verif.Lemmas.StretchRun
import Verif.Lemmas.StretchTool
import Verif.Props.Grammar
import Verif.Spec.Elsewhere

/-
  Stretching a program and the same program at another place of the bed.
-/

set_option linter.unusedSectionVars false

namespace GCodeUtils

open Spec

variable {α : Type} [Field α] [LinearOrder α] [IsStrictOrderedRing α] [FloorRing α]

/-! ### related computations -/

/-- Both fail with the same error, or both succeed with related results. -/
def SameEnd {β γ : Type} (R : β → γ → Prop) : Except Err β → Except Err γ → Prop
  | .ok a, .ok b => R a b
  | .error e, .error e' => e = e'
  | _, _ => False

theorem SameEnd.bind {β γ β' γ' : Type} {R : β → γ → Prop} {S : β' → γ' → Prop} {x : Except Err β} {y : Except Err γ} {f : β → Except Err β'}
    {g : γ → Except Err γ'} (h : SameEnd R x y) (hf : ∀ a b, R a b → SameEnd S (f a) (g b)) : SameEnd S (x >>= f) (y >>= g) := by
  cases x with
  | error e =>
    cases y with
    | error e' => exact h
    | ok b => exact h.elim
  | ok a =>
    cases y with
    | error e' => exact h.elim
    | ok b => exact hf a b h

theorem SameEnd.mono {β γ : Type} {R S : β → γ → Prop} {x : Except Err β} {y : Except Err γ} (h : SameEnd R x y) (hf : ∀ a b, R a b → S a b) :
    SameEnd S x y := by
  cases x with
  | error e =>
    cases y with
    | error e' => exact h
    | ok b => exact h.elim
  | ok a =>
    cases y with
    | error e' => exact h.elim
    | ok b => exact hf a b h

theorem SameEnd.same {β : Type} {R : β → β → Prop} (x : Except Err β) (hf : ∀ a, R a a) : SameEnd R x x := by
  cases x with
  | error e => exact rfl
  | ok a => exact hf a

/-! ### words -/

/-- A word and the same word of the shifted program. -/
inductive TokShift (dx dy : α) : Tok → Tok → Prop
  | same (t : Tok) : (∀ n, t ≠ some ('x', n)) → (∀ n, t ≠ some ('y', n)) → TokShift dx dy t t
  | x (n n' : Str) : (n = [] ↔ n' = []) → (parseFloat n' : Option α) = (parseFloat n).map (· + dx) → TokShift dx dy (some ('x', n)) (some ('x', n'))
  | y (n n' : Str) : (n = [] ↔ n' = []) → (parseFloat n' : Option α) = (parseFloat n).map (· + dy) → TokShift dx dy (some ('y', n)) (some ('y', n'))

theorem TokShift.refl (t : Tok) : TokShift (0 : α) 0 t t := by
  have e : ∀ n, (parseFloat n : Option α) = (parseFloat n).map (· + 0) := by
    intro n; simp
  cases t with
  | none => exact .same _ (by simp) (by simp)
  | some p =>
    obtain ⟨c, n⟩ := p
    by_cases hx : c = 'x'
    · subst hx; exact .x n n Iff.rfl (e n)
    by_cases hy : c = 'y'
    · subst hy; exact .y n n Iff.rfl (e n)
    exact .same _ (by simp [hx]) (by simp [hy])

/-- The arguments of a line and of the shifted line. -/
structure ArgShift (dx dy : α) (l l' : PyLine α) : Prop where
  command : l'.command = l.command
  x : l'.x = l.x.map (· + dx)
  y : l'.y = l.y.map (· + dy)
  z : l'.z = l.z
  e : l'.e = l.e
  f : l'.f = l.f
  isMove : l'.isMove = l.isMove
  relative : l'.relative = l.relative
  relativeE : l'.relativeE = l.relativeE
  extruding : l'.extruding = l.extruding

theorem ArgShift.set {dx dy : α} {l l' : PyLine α} (h : ArgShift dx dy l l') (c : Char) (v : α) (hx : c ≠ 'x') (hy : c ≠ 'y') :
    ArgShift dx dy (l.setArg c v) (l'.setArg c v) := by
  obtain ⟨h1, h2, h3, h4, h5, h6, h7, h8, h9, h10⟩ := h
  rw [setArg_fields, setArg_fields]
  constructor <;> simp only [h1, h2, h3, h4, h5, h6, h7, h8, h9, h10, if_neg hx, if_neg hy]

theorem ArgShift.setX {dx dy : α} {l l' : PyLine α} (h : ArgShift dx dy l l') (v : α) :
    ArgShift dx dy (l.setArg 'x' v) (l'.setArg 'x' (v + dx)) := by
  obtain ⟨h1, h2, h3, h4, h5, h6, h7, h8, h9, h10⟩ := h
  exact ⟨h1, rfl, h3, h4, h5, h6, h7, h8, h9, h10⟩

theorem ArgShift.setY {dx dy : α} {l l' : PyLine α} (h : ArgShift dx dy l l') (v : α) :
    ArgShift dx dy (l.setArg 'y' v) (l'.setArg 'y' (v + dy)) := by
  obtain ⟨h1, h2, h3, h4, h5, h6, h7, h8, h9, h10⟩ := h
  exact ⟨h1, h2, rfl, h4, h5, h6, h7, h8, h9, h10⟩

theorem parseTok_shift {dx dy : α} {t t' : Tok} (ht : TokShift dx dy t t') {l l' : PyLine α} (h : ArgShift dx dy l l') :
    SameEnd (ArgShift dx dy) (parseTok 1 l t) (parseTok 1 l' t') := by
  cases ht with
  | same t hx hy =>
    cases t with
    | none => exact h
    | some p =>
      obtain ⟨c, n⟩ := p
      unfold parseTok
      simp only
      by_cases hc : (!nonArgLetters.contains c && !n.isEmpty) = true
      · rw [if_pos hc, if_pos hc]
        cases (parseFloat n : Option α) with
        | none => exact rfl
        | some a =>
          refine h.set c _ ?_ ?_
          · rintro rfl; exact hx n rfl
          · rintro rfl; exact hy n rfl
      · rw [if_neg hc, if_neg hc]; exact h
  | x n n' hn hv =>
    unfold parseTok
    simp only
    by_cases he : n = []
    · have he' := hn.1 he
      subst he he'
      exact h
    · have he' : n' ≠ [] := fun k => he (hn.2 k)
      have e1 : (!nonArgLetters.contains 'x' && !n.isEmpty) = true := by
        have : nonArgLetters.contains 'x' = false := by decide
        rw [this]; simpa using he
      have e2 : (!nonArgLetters.contains 'x' && !n'.isEmpty) = true := by
        have : nonArgLetters.contains 'x' = false := by decide
        rw [this]; simpa using he'
      rw [if_pos e1, if_pos e2, hv]
      cases (parseFloat n : Option α) with
      | none => exact rfl
      | some a =>
        simp only [Option.map_some, one_mul]
        exact h.setX a
  | y n n' hn hv =>
    unfold parseTok
    simp only
    by_cases he : n = []
    · have he' := hn.1 he
      subst he he'
      exact h
    · have he' : n' ≠ [] := fun k => he (hn.2 k)
      have e1 : (!nonArgLetters.contains 'y' && !n.isEmpty) = true := by
        have : nonArgLetters.contains 'y' = false := by decide
        rw [this]; simpa using he
      have e2 : (!nonArgLetters.contains 'y' && !n'.isEmpty) = true := by
        have : nonArgLetters.contains 'y' = false := by decide
        rw [this]; simpa using he'
      rw [if_pos e1, if_pos e2, hv]
      cases (parseFloat n : Option α) with
      | none => exact rfl
      | some a =>
        simp only [Option.map_some, one_mul]
        exact h.setY a

theorem fold_shift {dx dy : α} {ts ts' : List Tok} (ht : List.Forall₂ (TokShift dx dy) ts ts') : ∀ {l l' : PyLine α}, ArgShift dx dy l l' →
    SameEnd (ArgShift dx dy) (ts.foldlM (parseTok 1) l) (ts'.foldlM (parseTok 1) l') := by
  induction ht with
  | nil => intro l l' h; exact h
  | cons hd _ ih =>
    intro l l' h
    rw [List.foldlM_cons, List.foldlM_cons]
    exact (parseTok_shift hd h).bind fun a b hab => ih hab

theorem parseCoordinates_shift {dx dy : α} {ts ts' : List Tok} (ht : List.Forall₂ (TokShift dx dy) ts ts') {l l' : PyLine α}
    (h : ArgShift dx dy l l') : SameEnd (ArgShift dx dy) (parseCoordinates l ts false) (parseCoordinates l' ts' false) := by
  unfold parseCoordinates
  rw [h.command]
  cases l.command with
  | none => exact h
  | some c =>
    simp only
    by_cases hc : c.head? ≠ some 'G'
    · rw [if_pos hc, if_pos hc]; exact h
    · rw [if_neg hc, if_neg hc]
      exact fold_shift ht h

/-- Reading words keeps X and Y that are there, and sets those that are named. -/
theorem fold_places {u : α} {ts : List Tok} : ∀ {l r : PyLine α}, ts.foldlM (parseTok u) l = .ok r →
    (l.x.isSome = true → r.x.isSome = true) ∧ (l.y.isSome = true → r.y.isSome = true) ∧
    ((∃ n, some ('x', n) ∈ ts ∧ n ≠ []) → r.x.isSome = true) ∧ ((∃ n, some ('y', n) ∈ ts ∧ n ≠ []) → r.y.isSome = true) ∧
    r.command = l.command ∧
    ((∀ n, some ('x', n) ∉ ts) → r.x = l.x) ∧ ((∀ n, some ('y', n) ∉ ts) → r.y = l.y) := by
  induction ts with
  | nil =>
    intro l r h
    simp only [List.foldlM_nil, pure, Except.pure, Except.ok.injEq] at h
    subst h
    exact ⟨id, id, by simp, by simp, rfl, fun _ => rfl, fun _ => rfl⟩
  | cons t ts ih =>
    intro l r h
    rw [List.foldlM_cons] at h
    cases hp : parseTok u l t with
    | error er => rw [hp] at h; cases h
    | ok l1 =>
      rw [hp] at h
      obtain ⟨k1, k2, k3, k4, k5, k6, k7⟩ := ih h
      have step : (l.x.isSome = true → l1.x.isSome = true) ∧ (l.y.isSome = true → l1.y.isSome = true) ∧
          (∀ n, t = some ('x', n) → n ≠ [] → l1.x.isSome = true) ∧ (∀ n, t = some ('y', n) → n ≠ [] → l1.y.isSome = true) ∧
          l1.command = l.command ∧ ((∀ n, t ≠ some ('x', n)) → l1.x = l.x) ∧ ((∀ n, t ≠ some ('y', n)) → l1.y = l.y) := by
        unfold parseTok at hp
        cases t with
        | none => cases hp; exact ⟨id, id, by simp, by simp, rfl, fun _ => rfl, fun _ => rfl⟩
        | some p =>
          obtain ⟨c, n⟩ := p
          simp only at hp
          by_cases hc : (!nonArgLetters.contains c && !n.isEmpty) = true
          · rw [if_pos hc] at hp
            cases hf : (parseFloat n : Option α) with
            | none => rw [hf] at hp; cases hp
            | some a =>
              rw [hf] at hp
              simp only [Except.ok.injEq] at hp
              subst hp
              rw [setArg_fields]
              simp only
              refine ⟨?_, ?_, ?_, ?_, trivial, ?_, ?_⟩
              · intro k; by_cases hx : c = 'x'
                · simp [hx]
                · simp [hx, k]
              · intro k; by_cases hx : c = 'y'
                · simp [hx]
                · simp [hx, k]
              · intro m hm _
                simp only [Option.some.injEq, Prod.mk.injEq] at hm
                simp [hm.1]
              · intro m hm _
                simp only [Option.some.injEq, Prod.mk.injEq] at hm
                simp [hm.1]
              · intro k
                by_cases hx : c = 'x'
                · subst hx; exact absurd rfl (k n)
                · simp [hx]
              · intro k
                by_cases hx : c = 'y'
                · subst hx; exact absurd rfl (k n)
                · simp [hx]
          · rw [if_neg hc] at hp
            cases hp
            refine ⟨id, id, ?_, ?_, rfl, fun _ => rfl, fun _ => rfl⟩
            · intro m hm hne
              simp only [Option.some.injEq, Prod.mk.injEq] at hm
              obtain ⟨rfl, rfl⟩ := hm
              refine absurd ?_ hc
              have : nonArgLetters.contains 'x' = false := by decide
              rw [this]; simpa using hne
            · intro m hm hne
              simp only [Option.some.injEq, Prod.mk.injEq] at hm
              obtain ⟨rfl, rfl⟩ := hm
              refine absurd ?_ hc
              have : nonArgLetters.contains 'y' = false := by decide
              rw [this]; simpa using hne
      obtain ⟨s1, s2, s3, s4, s5, s6, s7⟩ := step
      refine ⟨fun k => k1 (s1 k), fun k => k2 (s2 k), ?_, ?_, k5.trans s5, ?_, ?_⟩
      · rintro ⟨n, hn, hne⟩
        rcases List.mem_cons.1 hn with hn | hn
        · exact k1 (s3 n hn.symm hne)
        · exact k3 ⟨n, hn, hne⟩
      · rintro ⟨n, hn, hne⟩
        rcases List.mem_cons.1 hn with hn | hn
        · exact k2 (s4 n hn.symm hne)
        · exact k4 ⟨n, hn, hne⟩
      · intro k
        rw [k6 (fun n hn => k n (List.mem_cons_of_mem _ hn)), s6 (fun n hn => k n (by rw [hn]; simp))]
      · intro k
        rw [k7 (fun n hn => k n (List.mem_cons_of_mem _ hn)), s7 (fun n hn => k n (by rw [hn]; simp))]

/-! ### texts -/

theorem decimal_number {n : Str} {a : α} (h : Decimal n a) : ∃ sign m, n = sign ++ m ∧ (sign = [] ∨ sign = ['-'] ∨ sign = ['+']) ∧
    (∃ i dot b, m = i ++ dot ++ b ∧ IsDigits i ∧ (dot = [] ∨ dot = ['.']) ∧ IsDigits b ∧ (dot = [] → b = [])) ∧
    (sign = [] ∨ (m.head? ≠ some '-' ∧ m.head? ≠ some '+')) ∧ n ≠ [] ∧ (n.head? ≠ some '-' → n.head? ≠ some '+' → sign = []) := by
  induction h with
  | int i hi hne => exact ⟨[], i, rfl, .inl rfl, ⟨i, [], [], by simp, hi, .inl rfl, by intro c hc; simp at hc, fun _ => rfl⟩, .inl rfl, hne, fun _ _ => rfl⟩
  | point i b hi hb hne =>
    exact ⟨[], i ++ '.' :: b, rfl, .inl rfl, ⟨i, ['.'], b, by simp, hi, .inr rfl, hb, by simp⟩, .inl rfl, by simp, fun _ _ => rfl⟩
  | plus h1 h2 _ ih =>
    obtain ⟨sign, m, e, hs, hm, _, _, h0⟩ := ih
    have := h0 h1 h2
    subst this
    exact ⟨['+'], m, by rw [e]; rfl, .inr (.inr rfl), hm, .inr (by rw [e] at h1 h2; exact ⟨h1, h2⟩), by simp, by intro _ k; simp at k⟩
  | minus h1 h2 _ ih =>
    obtain ⟨sign, m, e, hs, hm, _, _, h0⟩ := ih
    have := h0 h1 h2
    subst this
    exact ⟨['-'], m, by rw [e]; rfl, .inr (.inl rfl), hm, .inr (by rw [e] at h1 h2; exact ⟨h1, h2⟩), by simp, by intro k; simp at k⟩

theorem decimal_numLen {n : Str} {a : α} (h : Decimal n a) : numLen n = n.length ∧ n ≠ [] ∧ ∀ d ∈ n, d ∈ c!"0123456789.+-" := by
  obtain ⟨sign, m, e, hs, ⟨i, dot, b, em, hi, hd, hb, hdb⟩, _, hne, _⟩ := decimal_number h
  have hnt : NumberText n [] := ⟨sign, i, dot, b, by rw [e, em]; simp, hs, hi, hd, hb, hdb, by simp⟩
  refine ⟨by simpa using numLen_spec hnt, hne, ?_⟩
  have dig : ∀ c ∈ digits, c ∈ c!"0123456789.+-" := by decide
  rw [e, em]
  intro c hc
  simp only [List.mem_append] at hc
  rcases hc with hc | (hc | hc) | hc
  · rcases hs with rfl | rfl | rfl
    · simp at hc
    · simp only [List.mem_singleton] at hc; subst hc; decide
    · simp only [List.mem_singleton] at hc; subst hc; decide
  · exact dig c (hi c hc)
  · rcases hd with rfl | rfl
    · simp at hc
    · simp only [List.mem_singleton] at hc; subst hc; decide
  · exact dig c (hb c hc)

/-- The words of a line after its line number. -/
def toksOf (r : Str) : List Tok := dropN (findall (lower r))

theorem movedWord_text {dx dy : α} {w w' : Str} (h : MovedWord dx dy w w') :
    (WordText w ∧ Bland w) ∧ (WordText w' ∧ Bland w') ∧ List.Forall₂ (TokShift dx dy) ((wordToks w).map some) ((wordToks w').map some) ∧
    (w.head? = some 'X' → ∃ n, some ('x', n) ∈ (wordToks w).map some ∧ n ≠ []) ∧
    (w.head? = some 'Y' → ∃ n, some ('y', n) ∈ (wordToks w).map some ∧ n ≠ []) := by
  have sub : ∀ c ∈ c!"0123456789.+-", c ∈ c!"GMXYZEFIJ 0123456789.+-" := by decide
  have bl : ∀ (c : Char) (n : Str), c ∈ c!"XYZEFIJ" → (∀ d ∈ n, d ∈ c!"0123456789.+-") → WordText (c :: n) ∧ Bland (c :: n) := by
    intro c n hc hn
    have h1 : ∀ c ∈ c!"XYZEFIJ", c ∈ latin ∧ c ∈ c!"GMXYZEFIJ 0123456789.+-" := by decide
    refine ⟨⟨c, n, rfl, (h1 c hc).1, hn⟩, ?_⟩
    intro d hd
    rcases List.mem_cons.1 hd with rfl | hd
    · exact (h1 _ hc).2
    · exact sub d (hn d hd)
  cases h with
  | same c n hc hn =>
    have hc' : c ∈ c!"XYZEFIJ" := by
      have : ∀ c ∈ c!"ZEFIJ", c ∈ c!"XYZEFIJ" := by decide
      exact this c hc
    have hne : c ≠ 'X' ∧ c ≠ 'Y' ∧ c.toLower ≠ 'x' ∧ c.toLower ≠ 'y' := by
      have : ∀ c ∈ c!"ZEFIJ", c ≠ 'X' ∧ c ≠ 'Y' ∧ c.toLower ≠ 'x' ∧ c.toLower ≠ 'y' := by decide
      exact this c hc
    refine ⟨bl c n hc' hn, bl c n hc' hn, ?_, by simp [hne.1], by simp [hne.2.1]⟩
    unfold wordToks
    simp only
    by_cases hw : c.toLower ∈ wordLetters
    · rw [if_pos hw]
      exact .cons (.same _ (by simp [hne.2.2.1]) (by simp [hne.2.2.2])) .nil
    · rw [if_neg hw]; exact .nil
  | x n n' a h1 h2 =>
    have k1 := decimal_numLen h1
    have k2 := decimal_numLen h2
    have hw : Char.toLower 'X' ∈ wordLetters := by decide
    have hl : Char.toLower 'X' = 'x' := by decide
    have hz : ∀ m : Str, numLen m = m.length → wordToks ('X' :: m) = [('x', m)] := by
      intro m hm
      show (if Char.toLower 'X' ∈ wordLetters then [(Char.toLower 'X', m.take (numLen m))] else []) = _
      rw [if_pos hw, hl, hm, List.take_length]
    refine ⟨bl _ n (by decide) k1.2.2, bl _ n' (by decide) k2.2.2, ?_, ?_, by simp⟩
    · rw [hz n k1.1, hz n' k2.1]
      refine .cons (.x n n' (by simp [k1.2.1, k2.2.1]) ?_) .nil
      rw [(parseFloat_iff n a).2 h1, (parseFloat_iff n' _).2 h2]; rfl
    · intro _
      rw [hz n k1.1]
      exact ⟨n, by simp, k1.2.1⟩
  | y n n' a h1 h2 =>
    have k1 := decimal_numLen h1
    have k2 := decimal_numLen h2
    have hw : Char.toLower 'Y' ∈ wordLetters := by decide
    have hl : Char.toLower 'Y' = 'y' := by decide
    have hz : ∀ m : Str, numLen m = m.length → wordToks ('Y' :: m) = [('y', m)] := by
      intro m hm
      show (if Char.toLower 'Y' ∈ wordLetters then [(Char.toLower 'Y', m.take (numLen m))] else []) = _
      rw [if_pos hw, hl, hm, List.take_length]
    refine ⟨bl _ n (by decide) k1.2.2, bl _ n' (by decide) k2.2.2, ?_, by simp, ?_⟩
    · rw [hz n k1.1, hz n' k2.1]
      refine .cons (.y n n' (by simp [k1.2.1, k2.2.1]) ?_) .nil
      rw [(parseFloat_iff n a).2 h1, (parseFloat_iff n' _).2 h2]; rfl
    · intro _
      rw [hz n k1.1]
      exact ⟨n, by simp, k1.2.1⟩

theorem written_toks {n : Str} (hn : n = ['0'] ∨ n = ['1']) (gs : List (Str × Str)) (hg : ∀ g ∈ gs, ∀ b ∈ g.1, b = ' ')
    (hw : ∀ g ∈ gs, WordText g.2 ∧ Bland g.2) :
    toksOf (written ('G' :: n) gs) = some ('g', n) :: ((gs.map Prod.snd).flatMap wordToks).map some ∧ Bland (written ('G' :: n) gs) := by
  have hg' : ∀ g ∈ gs, ∀ b ∈ g.1, b ∈ blanks := fun g h b hb => by rw [hg g h b hb]; decide
  have hcmd : WordText ('G' :: n) := ⟨'G', n, rfl, by decide, by rcases hn with rfl | rfl <;> decide⟩
  have hpl := hcmd.plain
  constructor
  · unfold toksOf findall written
    rw [lower_append, findallAux_closed (Plain.closed (Plain.lower hpl.1)) _ (NotNumeric.lower (gaps_notNumeric gs hg' (fun g h => (hw g h).1))) true 0
      (Nat.zero_le _) (lower_ne_nil hpl.2.1), gaps_toks gs hg' (fun g h => (hw g h).1), hcmd.toks]
    have : wordToks ('G' :: n) = [('g', n)] := by rcases hn with rfl | rfl <;> decide
    rw [this]
    rfl
  · unfold written
    refine Bland.append ?_ ?_
    · rcases hn with rfl | rfl <;> (unfold Bland; decide)
    · intro c hc
      rw [List.mem_flatMap] at hc
      obtain ⟨g, h1, h2⟩ := hc
      rcases List.mem_append.1 h2 with h2 | h2
      · rw [hg g h1 c h2]; decide
      · exact (hw g h1).2 c h2

theorem movedMove_toks {dx dy : α} {r r' : Str} (h : MovedMove dx dy r r') : ∃ (n hd hd' t : Str) (ts ts' : List Tok),
    (n = ['0'] ∨ n = ['1']) ∧ r = hd ++ t ∧ r' = hd' ++ t ∧ hd ≠ [] ∧ hd' ≠ [] ∧ Bland hd ∧ Bland hd' ∧ (t = [] ∨ Trailing t) ∧
    toksOf hd = some ('g', n) :: ts ∧ toksOf hd' = some ('g', n) :: ts' ∧ List.Forall₂ (TokShift dx dy) ts ts' ∧
    (∃ n, some ('x', n) ∈ ts ∧ n ≠ []) ∧ (∃ n, some ('y', n) ∈ ts ∧ n ≠ []) := by
  obtain ⟨n, gs, gs', t, hn, hg, hgs, hx, hy, ht, rfl, rfl⟩ := h
  have hw : (∀ g ∈ gs, WordText g.2 ∧ Bland g.2) ∧ (∀ g ∈ gs', WordText g.2 ∧ Bland g.2) ∧ (∀ g ∈ gs', ∀ b ∈ g.1, b = ' ') ∧
      List.Forall₂ (TokShift dx dy) (((gs.map Prod.snd).flatMap wordToks).map some) (((gs'.map Prod.snd).flatMap wordToks).map some) := by
    clear hx hy
    induction hgs with
    | nil => exact ⟨by simp, by simp, by simp, .nil⟩
    | cons h1 _ ih =>
      obtain ⟨a1, a2, a3, a4⟩ := ih (fun g h => hg g (List.mem_cons_of_mem _ h))
      obtain ⟨b1, b2, b3, _⟩ := movedWord_text h1.2
      refine ⟨?_, ?_, ?_, ?_⟩
      · intro g hm
        rcases List.mem_cons.1 hm with rfl | hm
        · exact b1
        · exact a1 g hm
      · intro g hm
        rcases List.mem_cons.1 hm with rfl | hm
        · exact b2
        · exact a2 g hm
      · intro g hm
        rcases List.mem_cons.1 hm with rfl | hm
        · rw [h1.1]; exact hg _ (by simp)
        · exact a3 g hm
      · simp only [List.map_cons, List.flatMap_cons, List.map_append]
        exact List.rel_append b3 a4
  obtain ⟨w1, w2, w3, w4⟩ := hw
  obtain ⟨k1, k2⟩ := written_toks hn gs hg w1
  obtain ⟨k1', k2'⟩ := written_toks hn gs' w3 w2
  have tail : t = [] ∨ Trailing t := by
    rcases ht with ht | ⟨sp, c, rfl, h1, h2⟩
    · exact .inl ht
    · refine .inr ⟨⟨sp, c, rfl, fun b hb => by rcases h1 b hb with rfl | rfl <;> decide⟩, ?_⟩
      intro d hd
      rcases List.mem_append.1 hd with hd | hd
      · rcases h1 d hd with rfl | rfl <;> decide
      · rcases List.mem_cons.1 hd with rfl | hd
        · decide
        · exact h2 d hd
  have find : ∀ (k k' : Char), (∀ g g' : Str × Str, MovedWord dx dy g.2 g'.2 → g.2.head? = some k → ∃ n, some (k', n) ∈ (wordToks g.2).map some ∧ n ≠ []) →
      (∃ g ∈ gs, g.2.head? = some k) → ∃ n, some (k', n) ∈ ((gs.map Prod.snd).flatMap wordToks).map some ∧ n ≠ [] := by
    rintro k k' hk ⟨g, hm, hh⟩
    obtain ⟨g', _, hw⟩ : ∃ g' : Str × Str, True ∧ MovedWord dx dy g.2 g'.2 := by
      clear hx hy w1 w2 w3 w4 k1 k2 k1' k2' hg
      induction hgs with
      | nil => simp at hm
      | cons h1 _ ih =>
        rcases List.mem_cons.1 hm with rfl | hm
        · exact ⟨_, trivial, h1.2⟩
        · exact ih hm
    obtain ⟨m, h1, h2⟩ := hk g g' hw hh
    refine ⟨m, ?_, h2⟩
    rw [List.mem_map] at h1 ⊢
    obtain ⟨p, h3, h4⟩ := h1
    exact ⟨p, List.mem_flatMap.2 ⟨g.2, List.mem_map.2 ⟨g, hm, rfl⟩, h3⟩, h4⟩
  exact ⟨n, _, _, t, _, _, hn, rfl, rfl, by simp [written], by simp [written], k2, k2', tail, k1, k1', w4,
    find 'X' 'x' (fun g g' hw => (movedWord_text hw).2.2.2.1) hx, find 'Y' 'y' (fun g g' hw => (movedWord_text hw).2.2.2.2) hy⟩

theorem toksOf_marks {r s : Str} (hs : s = [] ∨ Trailing s) (hr : ¬ Nested r) (hn : '\n' ∉ r) :
    ∃ j, toksOf (r ++ s) = toksOf r ++ List.replicate j none := by
  rcases hs with rfl | hs
  · exact ⟨0, by simp⟩
  · obtain ⟨j, hj⟩ := findall_trailing hs hr hn
    refine ⟨j, ?_⟩
    unfold toksOf
    rw [hj]
    generalize findall (lower r) = T
    cases T with
    | nil => cases j <;> rfl
    | cons t ts =>
      cases t with
      | none => rfl
      | some p =>
        obtain ⟨c, v⟩ := p
        simp only [List.cons_append, dropN]
        split_ifs <;> rfl

theorem Bland.clean {h : Str} (hb : Bland h) : ¬ Nested h ∧ '\n' ∉ h := by
  constructor
  · rintro ⟨h1, _⟩
    have := hb '(' (List.mem_of_head? h1)
    revert this; decide
  · intro hc
    have := hb _ hc
    revert this; decide

theorem hasSub_bland {h t : Str} (hb : Bland h) {c : Char} {ps : Str} (hc : c ∉ c!"GMXYZEFIJ 0123456789.+-") :
    hasSub (c :: ps) (h ++ t) = hasSub (c :: ps) t := by
  induction h with
  | nil => rfl
  | cons d h ih =>
    rw [List.cons_append]
    conv_lhs => unfold hasSub
    rw [ih (fun x hx => hb x (List.mem_cons_of_mem _ hx))]
    have : (c :: ps).isPrefixOf (d :: (h ++ t)) = false := by
      simp only [List.isPrefixOf, Bool.and_eq_false_iff, beq_eq_false_iff_ne]
      left
      rintro rfl
      exact hc (hb _ (by simp))
    rw [this, Bool.false_or]

/-! ### lines -/

/-- The command of a line, as far as marks can change it. -/
def CmdOf (r : Str) (c : Option Str) : Prop :=
  match toksOf r with
  | [] => c = none ∨ ∃ s, Marks s ∧ c = some (r ++ s)
  | none :: _ => c = none
  | some w :: _ => c = some (w.1.toUpper :: w.2)

/-- A line and the same line of the shifted program, possibly with marks. -/
inductive Shift (dx dy : α) (l l' : PyLine α) : Prop
  | kept (r s : Str) : l.raw = r ++ s → l'.raw = r ++ s → Marks s → ¬ Nested r → '\n' ∉ r → Placeless r → CmdOf r l.command →
      ArgShift 0 0 l l' → ¬ XYMove l → Shift dx dy l l'
  | moved (n hd hd' t : Str) (ts ts' : List Tok) : (n = ['0'] ∨ n = ['1']) → l.raw = hd ++ t → l'.raw = hd' ++ t → hd ≠ [] → hd' ≠ [] →
      Bland hd → Bland hd' → (t = [] ∨ Trailing t) → toksOf hd = some ('g', n) :: ts → toksOf hd' = some ('g', n) :: ts' →
      List.Forall₂ (TokShift dx dy) ts ts' → ArgShift dx dy l l' → l.command = some ('G' :: n) → l.x.isSome = true → l.y.isSome = true → Shift dx dy l l'

theorem placeless_toks {r : Str} (h : Placeless r) {n : Str} {ts : List Tok} (ht : toksOf r = some ('g', n) :: ts) (hn : n = ['0'] ∨ n = ['1']) :
    ∀ m, some ('x', m) ∉ ts ∧ some ('y', m) ∉ ts := by
  obtain ⟨h1, h2⟩ := h _ ((findall_reads (lower r) _).1 rfl)
  have hd : ∀ t ∈ ts, t ∈ findall (lower r) := by
    intro t hm
    have hm' : t ∈ toksOf r := by rw [ht]; exact List.mem_cons_of_mem _ hm
    unfold toksOf dropN at hm'
    split at hm'
    · split_ifs at hm'
      · rename_i heq _; rw [heq]; exact List.mem_cons_of_mem _ hm'
      · rename_i heq _; rw [heq]; exact hm'
    · exact hm'
  have hc : commandOf r (findall (lower r)) = some ('G' :: n) := by
    have e := C76_command (α := ℚ) r _ ((findall_reads (lower r) _).1 rfl)
    rw [← e]
    unfold rawToLine split
    unfold toksOf at ht
    rw [ht]
    rfl
  intro m
  have := h2 (by rw [hc]; rcases hn with rfl | rfl <;> simp) m
  exact ⟨fun k => this.1 (hd _ k), fun k => this.2 (hd _ k)⟩

theorem marks_noG {s : Str} (h : Marks s) {r c : Str} (hc : c = c!"G0" ∨ c = c!"G1") (he : r ++ s = c) : s = [] := by
  cases h with
  | nil => rfl
  | cons sep m s hsep hm hs =>
    exfalso
    have : ';' ∈ c := by
      rw [← he]
      rcases hsep with rfl | rfl <;> simp
    rcases hc with rfl | rfl <;> revert this <;> decide

theorem toksOf_G {r : Str} (h : toksOf r = []) {s : Str} (hs : Marks s) : r ++ s ≠ c!"G0" ∧ r ++ s ≠ c!"G1" := by
  constructor <;> intro he
  · have := marks_noG hs (.inl rfl) he
    subst this
    rw [List.append_nil] at he
    subst he
    revert h; decide
  · have := marks_noG hs (.inr rfl) he
    subst this
    rw [List.append_nil] at he
    subst he
    revert h; decide

theorem fold_nones (u : α) (ts : List Tok) (j : ℕ) (l : PyLine α) :
    (ts ++ List.replicate j none).foldlM (parseTok u) l = ts.foldlM (parseTok u) l := by
  rw [List.foldlM_append]
  have : ∀ l : PyLine α, (List.replicate j none).foldlM (parseTok u) l = .ok l := by
    induction j with
    | zero => intro l; rfl
    | succ j ih => intro l; rw [List.replicate_succ, List.foldlM_cons]; exact ih l
  cases ts.foldlM (parseTok u) l with
  | error er => rfl
  | ok a => exact this a

/-- Reading a line that starts with a G word. -/
theorem reparse_g {l : PyLine α} {n : Str} {ts : List Tok} {j : ℕ} (h : toksOf l.raw = some ('g', n) :: (ts ++ List.replicate j none)) :
    reparse l = ts.foldlM (parseTok 1) { l with command := some ('G' :: n), isMove := moveGcodes.contains ('G' :: n) } := by
  unfold reparse
  simp only
  rw [split_eq l h]
  unfold parseCoordinates
  have hG : Char.toUpper 'g' = 'G' := by decide
  simp only [hG]
  rw [if_neg (by simp), List.foldlM_cons]
  have hp : ∀ (u : α) (l0 : PyLine α), parseTok u l0 (some ('g', n)) = .ok l0 := by
    intro u l0
    unfold parseTok
    simp only
    rw [if_neg (by simp [nonArgLetters])]
  rw [hp]
  exact fold_nones _ _ _ _

theorem reparse_shift {dx dy : α} {l l' : PyLine α} (h : Shift dx dy l l') : SameEnd (Shift dx dy) (reparse l) (reparse l') := by
  cases h with
  | kept r s h1 h2 hs hn hnl hp hcmd ha hxy =>
    obtain ⟨j, hj⟩ := toksOf_marks (marks_trailing hs) hn hnl
    have refl : ∀ ts : List Tok, List.Forall₂ (TokShift (0 : α) 0) ts ts := fun ts => List.forall₂_same.2 fun t _ => TokShift.refl t
    have hsplit : (split l).2 = (split l').2 ∧ ArgShift 0 0 (split l).1 (split l').1 ∧ CmdOf r (split l).1.command ∧
        (split l).1.x = l.x ∧ (split l).1.y = l.y ∧ (split l).2 = toksOf (r ++ s) := by
      have e1 : dropN (findall (lower l.raw)) = toksOf (r ++ s) := by rw [h1]; rfl
      have e2 : dropN (findall (lower l'.raw)) = toksOf (r ++ s) := by rw [h2]; rfl
      unfold split
      rw [e1, e2]
      unfold CmdOf at hcmd ⊢
      have ha' := ha
      obtain ⟨k1, k2, k3, k4, k5, k6, k7, k8, k9, k10⟩ := ha
      rw [hj]
      cases ht : toksOf r with
      | nil =>
        rw [ht] at hcmd
        simp only [List.nil_append]
        cases j with
        | zero =>
          refine ⟨rfl, ⟨?_, k2, k3, k4, k5, k6, rfl, k8, k9, k10⟩, ?_, rfl, rfl, rfl⟩
          · simp only [List.replicate_zero]; rw [h1, h2]
          · simp only [List.replicate_zero]
            exact .inr ⟨s, hs, by rw [h1]⟩
        | succ j =>
          refine ⟨rfl, ⟨k1, k2, k3, k4, k5, k6, ?_, k8, k9, k10⟩, hcmd, rfl, rfl, rfl⟩
          simp only [List.replicate_succ, PyLine.inMoves, k1]
      | cons t ts =>
        rw [ht] at hcmd
        cases t with
        | none =>
          refine ⟨rfl, ⟨k1, k2, k3, k4, k5, k6, ?_, k8, k9, k10⟩, hcmd, rfl, rfl, rfl⟩
          simp only [List.cons_append, PyLine.inMoves, k1]
        | some w => exact ⟨rfl, ⟨rfl, k2, k3, k4, k5, k6, rfl, k8, k9, k10⟩, rfl, rfl, rfl, rfl⟩
    obtain ⟨e1, e2, e3, e4, e5, e6⟩ := hsplit
    have hpc := parseCoordinates_shift (refl (split l).2) e2
    have goal : SameEnd (fun a b => ArgShift 0 0 a b ∧ CmdOf r a.command ∧ ¬ XYMove a) (reparse l) (reparse l') := by
      unfold reparse
      simp only
      rw [← e1]
      cases hq : parseCoordinates (split l).1 (split l).2 false with
      | error er =>
        rw [hq] at hpc
        cases hq' : parseCoordinates (split l').1 (split l).2 false with
        | error er' => rw [hq'] at hpc; exact hpc
        | ok b => rw [hq'] at hpc; exact hpc.elim
      | ok a =>
        rw [hq] at hpc
        cases hq' : parseCoordinates (split l').1 (split l).2 false with
        | error er' => rw [hq'] at hpc; exact hpc.elim
        | ok b =>
          rw [hq'] at hpc
          refine ⟨hpc, ?_⟩
          unfold parseCoordinates at hq
          cases hc : (split l).1.command with
          | none =>
            rw [hc] at hq
            cases hq
            refine ⟨e3, ?_⟩
            rintro ⟨k | k, _⟩ <;> rw [hc] at k <;> cases k
          | some c =>
            rw [hc] at hq e3
            simp only at hq
            by_cases hg : c.head? ≠ some 'G'
            · rw [if_pos hg] at hq
              cases hq
              refine ⟨by rw [hc]; exact e3, ?_⟩
              rintro ⟨k | k, _⟩ <;> rw [hc] at k <;> cases k <;> exact hg rfl
            · rw [if_neg hg] at hq
              obtain ⟨_, _, _, _, f5, f6, f7⟩ := fold_places hq
              refine ⟨by rw [f5, hc]; exact e3, ?_⟩
              rintro ⟨k, hk⟩
              have k' : c = 'G' :: ['0'] ∨ c = 'G' :: ['1'] := by
                rcases k with k | k <;> rw [f5, hc] at k <;> cases k
                · exact .inl rfl
                · exact .inr rfl
              -- the text has this command as its first word
              unfold CmdOf at e3 hcmd
              cases ht : toksOf r with
              | nil =>
                rw [ht] at e3
                rcases e3 with e3 | ⟨s', hs', e3⟩
                · cases e3
                · simp only [Option.some.injEq] at e3
                  have := toksOf_G ht hs'
                  rw [← e3] at this
                  rcases k' with k' | k' <;> subst k'
                  · exact this.1 rfl
                  · exact this.2 rfl
              | cons t ts =>
                rw [ht] at e3 hcmd
                cases t with
                | none => cases e3
                | some w =>
                  simp only [Option.some.injEq] at e3 hcmd
                  obtain ⟨wc, wn⟩ := w
                  have hwg : wc = 'g' ∧ (wn = ['0'] ∨ wn = ['1']) := by
                    have hmem : wc ∈ letters := by
                      have hr := (findall_reads (lower r) _).1 rfl
                      apply reads_letters hr wc wn
                      have : some (wc, wn) ∈ toksOf r := by rw [ht]; simp
                      unfold toksOf dropN at this
                      split at this
                      · split_ifs at this
                        · rename_i heq _; rw [heq]; exact List.mem_cons_of_mem _ this
                        · rename_i heq _; rw [heq]; exact this
                      · exact this
                    have hup : wc.toUpper = 'G' ∧ (wn = ['0'] ∨ wn = ['1']) := by
                      rcases k' with k' | k' <;> rw [k'] at e3 <;> simp only [List.cons.injEq] at e3
                      · exact ⟨e3.1.symm, .inl e3.2.symm⟩
                      · exact ⟨e3.1.symm, .inr e3.2.symm⟩
                    have hall : ∀ c ∈ letters, c.toUpper = 'G' → c = 'g' := by decide
                    exact ⟨hall wc hmem hup.1, hup.2⟩
                  obtain ⟨rfl, hwn⟩ := hwg
                  have hno := placeless_toks hp ht hwn
                  have hlx : l.x = none ∧ l.y = none := by
                    by_contra hne
                    apply hxy
                    refine ⟨?_, ?_⟩
                    · rw [hcmd]
                      rcases hwn with rfl | rfl
                      · left; rfl
                      · right; rfl
                    · by_cases hx : l.x = none
                      · right; intro hy; exact hne ⟨hx, hy⟩
                      · left; exact hx
                  have hin : ∀ c m, c = 'x' ∨ c = 'y' → some (c, m) ∉ (split l).2 := by
                    intro c m hcm hm
                    rw [e6, hj, ht] at hm
                    simp only [List.cons_append, List.mem_cons, List.mem_append, Option.some.injEq, Prod.mk.injEq] at hm
                    rcases hm with hm | hm | hm
                    · rcases hcm with rfl | rfl <;> exact absurd hm.1 (by decide)
                    · rcases hcm with rfl | rfl
                      · exact (hno m).1 hm
                      · exact (hno m).2 hm
                    · have := List.eq_of_mem_replicate hm
                      cases this
                  rw [f6 (fun m => hin 'x' m (.inl rfl)), f7 (fun m => hin 'y' m (.inr rfl)), e4, e5, hlx.1, hlx.2] at hk
                  rcases hk with hk | hk <;> exact hk rfl
    revert goal
    cases hq : reparse l with
    | error er => cases hq' : reparse l' <;> exact id
    | ok a =>
      cases hq' : reparse l' with
      | error er => exact id
      | ok b =>
        rintro ⟨g1, g2, g3⟩
        exact .kept r s (by rw [reparse_raw hq, h1]) (by rw [reparse_raw hq', h2]) hs hn hnl hp g2 g1 g3
  | moved n hd hd' t ts ts' hn h1 h2 hne hne' hb hb' ht ht1 ht2 hts ha hcmd hx hy =>
    obtain ⟨j, hj⟩ := toksOf_marks ht hb.clean.1 hb.clean.2
    obtain ⟨j', hj'⟩ := toksOf_marks ht hb'.clean.1 hb'.clean.2
    rw [ht1, List.cons_append, ← h1] at hj
    rw [ht2, List.cons_append, ← h2] at hj'
    have hr := reparse_g hj
    have hr' := reparse_g hj'
    have hf := fold_shift hts (l := { l with command := some ('G' :: n), isMove := moveGcodes.contains ('G' :: n) })
      (l' := { l' with command := some ('G' :: n), isMove := moveGcodes.contains ('G' :: n) })
      ⟨rfl, ha.x, ha.y, ha.z, ha.e, ha.f, rfl, ha.relative, ha.relativeE, ha.extruding⟩
    rw [← hr, ← hr'] at hf
    revert hf
    cases hq : reparse l with
    | error er => cases hq' : reparse l' <;> exact id
    | ok a =>
      cases hq' : reparse l' with
      | error er => exact id
      | ok b =>
        intro hab
        rw [hq] at hr
        obtain ⟨f1, f2, _, _, f5, _⟩ := fold_places hr.symm
        exact .moved n hd hd' t ts ts' hn (by rw [reparse_raw hq, h1]) (by rw [reparse_raw hq', h2]) hne hne' hb hb' ht ht1 ht2 hts hab f5 (f1 hx) (f2 hy)

end GCodeUtils
