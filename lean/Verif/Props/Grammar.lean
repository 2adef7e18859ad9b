import Verif.Lemmas.Grammar
import Verif.Lemmas.Process
import Verif.Props.Common

/-
  C76: how lines of text are read.
-/

set_option linter.unusedSectionVars false

namespace GCodeUtils

open Spec

variable {α : Type} [Field α] [LinearOrder α] [IsStrictOrderedRing α] [FloorRing α]

/-- Every text can be read in exactly one way. -/
theorem C76_unique (s : Str) : ∃ ws, Reads letters true s ws ∧ ∀ ws', Reads letters true s ws' → ws' = ws := by
  refine ⟨findall s, (findall_reads s _).1 rfl, fun ws' h => ?_⟩
  exact ((findall_reads s ws').2 h).symm

/-- C76, the command: the first word after the line number, unless a comment comes first. -/
theorem C76_command (raw : Str) (ws : List (Option (Char × Str))) (h : Reads letters true (lower raw) ws) :
    (rawToLine raw : PyLine α).command = commandOf raw ws := by
  have hf := (findall_reads _ _).2 h
  unfold rawToLine split commandOf
  simp only [hf]
  have e : dropN ws = afterNumber ws := by
    unfold dropN afterNumber
    split
    · rename_i c v rest
      by_cases hc : c = 'n'
      · subst hc; simp
      · rw [if_neg hc]
        split
        · rename_i h; simp only [List.cons.injEq, Option.some.injEq, Prod.mk.injEq] at h; exact absurd h.1.1 hc
        · rfl
    · rename_i hx
      split
      · exact absurd rfl (hx _ _ _)
      · rfl
  rw [e]
  cases afterNumber ws with
  | nil => rfl
  | cons t rest =>
    cases t with
    | none => rfl
    | some p => rfl

/-- The field of an argument letter. -/
def argField (l : PyLine α) (k : Char) : Option α :=
  if k = 'x' then l.x else if k = 'y' then l.y else if k = 'z' then l.z else if k = 'e' then l.e else if k = 'f' then l.f
  else if k = 'i' then l.i else if k = 'j' then l.j else none

/-- The argument letters. -/
def argLetters : List Char := c!"xyzefij"

theorem argField_set (l : PyLine α) {c k : Char} (v : α) (hc : c ∈ argLetters) (hk : k ∈ argLetters) :
    argField (l.setArg c v) k = if c = k then some v else argField l k := by
  unfold argLetters at hc hk
  simp only [List.mem_cons, List.not_mem_nil, or_false] at hc hk
  rcases hc with rfl | rfl | rfl | rfl | rfl | rfl | rfl <;> rcases hk with rfl | rfl | rfl | rfl | rfl | rfl | rfl <;> rfl

theorem letters_split {c : Char} (h : c ∈ letters) : (c ∈ argLetters ∧ nonArgLetters.contains c = false) ∨ (c ∉ argLetters ∧ nonArgLetters.contains c = true) := by
  unfold letters at h
  simp only [List.mem_cons, List.not_mem_nil, or_false] at h
  rcases h with rfl | rfl | rfl | rfl | rfl | rfl | rfl | rfl | rfl | rfl | rfl <;> decide

theorem setArg_keeps (l : PyLine α) (c : Char) (v : α) : (l.setArg c v).command = l.command ∧ (l.setArg c v).raw = l.raw := by
  unfold PyLine.setArg
  split_ifs <;> exact ⟨rfl, rfl⟩

/-- What the coordinate words of a line do. -/
theorem fold_args {u : α} {l0 : PyLine α} (h0 : ∀ k, argField l0 k = none) (ws : List Tok) (hl : ∀ c n, some (c, n) ∈ ws → c ∈ letters) :
    (∃ l, ws.foldlM (parseTok u) l0 = .ok l ∧ l.command = l0.command ∧ l.raw = l0.raw ∧ (∀ k ∈ argLetters, ArgOf u ws k (argField l k)) ∧
      ∀ c n, some (c, n) ∈ ws → c ∈ argLetters → n ≠ [] → ∃ v : α, Decimal n v) ∨
    (ws.foldlM (parseTok u) l0 = .error .valueError ∧ ∃ c n, some (c, n) ∈ ws ∧ c ∈ argLetters ∧ n ≠ [] ∧ ∀ v : α, ¬ Decimal n v) := by
  induction ws using List.reverseRecOn with
  | nil =>
    left
    refine ⟨l0, rfl, rfl, rfl, fun k _ => .inl ⟨by simp, h0 k⟩, by simp⟩
  | append_singleton ws t ih =>
    have hl' : ∀ c n, some (c, n) ∈ ws → c ∈ letters := fun c n h => hl c n (by simp [h])
    rcases ih hl' with ⟨l, hf, hcmd, hraw, harg, hall⟩ | ⟨hf, c, n, h1, h2, h3, h4⟩
    · have e : (ws ++ [t]).foldlM (parseTok u) l0 = parseTok u l t := by
        rw [List.foldlM_append, hf]
        show ([t].foldlM (parseTok u) l) = _
        simp
      rw [e]
      have keep : ∀ k, (∀ n, t = some (k, n) → n = []) → ∀ v, ArgOf u ws k v → ArgOf u (ws ++ [t]) k v := by
        intro k ht v hv
        rcases hv with ⟨h1, h2⟩ | ⟨a, n, b, w, h1, h2, h3, h4⟩
        · refine .inl ⟨fun n hn => ?_, h2⟩
          rcases List.mem_append.1 hn with hn | hn
          · exact h1 n hn
          · exact ht n (List.mem_singleton.1 hn).symm
        · refine .inr ⟨a, n, b ++ [t], w, by rw [h1]; simp, h2, fun n' hn => ?_, h4⟩
          rcases List.mem_append.1 hn with hn | hn
          · exact h3 n' hn
          · exact ht n' (List.mem_singleton.1 hn).symm
      have same : parseTok u l t = .ok l → (∀ c n, t = some (c, n) → c ∈ argLetters → n = []) →
          ∃ l', parseTok u l t = .ok l' ∧ l'.command = l0.command ∧ l'.raw = l0.raw ∧ (∀ k ∈ argLetters, ArgOf u (ws ++ [t]) k (argField l' k)) ∧
          ∀ c n, some (c, n) ∈ ws ++ [t] → c ∈ argLetters → n ≠ [] → ∃ v : α, Decimal n v := by
        intro hp ht
        refine ⟨l, hp, hcmd, hraw, fun k hk => keep k (fun n hn => ht k n hn hk) _ (harg k hk), ?_⟩
        intro c n hm hc hn
        rcases List.mem_append.1 hm with hm | hm
        · exact hall c n hm hc hn
        · exact absurd (ht c n (List.mem_singleton.1 hm).symm hc) hn
      cases t with
      | none => exact .inl (same rfl (by simp))
      | some p =>
        obtain ⟨c, n⟩ := p
        by_cases hn : n = []
        · subst hn
          refine .inl (same (by simp [parseTok]) (by simp))
        rcases letters_split (hl c n (by simp)) with ⟨hc, hnc⟩ | ⟨hc, hnc⟩
        · have hp : parseTok u l (some (c, n)) = match (parseFloat n : Option α) with | some a => .ok (l.setArg c (u * a)) | none => .error .valueError := by
            have : (!nonArgLetters.contains c && !n.isEmpty) = true := by
              rw [hnc]; simpa using hn
            unfold parseTok
            simp only
            rw [if_pos this]
            rfl
          cases hv : (parseFloat n : Option α) with
          | some v =>
            rw [hv] at hp
            simp only at hp
            left
            have hd : Decimal n v := (parseFloat_iff n v).1 hv
            refine ⟨_, hp, (setArg_keeps l c _).1.trans hcmd, (setArg_keeps l c _).2.trans hraw, fun k hk => ?_, ?_⟩
            · rw [argField_set l _ hc hk]
              by_cases hck : c = k
              · subst hck
                rw [if_pos rfl]
                exact .inr ⟨ws, n, [], v, rfl, hn, by simp, hd, rfl⟩
              · rw [if_neg hck]
                refine keep k (fun n' hn' => ?_) _ (harg k hk)
                simp only [Option.some.injEq, Prod.mk.injEq] at hn'
                exact absurd hn'.1 hck
            · intro c' n' hm hc' hn'
              rcases List.mem_append.1 hm with hm | hm
              · exact hall c' n' hm hc' hn'
              · simp only [List.mem_singleton, Option.some.injEq, Prod.mk.injEq] at hm
                rw [hm.2]
                exact ⟨v, hd⟩
          | none =>
            rw [hv] at hp
            right
            refine ⟨hp, c, n, by simp, hc, hn, fun v hd => ?_⟩
            rw [(parseFloat_iff n v).2 hd] at hv
            cases hv
        · refine .inl (same ?_ (fun c' n' he hc' => ?_))
          · have : (!nonArgLetters.contains c && !n.isEmpty) = false := by rw [hnc]; rfl
            unfold parseTok
            simp only
            rw [if_neg (by rw [this]; decide)]
          · simp only [Option.some.injEq, Prod.mk.injEq] at he
            rw [← he.1] at hc'
            exact absurd hc' hc
    · right
      refine ⟨?_, c, n, by simp [h1], h2, h3, h4⟩
      rw [List.foldlM_append, hf]
      rfl

theorem reads_letters {L : List Char} {b : Bool} {s : Str} {ws : List Tok} (h : Reads L b s ws) : ∀ c n, some (c, n) ∈ ws → c ∈ L := by
  induction h with
  | done => simp
  | paren t _ _ ih => intro c n hm; simpa using ih c n (by simpa using hm)
  | whole => simp
  | semicolon t _ _ _ ih => intro c n hm; exact ih c n (by simpa using hm)
  | slash c t _ _ _ ih => intro c n hm; exact ih c n (by simpa using hm)
  | word c n hc _ _ ih =>
    intro c' n' hm
    rcases List.mem_cons.1 hm with hm | hm
    · simp only [Option.some.injEq, Prod.mk.injEq] at hm
      rw [hm.1]; exact hc
    · exact ih c' n' hm
  | other c _ _ _ _ _ _ ih => exact ih

theorem afterNumber_eq (ws : List Tok) : dropN ws = afterNumber ws := by
  unfold dropN afterNumber
  split
  · rename_i c v rest
    by_cases hc : c = 'n'
    · subst hc; simp
    · rw [if_neg hc]
      split
      · rename_i h; simp only [List.cons.injEq, Option.some.injEq, Prod.mk.injEq] at h; exact absurd h.1.1 hc
      · rfl
  · rename_i hx
    split
    · exact absurd rfl (hx _ _ _)
    · rfl

theorem split_toks (raw : Str) : (split ({ raw := raw } : PyLine α)).2 = dropN (findall (lower raw)) ∧ (split ({ raw := raw } : PyLine α)).1.raw = raw ∧
    ∀ k, argField (split ({ raw := raw } : PyLine α)).1 k = none := by
  have h0 : ∀ k, argField ({ raw := raw } : PyLine α) k = none := by
    intro k; unfold argField; split_ifs <;> rfl
  unfold split
  simp only
  cases dropN (findall (lower raw)) with
  | nil => exact ⟨rfl, rfl, h0⟩
  | cons t rest =>
    cases t with
    | none => exact ⟨rfl, rfl, h0⟩
    | some p => exact ⟨rfl, rfl, h0⟩

theorem parse_other {l : PyLine α} {toks : List Tok} {b : Bool} (h : l.command.bind (·.head?) ≠ some 'G') : parseCoordinates l toks b = .ok l := by
  unfold parseCoordinates
  cases hc : l.command with
  | none => rfl
  | some c =>
    rw [hc] at h
    exact if_pos h

theorem parse_g {l : PyLine α} {toks : List Tok} {b : Bool} (h : l.command.bind (·.head?) = some 'G') :
    parseCoordinates l toks b = toks.foldlM (parseTok (if b then 254 / 10 else 1)) l := by
  unfold parseCoordinates
  cases hc : l.command with
  | none => rw [hc] at h; cases h
  | some c =>
    rw [hc] at h
    exact if_neg (by simpa using h)

/-- C76, the arguments: if every number can be read, each argument is that of the last word with its letter and a number, for G
commands; no other line has arguments.  Otherwise, `ValueError`. -/
theorem C76_arguments (raw : Str) (ws : List (Option (Char × Str))) (h : Reads letters true (lower raw) ws) (imperial : Bool) :
    let u : α := if imperial then 254 / 10 else 1
    let p : Except Err (PyLine α) := parseCoordinates (split ({ raw := raw } : PyLine α)).1 (split ({ raw := raw } : PyLine α)).2 imperial
    let cmd := commandOf raw ws
    ((cmd.bind (·.head?) ≠ some 'G' → ∃ l, p = .ok l ∧ l.command = cmd ∧ l.raw = raw ∧ ∀ k, argField l k = none) ∧
      (cmd.bind (·.head?) = some 'G' →
        (∃ l, p = .ok l ∧ l.command = cmd ∧ l.raw = raw ∧ (∀ k ∈ argLetters, ArgOf u (afterNumber ws) k (argField l k)) ∧
          ∀ c n, some (c, n) ∈ afterNumber ws → c ∈ argLetters → n ≠ [] → ∃ v : α, Decimal n v) ∨
        (p = .error .valueError ∧ ∃ c n, some (c, n) ∈ afterNumber ws ∧ c ∈ argLetters ∧ n ≠ [] ∧ ∀ v : α, ¬ Decimal n v))) := by
  intro u p cmd
  have hc : (split ({ raw := raw } : PyLine α)).1.command = cmd := C76_command raw ws h
  obtain ⟨h1, h2, h3⟩ := split_toks (α := α) raw
  have hf := (findall_reads _ _).2 h
  rw [hf, afterNumber_eq] at h1
  have hl : ∀ c n, some (c, n) ∈ afterNumber ws → c ∈ letters := by
    intro c n hm
    apply reads_letters h c n
    rw [← afterNumber_eq] at hm
    unfold dropN at hm
    split at hm
    · split at hm
      · exact List.mem_cons_of_mem _ hm
      · exact hm
    · exact hm
  constructor
  · intro hg
    exact ⟨_, parse_other (by rw [hc]; exact hg), hc, h2, h3⟩
  · intro hg
    have hp : p = (afterNumber ws).foldlM (parseTok u) (split { raw := raw }).1 := (parse_g (by rw [hc]; exact hg)).trans (by rw [h1])
    rw [hp]
    rcases fold_args (u := u) h3 (afterNumber ws) hl with ⟨l, e1, e2, e3, e4, e5⟩ | he
    · exact .inl ⟨l, e1, by rw [e2, hc], by rw [e3, h2], e4, e5⟩
    · exact .inr he

/-- C76, single letters (`S`, `P`): the number of the first word with the letter, in the case given. -/
theorem C76_letter (code : Char) (hc : code ∉ c!"(;/*") (raw : Str) (ws : List (Option (Char × Str))) (h : Reads [code] false raw ws) :
    (findSpecificCode raw code = .ok (none : Option α) ↔ ∀ n, some (code, n) ∉ ws) ∧
    (∀ v : α, findSpecificCode raw code = .ok (some v) ↔ ∃ a n b, ws = a ++ some (code, n) :: b ∧ (∀ t ∈ a, t = none) ∧ Decimal n v) := by
  have hf := reads_specific hc h rfl
  have hl := reads_letters h
  have hsplit : (ws.filterMap id = [] ∧ ∀ t ∈ ws, t = none) ∨ ∃ a n b, ws = a ++ some (code, n) :: b ∧ (∀ t ∈ a, t = none) ∧
      ws.filterMap id = (code, n) :: b.filterMap id := by
    clear hf h
    induction ws with
    | nil => exact .inl ⟨rfl, by simp⟩
    | cons t ws ih =>
      cases t with
      | none =>
        rcases ih (fun c n hm => hl c n (List.mem_cons_of_mem _ hm)) with ⟨h1, h2⟩ | ⟨a, n, b, h1, h2, h3⟩
        · exact .inl ⟨by simpa using h1, by simpa using h2⟩
        · exact .inr ⟨none :: a, n, b, by rw [h1]; rfl, by simpa using h2, by simpa using h3⟩
      | some p =>
        obtain ⟨c, n⟩ := p
        have : c = code := by simpa using hl c n List.mem_cons_self
        subst this
        exact .inr ⟨[], n, ws, rfl, by simp, by simp⟩
  unfold findSpecificCode
  rw [hf]
  rcases hsplit with ⟨h1, h2⟩ | ⟨a, n, b, h1, h2, h3⟩
  · rw [h1]
    simp only [List.map_nil, true_iff]
    constructor
    · intro n hm; cases h2 _ hm
    · intro v
      constructor
      · intro hx; cases hx
      · rintro ⟨a, n, b, e, _, _⟩
        cases h2 (some (code, n)) (by rw [e]; simp)
  · rw [h3]
    simp only [List.map_cons]
    constructor
    · constructor
      · intro hx
        cases hv : (parseFloat n : Option α) with
        | none => rw [hv] at hx; cases hx
        | some v => rw [hv] at hx; cases hx
      · intro hx; exact absurd (by rw [h1]; simp) (hx n)
    · intro v
      constructor
      · intro hx
        cases hv : (parseFloat n : Option α) with
        | none => rw [hv] at hx; cases hx
        | some w =>
          rw [hv] at hx
          simp only [Except.ok.injEq, Option.some.injEq] at hx
          subst hx
          exact ⟨a, n, b, h1, h2, (parseFloat_iff n w).1 hv⟩
      · rintro ⟨a', n', b', e, ha', hd⟩
        have : n' = n := by
          have e3 : ws.filterMap id = (code, n') :: b'.filterMap id := by
            rw [e, List.filterMap_append]
            have : a'.filterMap id = [] := by
              rw [List.filterMap_eq_nil_iff]; intro t ht; rw [ha' t ht]; rfl
            rw [this]; simp
          rw [h3] at e3
          simp only [List.cons.injEq, Prod.mk.injEq, true_and] at e3
          exact e3.1.symm
        rw [this] at hd
        rw [(parseFloat_iff n v).2 hd]

theorem stepPos_imperial (home : Home α) (m : Machine α) (l : PyLine α) (cmd : Str) : (stepPos home m l cmd).imperial = m.imperial := by
  unfold stepPos
  simp only
  repeat' split
  all_goals rfl

theorem after_letters {s : Str} {ws : List Tok} (h : Reads letters true s ws) : ∀ c n, some (c, n) ∈ afterNumber ws → c ∈ letters := by
  intro c n hm
  apply reads_letters h c n
  rw [← afterNumber_eq] at hm
  unfold dropN at hm
  split at hm
  · split at hm
    · exact List.mem_cons_of_mem _ hm
    · exact hm
  · exact hm

/-- C76, a line of a program: command and arguments of the line after it was processed, in millimetres. -/
theorem C76_line (home : Home α) {m m' : Machine α} {raw : Str} {l : PyLine α} (hp : processLine home m { raw := raw } = .ok (m', l))
    (ws : List (Option (Char × Str))) (h : Reads letters true (lower raw) ws) :
    l.raw = raw ∧ l.command = commandOf raw ws ∧
    ((commandOf raw ws).bind (·.head?) ≠ some 'G' → ∀ k ∈ argLetters, argField l k = none) ∧
    ((commandOf raw ws).bind (·.head?) = some 'G' → ∀ k ∈ argLetters, ArgOf (if m'.imperial then 254 / 10 else 1) (afterNumber ws) k (argField l k)) := by
  have hk := processLine_keeps hp
  have hc : (split ({ raw := raw } : PyLine α)).1.command = commandOf raw ws := C76_command raw ws h
  obtain ⟨s1, s2, s3⟩ := split_toks (α := α) raw
  rw [(findall_reads _ _).2 h, afterNumber_eq] at s1
  refine ⟨hk.1, hk.2.1.trans hc, ?_⟩
  rcases processLine_ok hp with ⟨hn, _, rfl⟩ | ⟨cmd, hcmd, hne, m1, l1, l2, m3, l3, h1, h2, h3, rfl, rfl⟩
  · refine ⟨fun _ k _ => s3 k, fun hg => ?_⟩
    rw [← hc] at hg
    rcases hn with hn | hn <;> rw [hn] at hg <;> cases hg
  · have hcc : commandOf raw ws = some cmd := hc.symm.trans hcmd
    have a1 : ∀ k, argField l1 k = none := by
      intro k
      rcases stepModes_shape h1 with ⟨_, _, rfl⟩ | ⟨_, rfl, _⟩
      · exact s3 k
      · exact s3 k
    have c1 : l1.command = some cmd := by
      rcases stepModes_shape h1 with ⟨_, _, rfl⟩ | ⟨_, rfl, _⟩
      · exact hcmd
      · exact hcmd
    obtain ⟨te, ce, me, oe, ex, h4⟩ := stepExtrusion_shape (stepPos home m1 l2 cmd) (stamp (stepPos home m1 l2 cmd) l2) cmd
    rw [h4] at h3
    simp only [Prod.mk.injEq] at h3
    have a3 : ∀ k, argField { l3 with currentE := some m'.currentE } k = argField l2 k := by
      intro k; rw [← h3.2]; rfl
    have i3 : m'.imperial = m1.imperial := by rw [← h3.1]; exact stepPos_imperial home m1 l2 cmd
    rw [hcc, i3]
    constructor
    · intro hg k _
      replace hg : ¬ cmd.head? = some 'G' := hg
      rw [if_neg hg] at h2
      cases h2
      rw [a3]; exact a1 k
    · intro hg k hk
      replace hg : cmd.head? = some 'G' := hg
      rw [a3]
      rw [if_pos hg, parse_g (by rw [c1]; exact hg), s1] at h2
      rcases fold_args (u := if m1.imperial then 254 / 10 else 1) a1 (afterNumber ws) (after_letters h) with ⟨l', e1, _, _, e4, _⟩ | ⟨he, _⟩
      · rw [e1] at h2
        cases h2
        exact e4 k hk
      · rw [he] at h2
        cases h2

/-- C76, numbers. -/
theorem C76_number (s : Str) (v : α) : parseFloat s = some v ↔ Decimal s v := parseFloat_iff s v

/-! Non-vacuity: a line with a line number, comments of every kind, repeated words and an odd number. -/

example : Reads letters true (lower c!"N7 G1 X-1.5 (a) Y.25E X+2 ; (b) Z9") [some ('n', c!"7"), some ('g', c!"1"), some ('x', c!"-1.5"), none, some ('y', c!".25"),
    some ('e', []), some ('x', c!"+2"), none] := (findall_reads _ _).1 (by decide +kernel)

example : (processLine (⟨0, 0, 0⟩ : Home ℚ) Machine.init { raw := c!"N7 G1 X-1.5 (a) Y.25E X+2 ; (b) Z9" }).map
    (fun p => (p.2.command, p.2.x, p.2.y, p.2.z, p.2.e)) = .ok (some c!"G1", some 2, some (1 / 4), none, none) := by decide +kernel

example : Decimal c!"-1.5" (-(3 / 2) : ℚ) := (C76_number _ _).1 (by decide +kernel)

example : Reads ['P'] false c!"G4 P250 (P1)" [some ('P', c!"250"), none] ∧ findSpecificCode c!"G4 P250 (P1)" 'P' = .ok (some (250 : ℚ)) := by
  refine ⟨?_, by decide +kernel⟩
  refine .other _ (by decide) (by decide) (by decide) ?_ (by simp) (.other _ (by decide) (by decide) (by decide) ?_ (by simp)
    (.other _ (by decide) (by decide) (by decide) ?_ (by simp) ?_))
  iterate 3 (rw [parenLen_iff]; rintro ⟨h, _⟩; revert h; decide)
  refine .word (s := c!" (P1)") 'P' c!"250" (by decide) ⟨[], c!"250", [], [], rfl, by decide, by unfold IsDigits; decide, by decide, by unfold IsDigits; decide, by decide, ?_⟩ ?_
  · intro c hc; cases hc; decide
  · refine .other _ (by decide) (by decide) (by decide) ?_ (by simp) (.paren (s := []) c!"P1" (by decide) .done)
    rw [parenLen_iff]; rintro ⟨h, _⟩; revert h; decide

end GCodeUtils
