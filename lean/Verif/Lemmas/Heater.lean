import Verif.Spec.Heater
import Verif.Lemmas.TempCal
import Verif.Lemmas.Grammar

set_option linter.unusedSectionVars false

namespace GCodeUtils

open Spec

variable {α : Type} [Field α] [LinearOrder α] [IsStrictOrderedRing α] [FloorRing α]

/-- Text without letters and comments has no words. -/
theorem reads_plain {L : List Char} {s : Str} (h : ∀ c ∈ s, c ∉ L ∧ c ∉ c!"(;/*") : Reads L false s [] := by
  induction s with
  | nil => exact .done
  | cons c s ih =>
    obtain ⟨h1, h2⟩ := h c (by simp)
    simp only [List.mem_cons, List.not_mem_nil, or_false, not_or] at h2
    refine .other c h1 h2.2.1 ?_ ?_ (by simp) (ih (fun d hd => h d (by simp [hd])))
    · rintro (rfl | rfl)
      · exact absurd rfl h2.2.2.1
      · exact absurd rfl h2.2.2.2
    · rintro ⟨t, r, e, _⟩
      simp only [paren, List.cons_append, List.append_assoc, List.nil_append, List.cons.injEq] at e
      exact h2.1 e.1

theorem tenths_chars {n : Str} {t : α} (h : ReadsTenths n t) : ∀ c ∈ n, c ∈ c!".0123456789" := by
  obtain ⟨a, d, _, ha, hd, rfl, _⟩ := h
  intro c hc
  simp only [List.mem_append, List.mem_cons, List.not_mem_nil, or_false] at hc
  rcases hc with hc | rfl | rfl
  · exact List.mem_cons_of_mem _ (ha c hc)
  · simp
  · exact List.mem_cons_of_mem _ hd

theorem lower_tenths {n : Str} {t : α} (h : ReadsTenths n t) : lower n = n := by
  have hc := tenths_chars h
  clear h
  unfold lower
  conv_rhs => rw [← List.map_id n]
  apply List.map_congr_left
  intro c hcn
  have := hc c hcn
  simp only [List.mem_cons, List.not_mem_nil, or_false] at this
  rcases this with rfl | rfl | rfl | rfl | rfl | rfl | rfl | rfl | rfl | rfl | rfl <;> decide

/-- A temperature line has one word. -/
theorem findall_temp {n : Str} {t : α} (h : ReadsTenths n t) :
    findall (lower (c!"M104 S" ++ n)) = [some ('m', c!"104")] := by
  have hl : lower (c!"M104 S" ++ n) = 'm' :: c!"104" ++ (' ' :: 's' :: n) := by
    rw [show lower (c!"M104 S" ++ n) = lower c!"M104 S" ++ lower n by simp [lower], lower_tenths h]
    rfl
  rw [hl, findall_reads]
  refine .word 'm' c!"104" (by decide) ⟨[], c!"104", [], [], rfl, Or.inl rfl, ?_, Or.inl rfl, ?_, fun _ => rfl, ?_⟩ ?_
  · show ∀ c ∈ c!"104", c ∈ c!"0123456789"
    decide
  · intro c hc; simp at hc
  · intro c hc
    simp only [List.head?_cons, Option.some.injEq] at hc
    subst hc
    decide
  · apply reads_plain
    intro c hc
    simp only [List.mem_cons] at hc
    rcases hc with rfl | rfl | hc
    · decide
    · decide
    · have := tenths_chars h c hc
      simp only [List.mem_cons, List.not_mem_nil, or_false] at this
      rcases this with rfl | rfl | rfl | rfl | rfl | rfl | rfl | rfl | rfl | rfl | rfl <;> decide

theorem numeral_foldl (s : Str) : s.foldl (fun n d => n * 10 + (d.toNat - 48)) 0 = numeral s := by
  rw [← digitsVal_numeral]
  rfl

theorem numeral_snoc (a : Str) (c : Char) : numeral (a ++ [c]) = numeral a * 10 + (c.toNat - 48) := by
  rw [← numeral_foldl, ← numeral_foldl, List.foldl_append]
  rfl

theorem tenths_decimal {n : Str} {t : α} (h : ReadsTenths n t) : Decimal n t := by
  obtain ⟨a, c, hne, ha, hc, rfl, rfl⟩ := h
  have hd : IsDigits [c] := by
    intro d hd
    simp only [List.mem_singleton] at hd
    subst hd
    exact hc
  have := Decimal.point (α := α) a [c] ha hd (Or.inl hne)
  have hv : ((((a ++ [c]).foldl (fun n d => n * 10 + (d.toNat - 48)) 0 : ℕ) : α) / 10) =
      (numeral a : α) + (numeral [c] : α) / 10 ^ [c].length := by
    rw [numeral_foldl, numeral_snoc]
    have h1 : numeral [c] = c.toNat - 48 := by rw [← numeral_foldl]; simp
    rw [h1]
    push_cast
    simp only [List.length_singleton, pow_one]
    rw [add_div, mul_div_assoc, div_self (by norm_num), mul_one]
  rw [hv]
  exact this

theorem specific_temp {n : Str} {t : α} (h : ReadsTenths n t) : findSpecificCode (c!"M104 S" ++ n) 'S' = .ok (some t) := by
  have hr : Reads ['S'] false (c!"M104 S" ++ n) [some ('S', n)] := by
    have hword : Reads ['S'] false ('S' :: n ++ []) [some ('S', n)] := by
      refine .word 'S' n (by simp) ?_ .done
      obtain ⟨a, c, hne, ha, hc, rfl, _⟩ := h
      refine ⟨[], a, ['.'], [c], by simp, Or.inl rfl, ha, Or.inr rfl, ?_, by simp, by simp⟩
      intro d hd
      simp only [List.mem_singleton] at hd
      subst hd
      exact hc
    rw [List.append_nil] at hword
    have hskip : ∀ (c : Char) (s : Str) (ws : List Tok), c ∈ c!"M104 " → Reads ['S'] false s ws → Reads ['S'] false (c :: s) ws := by
      intro c s ws hc hr
      have hc' : c ≠ 'S' ∧ c ≠ ';' ∧ c ≠ '/' ∧ c ≠ '*' ∧ c ≠ '(' := by
        simp only [List.mem_cons, List.not_mem_nil, or_false] at hc
        rcases hc with rfl | rfl | rfl | rfl | rfl <;> decide
      refine .other c (by simpa using hc'.1) hc'.2.1 ?_ ?_ (by simp) hr
      · rintro (rfl | rfl)
        · exact absurd rfl hc'.2.2.1
        · exact absurd rfl hc'.2.2.2.1
      · rintro ⟨t, r, e, _⟩
        simp only [paren, List.cons_append, List.append_assoc, List.nil_append, List.cons.injEq] at e
        exact hc'.2.2.2.2 e.1
    exact hskip _ _ _ (by decide) (hskip _ _ _ (by decide) (hskip _ _ _ (by decide) (hskip _ _ _ (by decide)
      (hskip _ _ _ (by decide) hword))))
  have := reads_specific (by decide) hr rfl
  unfold findSpecificCode
  rw [this]
  simp only [List.filterMap_cons, List.filterMap_nil, id, List.map_cons, List.map_nil]
  rw [(parseFloat_iff n t).2 (tenths_decimal h)]

theorem instr_temp {n : Str} {t : α} (h : ReadsTenths n t) : instr (c!"M104 S" ++ n) = some (c!"M104", [('m', c!"104")]) := by
  unfold instr words
  rw [findall_temp h]
  decide

theorem asksFor_temp {n : Str} {t : α} (h : ReadsTenths n t) : asksFor (c!"M104 S" ++ n) = some t := by
  unfold asksFor
  rw [instr_temp h]
  simp only
  rw [if_pos (Or.inl trivial), specific_temp h]

theorem instr_nil : instr [] = none := by decide

/-- Inserted temperature lines do not concern the motion. -/
theorem line_tempLine {t : α} {s : Str} (h : IsTempLine t s) (home : Pos3 α) (p : Printer α) : p.line home s = p := by
  rcases h with ⟨_, _, n, rfl, hn⟩ | ⟨_, rfl⟩
  · unfold Printer.line
    rw [instr_temp hn]
    simp only
    unfold Printer.step
    simp
  · unfold Printer.line
    rw [instr_nil]

theorem instr_pause : instr c!"M226" = some (c!"M226", [('m', c!"226")]) := by decide

theorem line_pause (home : Pos3 α) (p : Printer α) : p.line home c!"M226" = p := by
  unfold Printer.line
  rw [instr_pause]
  simp only
  unfold Printer.step
  simp

theorem final_append (home : Pos3 α) (p : Printer α) (a b : List Str) : p.final home (a ++ b) = (p.final home a).final home b := by
  unfold Printer.final
  rw [List.foldl_append]

/-- Lines that leave the printer as it is may be added. -/
theorem sameMotion_of_marked (home : Pos3 α) (p : Printer α) (marked : List (Str × Bool))
    (h : ∀ m ∈ marked, m.2 = false → ∀ p : Printer α, p.line home m.1 = p) :
    ∀ k, p.final home ((marked.map (·.1)).take k) = p.final home (((marked.take k).filter (·.2)).map (·.1)) := by
  intro k
  rw [← List.map_take]
  have hk : ∀ m ∈ marked.take k, m.2 = false → ∀ p : Printer α, p.line home m.1 = p :=
    fun m hm => h m (List.mem_of_mem_take hm)
  generalize marked.take k = ms at hk
  induction ms generalizing p with
  | nil => rfl
  | cons m ms ih =>
    obtain ⟨r, b⟩ := m
    have ih := fun p => ih p (fun m hm => hk m (by simp [hm]))
    cases b with
    | true =>
      simp only [List.map_cons, List.filter_cons_of_pos]
      exact ih (p.line home r)
    | false =>
      have := hk (r, false) (by simp) rfl p
      simp only at this
      simp only [List.map_cons]
      rw [List.filter_cons_of_neg (by simp)]
      show (p.line home r).final home _ = _
      rw [this]
      exact ih p

/-- The motion of a tower is that of its layers. -/
theorem tower_motion (home : Pos3 α) (p : Printer α) (ins : List (Option Str)) (Ls : List (Layer α)) (hl : ins.length = Ls.length)
    (h : ∀ s, some s ∈ ins → ∀ p : Printer α, p.line home s = p) :
    SameMotion home p ((Ls.map (·.lines)).flatten.map (·.raw)) (tower ins Ls) := by
  have key : ∃ marked : List (Str × Bool), marked.map (·.1) = tower ins Ls ∧
      (marked.filter (·.2)).map (·.1) = (Ls.map (·.lines)).flatten.map (·.raw) ∧
      ∀ m ∈ marked, m.2 = false → ∀ p : Printer α, p.line home m.1 = p := by
    induction Ls generalizing ins with
    | nil => exact ⟨[], by simp [tower], rfl, by simp⟩
    | cons L Ls ih =>
      cases ins with
      | nil => simp at hl
      | cons i ins =>
        obtain ⟨marked, h1, h2, h3⟩ := ih ins (by simpa using hl) (fun s hs => h s (by simp [hs]))
        refine ⟨i.toList.map (fun s => (s, false)) ++ L.lines.map (fun l => (l.raw, true)) ++ marked, ?_, ?_, ?_⟩
        · simp [tower, Function.comp_def, h1]
        · rw [List.filter_append, List.filter_append, List.map_append, h2]
          have e1 : (i.toList.map (fun s => (s, false))).filter (·.2) = [] := by
            rw [List.filter_eq_nil_iff]; simp
          have e2 : (L.lines.map (fun l => (l.raw, true))).filter (·.2) = L.lines.map (fun l => (l.raw, true)) := by
            rw [List.filter_eq_self]; simp
          rw [e1, e2]
          simp [Function.comp_def]
        · intro m hm hf
          rw [List.mem_append, List.mem_append] at hm
          rcases hm with (hm | hm) | hm
          · rw [List.mem_map] at hm
            obtain ⟨s, hs, rfl⟩ := hm
            exact h s (by rw [Option.mem_toList] at hs; simp [hs])
          · rw [List.mem_map] at hm
            obtain ⟨l, _, rfl⟩ := hm
            cases hf
          · exact h3 m hm hf
  obtain ⟨marked, h1, h2, h3⟩ := key
  refine ⟨marked, h1, h2, ?_⟩
  rw [← h1]
  exact sameMotion_of_marked home p marked h3

/-- Lines that set no temperature. -/
theorem heater_quiet {t : Option α} {texts : List Str} (h : ∀ r ∈ texts, asksFor (α := α) r = none) : heater t texts = t := by
  unfold heater
  induction texts generalizing t with
  | nil => rfl
  | cons r rs ih =>
    rw [List.foldl_cons, h r (by simp), Option.none_or]
    exact ih (fun r hr => h r (by simp [hr]))

theorem heater_append (t : Option α) (a b : List Str) : heater t (a ++ b) = heater (heater t a) b := by
  unfold heater
  rw [List.foldl_append]

/-- The temperature in force is the last target. -/
theorem heater_tower {ts : List (Option α)} {ins : List (Option Str)} {Ls : List (Layer α)}
    (hf : List.Forall₂ (fun t i => (t = none ∧ i = none) ∨ ∃ u s, t = some u ∧ i = some s ∧ asksFor s = some u) ts ins)
    (hlen : ts.length = Ls.length) (i : ℕ) (hi : i < Ls.length) (last h : Option α) (hlast : ∀ t, last = some t → h = some t)
    (hq : ∀ (j : ℕ) (M : Layer α), j < i → Ls[j]? = some M → (last ≠ none ∨ ∃ k t, k ≤ j ∧ ts[k]? = some (some t)) →
      ∀ l ∈ M.lines, asksFor (α := α) l.raw = none)
    (t : α) (ht : (last.toList ++ (ts.take (i + 1)).filterMap id).getLast? = some t) :
    heater h (tower (ins.take i) (Ls.take i) ++ (ins[i]?.join).toList) = some t := by
  induction i generalizing ts ins Ls last h with
  | zero =>
    cases hf with
    | nil =>
      simp only [List.length_nil] at hlen
      omega
    | @cons a b ts ins hab hf =>
      simp only [List.take_zero, List.getElem?_cons_zero]
      rcases hab with ⟨rfl, rfl⟩ | ⟨u, s, rfl, rfl, hs⟩
      · simp only [tower, Nat.zero_add, List.take_succ_cons, List.take_zero, List.filterMap_cons, List.filterMap_nil, id,
          List.append_nil] at ht ⊢
        rw [hlast t]
        · rfl
        · cases last with
          | none => simp at ht
          | some v => simpa using ht
      · simp only [tower, Nat.zero_add, List.take_succ_cons, List.take_zero, List.filterMap_cons, List.filterMap_nil, id] at ht ⊢
        rw [List.getLast?_append] at ht
        simp only [List.getLast?_singleton, Option.some_or, Option.some.injEq] at ht
        subst ht
        simp [heater, hs]
  | succ i ih =>
    cases hf with
    | nil =>
      simp only [List.length_nil] at hlen
      omega
    | @cons a b ts ins hab hf =>
      cases Ls with
      | nil => simp at hlen
      | cons L Ls =>
        have e : tower ((b :: ins).take (i + 1)) ((L :: Ls).take (i + 1)) ++ ((b :: ins)[i + 1]?.join).toList =
            (b.toList ++ L.lines.map (·.raw)) ++ (tower (ins.take i) (Ls.take i) ++ (ins[i]?.join).toList) := by
          simp [tower]
        rw [e, heater_append h, heater_append h b.toList]
        have hL : last ≠ none ∨ a ≠ none → ∀ r ∈ L.lines.map (·.raw), asksFor (α := α) r = none := by
          intro hor r hr
          rw [List.mem_map] at hr
          obtain ⟨l, hl, rfl⟩ := hr
          refine hq 0 L (by omega) rfl ?_ l hl
          rcases hor with hor | hor
          · exact Or.inl hor
          · obtain ⟨t, rfl⟩ := Option.ne_none_iff_exists'.1 hor
            exact Or.inr ⟨0, t, le_refl _, rfl⟩
        refine ih hf (by simpa using hlen) (by simpa using hi) (a.or last) _ ?_ ?_ ?_
        · intro v hv
          rcases hab with ⟨rfl, rfl⟩ | ⟨u, s, rfl, rfl, hs⟩
          · rw [Option.none_or] at hv
            rw [heater_quiet (hL (Or.inl (by rw [hv]; simp)))]
            exact hlast v hv
          · rw [Option.some_or] at hv
            cases hv
            rw [heater_quiet (hL (Or.inr (by simp)))]
            simp [heater, hs]
        · intro j M hj hM hor
          refine hq (j + 1) M (by omega) (by simpa using hM) ?_
          rcases hor with hor | ⟨k, v, hk, hv⟩
          · cases a with
            | none => exact Or.inl (by simpa using hor)
            | some v => exact Or.inr ⟨0, v, by omega, rfl⟩
          · exact Or.inr ⟨k + 1, v, by omega, by simpa using hv⟩
        · rw [List.take_succ_cons] at ht
          cases a with
          | none => simpa using ht
          | some v =>
            simp only [List.filterMap_cons, id, Option.some_or, Option.toList_some] at ht ⊢
            rw [List.getLast?_append] at ht
            have : ∀ (x : List α), (v :: x).getLast? ≠ none := by intro x; simp
            rw [Option.or_of_isSome (Option.isSome_iff_ne_none.2 (this _))] at ht
            exact ht

end GCodeUtils
