import Verif.Lemmas.PushRun
import Verif.Lemmas.Marks
import Verif.Lemmas.Run
import Verif.Lemmas.Printer
import Verif.Props.Grammar

/-
  Lines of loaded programs, with marks, can be read again.
-/

set_option linter.unusedSectionVars false

namespace GCodeUtils

open Spec

variable {α : Type} [Field α] [LinearOrder α] [IsStrictOrderedRing α] [FloorRing α]

theorem value_none {u : α} {k : Char} : ∀ (ws : List (Char × Str)), (∀ n, (k, n) ∈ ws → n = []) → value u ws k = none := by
  intro ws
  induction ws with
  | nil => intro _; rfl
  | cons w ws ih =>
    intro h
    obtain ⟨c, v⟩ := w
    rw [value, ih (fun n hn => h n (List.mem_cons_of_mem _ hn))]
    have : ¬ (c = k ∧ v ≠ []) := by
      rintro ⟨rfl, hv⟩
      exact hv (h v (by simp))
    rw [if_neg this]
    rfl

theorem coords_none {l l' : PyLine α} {toks : List Tok} {imp : Bool} {k : Char} (hk : k ∈ c!"xyzefij") (h : parseCoordinates l toks imp = .ok l')
    (ht : ∀ n, some (k, n) ∈ toks → n = []) : l'.arg k = l.arg k := by
  unfold parseCoordinates at h
  cases hc : l.command with
  | none => rw [hc] at h; cases h; rfl
  | some cmd =>
    rw [hc] at h
    simp only at h
    by_cases hg : cmd.head? ≠ some 'G'
    · rw [if_pos hg] at h
      cases h; rfl
    · rw [if_neg hg] at h
      rw [fold_arg toks h k hk, value_none _ (fun n hn => ?_)]
      · simp
      · obtain ⟨t, h1, h2⟩ := List.mem_filterMap.1 hn
        simp only [id] at h2
        exact ht n (h2 ▸ h1)

theorem argField_arg (l : PyLine α) (k : Char) : argField l k = l.arg k := rfl

/-- Reading a marked line of a program again does not make an X/Y move of it. -/
theorem readsBack_marked {home : Home α} {m m' : Machine α} {raw s : Str} {l : PyLine α} (hp : processLine home m { raw := raw } = .ok (m', l))
    (hs : Marks s) (hN : ¬ Nested raw) (hn : '\n' ∉ raw) : ReadsBack ({ l with raw := l.raw ++ s } : PyLine α) := by
  obtain ⟨ws, hws, _⟩ := C76_unique (lower raw)
  obtain ⟨e1, e2, e3, e4⟩ := C76_line home hp ws hws
  have hf : findall (lower raw) = ws := (findall_reads _ _).2 hws
  obtain ⟨j, hj⟩ : ∃ j, findall (lower (raw ++ s)) = ws ++ List.replicate j none := by
    rcases marks_trailing hs with rfl | ht
    · exact ⟨0, by simp [hf]⟩
    · obtain ⟨j, hj⟩ := findall_trailing ht hN hn
      exact ⟨j, by rw [hj, hf]⟩
  have hsub : ∀ c n, some (c, n) ∈ dropN (ws ++ List.replicate j none) → some (c, n) ∈ afterNumber ws := by
    intro c n hm
    rw [← afterNumber_eq]
    cases ws with
    | nil => cases j with
      | zero => simp [dropN] at hm
      | succ j => simp [dropN, List.replicate_succ] at hm
    | cons t ws =>
      cases t with
      | none => simpa [dropN] using hm
      | some p =>
        obtain ⟨d, v⟩ := p
        simp only [List.cons_append, dropN] at hm ⊢
        split_ifs at hm ⊢
        · simpa using hm
        · simpa using hm
  intro c hc hx
  rw [e1] at hc
  unfold reparse at hc
  have hsp : ∃ l1 : PyLine α, split ({ l with raw := raw ++ s } : PyLine α) = (l1, dropN (ws ++ List.replicate j none)) ∧ l1.x = l.x ∧ l1.y = l.y ∧
      (l1.command = l.command ∨ afterNumber ws = []) := by
    rw [split]
    simp only [hj]
    cases h1 : afterNumber ws with
    | nil =>
      cases h2 : dropN (ws ++ List.replicate j none) with
      | nil => exact ⟨_, rfl, rfl, rfl, .inr rfl⟩
      | cons t rest =>
        cases t with
        | none => exact ⟨_, rfl, rfl, rfl, .inr rfl⟩
        | some p => exact ⟨_, rfl, rfl, rfl, .inr rfl⟩
    | cons t rest =>
      have h2 : dropN (ws ++ List.replicate j none) = t :: (rest ++ List.replicate j none) := by
        rw [← afterNumber_eq] at h1
        cases ws with
        | nil => simp [dropN] at h1
        | cons t' ws =>
          cases t' with
          | none => simp only [dropN, List.cons.injEq] at h1; simp [dropN, h1.1.symm, h1.2]
          | some p =>
            obtain ⟨d, v⟩ := p
            simp only [List.cons_append, dropN] at h1 ⊢
            split_ifs at h1 ⊢
            · rw [h1]; rfl
            · simp only [List.cons.injEq] at h1
              rw [h1.1, h1.2]
      rw [h2]
      have hcmd : l.command = commandOf raw ws := e2
      unfold commandOf at hcmd
      rw [h1] at hcmd
      cases t with
      | none => exact ⟨_, rfl, rfl, rfl, .inl rfl⟩
      | some p =>
        obtain ⟨d, v⟩ := p
        exact ⟨_, rfl, rfl, rfl, .inl hcmd.symm⟩
  obtain ⟨l1, h1, hx1, hy1, hcm⟩ := hsp
  rw [h1] at hc
  simp only at hc
  have hkeep : ∀ k ∈ c!"xyzefij", (∀ n, some (k, n) ∈ afterNumber ws → n = []) → c.arg k = l1.arg k := by
    intro k hk hno
    exact coords_none hk hc (fun n hn => hno n (hsub k n hn))
  have hcc : c.command = l1.command := by
    obtain ⟨x, y, z, e, f, i, j', h5⟩ := parseCoordinates_argsOnly hc
    rw [h5]
  have harg : ∀ k ∈ c!"xyzefij", l1.arg k = l.arg k → (commandOf raw ws).bind (·.head?) = some 'G' → c.arg k ≠ none → l.arg k ≠ none := by
    intro k hk hl1 hg hck hlk
    rcases e4 hg k hk with ⟨h6, _⟩ | ⟨_, _, _, _, _, _, _, _, h7⟩
    · exact hck (by rw [hkeep k hk h6, hl1, hlk])
    · rw [argField_arg, hlk] at h7; cases h7
  rcases hcm with hcm | hcm
  · have hcl : c.command = l.command := hcc.trans hcm
    have hg : (commandOf raw ws).bind (·.head?) = some 'G' := by
      rw [← e2, ← hcl]
      rcases hx.1 with h | h <;> rw [h] <;> rfl
    refine ⟨by show l.command = _ ∨ l.command = _; rw [← hcl]; exact hx.1, ?_⟩
    rcases hx.2 with h | h
    · exact .inl (harg 'x' (by decide) hx1 hg h)
    · exact .inr (harg 'y' (by decide) hy1 hg h)
  · have hno : ∀ k ∈ c!"xyzefij", c.arg k = l1.arg k := fun k hk => hkeep k hk (fun n hn => by rw [hcm] at hn; cases hn)
    have hl0 : ∀ k ∈ c!"xyzefij", l.arg k = none := by
      intro k hk
      by_cases hg : (commandOf raw ws).bind (·.head?) = some 'G'
      · rcases e4 hg k hk with ⟨_, h6⟩ | ⟨a, n, b, w, h6, _⟩
        · exact h6
        · rw [hcm] at h6; simp at h6
      · exact e3 hg k hk
    exfalso
    rcases hx.2 with h | h
    · exact h ((hno 'x' (by decide)).trans (hx1.trans (hl0 'x' (by decide))))
    · exact h ((hno 'y' (by decide)).trans (hy1.trans (hl0 'y' (by decide))))

theorem run_mem {home : Home α} {m m' : Machine α} {ls out : List (PyLine α)} (h : Run home m ls m' out) {l : PyLine α} (hl : l ∈ out) :
    ∃ l0 ∈ ls, ∃ m1 m2, processLine home m1 l0 = .ok (m2, l) := by
  induction h with
  | nil => cases hl
  | @cons m m1 m' x x' ls out hp _ ih =>
    rcases List.mem_cons.1 hl with rfl | hl
    · exact ⟨x, by simp, m, m1, hp⟩
    · obtain ⟨l0, h1, h2⟩ := ih hl
      exact ⟨l0, List.mem_cons_of_mem _ h1, h2⟩

end GCodeUtils
