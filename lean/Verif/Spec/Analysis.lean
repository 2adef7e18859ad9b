import Mathlib.Order.Bounds.Basic
import Verif.Spec.Printer
import Verif.Model.GCode

/-
  Specifications for the analysis results: bounds and well-formed texts.
-/

set_option linter.unusedSectionVars false

namespace GCodeUtils.Spec

open GCodeUtils

variable {α : Type} [Field α] [LinearOrder α] [IsStrictOrderedRing α] [FloorRing α]

/-- `lo`, `hi` are the least and the greatest element, both 0 for the empty set. -/
def Bounds (S : Set α) (lo hi : α) : Prop := (S = ∅ ∧ lo = 0 ∧ hi = 0) ∨ (IsLeast S lo ∧ IsGreatest S hi)

/-- Machine X coordinates at the end of the lines satisfying `P`. -/
def endX (P : PyLine α → Prop) (ls : List (PyLine α)) : Set α := {x | ∃ l ∈ ls, P l ∧ l.currentX = some x}

/-- Machine Y coordinates at the end of the lines satisfying `P`. -/
def endY (P : PyLine α → Prop) (ls : List (PyLine α)) : Set α := {y | ∃ l ∈ ls, P l ∧ l.currentY = some y}

/-- A text with a digit. -/
def HasDigit (v : Str) : Prop := ∃ c ∈ v, c ∈ c!"0123456789"

/-- A whole number: an optional sign and at least one digit. -/
def IsInteger (v : Str) : Prop :=
  ∃ sign ds, v = sign ++ ds ∧ sign ∈ [c!"", c!"-", c!"+"] ∧ ds ≠ [] ∧ ∀ c ∈ ds, c ∈ c!"0123456789"

/-- The dwell words of a line: what follows each `P` outside comments. -/
def dwellWords (raw : Str) : List Str := findSpecificAux 'P' 0 raw

/-- A line whose numbers have digits, whose tool number is a whole number and whose dwell time, if any, has digits. -/
def WellFormed (raw : Str) : Prop :=
  (∀ w ∈ words raw, w.2 = [] ∨ HasDigit w.2) ∧
  (∀ n ws, instr raw = some ('T' :: n, ws) → IsInteger n) ∧
  (∀ ws, instr raw = some (c!"G4", ws) → ∀ v ∈ dwellWords raw, HasDigit v)

/-- The feed rate given on the line, if any, is not negative. -/
def FeedNonneg (α : Type) [Field α] [LinearOrder α] [IsStrictOrderedRing α] [FloorRing α] (raw : Str) : Prop :=
  ∀ v, value (1 : α) (words raw) 'f' = some v → 0 ≤ v

/-- The dwell time given on the line, if any, is not negative. -/
def DwellNonneg (α : Type) [Field α] [LinearOrder α] [IsStrictOrderedRing α] [FloorRing α] (raw : Str) : Prop :=
  ∀ v ws, dwellWords raw = v :: ws → ∀ a : α, parseFloat v = some a → 0 ≤ a

/-! ### deciding these conditions (for the examples) -/

instance (v : Str) : Decidable (HasDigit v) := inferInstanceAs (Decidable (∃ c ∈ v, c ∈ c!"0123456789"))

instance (v : Str) : Decidable (IsInteger v) :=
  decidable_of_iff (∃ sign ∈ [c!"", c!"-", c!"+"], sign <+: v ∧ v.drop sign.length ≠ [] ∧
      ∀ c ∈ v.drop sign.length, c ∈ c!"0123456789") (by
    constructor
    · rintro ⟨sign, hs, ⟨ds, rfl⟩, h1, h2⟩
      rw [List.drop_left] at h1 h2
      exact ⟨sign, ds, rfl, hs, h1, h2⟩
    · rintro ⟨sign, ds, rfl, hs, h1, h2⟩
      refine ⟨sign, hs, List.prefix_append _ _, ?_, ?_⟩ <;> rw [List.drop_left] <;> assumption)

instance (raw : Str) : Decidable (FeedNonneg α raw) :=
  decidable_of_iff (∀ v ∈ value (1 : α) (words raw) 'f', 0 ≤ v) Iff.rfl

instance (raw : Str) : Decidable (DwellNonneg α raw) :=
  decidable_of_iff (∀ v ∈ (dwellWords raw).head?, ∀ a ∈ (parseFloat v : Option α), 0 ≤ a) (by
    unfold DwellNonneg
    cases hd : dwellWords raw with
    | nil => simp
    | cons v ws =>
      simp only [List.head?_cons, Option.mem_def, Option.some.injEq, forall_eq']
      exact ⟨fun h v' ws' he a ha => by
        rw [List.cons.injEq] at he; obtain ⟨rfl, _⟩ := he; exact h a ha, fun h => h v ws rfl⟩)

instance (raw : Str) : Decidable (WellFormed raw) :=
  decidable_of_iff ((∀ w ∈ words raw, w.2 = [] ∨ HasDigit w.2) ∧
    (∀ p ∈ instr raw, p.1.head? = some 'T' → IsInteger p.1.tail) ∧
    (∀ p ∈ instr raw, p.1 = c!"G4" → ∀ v ∈ dwellWords raw, HasDigit v)) (by
    unfold WellFormed
    refine and_congr Iff.rfl (and_congr ?_ ?_)
    · constructor
      · intro h n ws hi
        exact h _ hi rfl
      · rintro h ⟨c, ws⟩ hi hc
        cases c with
        | nil => simp at hc
        | cons a n =>
          simp only [List.head?_cons, Option.some.injEq] at hc
          subst hc
          exact h n ws hi
    · constructor
      · intro h ws hi
        exact h _ hi rfl
      · rintro h ⟨c, ws⟩ hi hc
        subst hc
        exact h ws hi)

end GCodeUtils.Spec
