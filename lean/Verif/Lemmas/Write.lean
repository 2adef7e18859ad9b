import Verif.Lemmas.Append
import Verif.Spec.Text
import Verif.Model.Cli

set_option linter.unusedSectionVars false

namespace GCodeUtils

open Spec

variable {α : Type} [Field α] [LinearOrder α] [IsStrictOrderedRing α] [FloorRing α]

theorem isSpace_iff (c : Char) : isSpace c = true ↔ c ∈ blanks := by
  simp [isSpace, blanks, or_assoc]

theorem isSpace_false_iff (c : Char) : isSpace c = false ↔ c ∉ blanks := by
  rw [← isSpace_iff]; simp

theorem strip_isStrip (s : Str) : IsStrip s (strip s) := by
  obtain ⟨a, b, h, ha, hb⟩ := strip_decomp s
  refine ⟨⟨a, b, h, fun c hc => (isSpace_iff c).1 (ha c hc), fun c hc => (isSpace_iff c).1 (hb c hc)⟩, ?_, ?_⟩
  · intro c hc; exact (isSpace_false_iff c).1 (strip_head s c hc)
  · intro c hc; exact (isSpace_false_iff c).1 (strip_last s c hc)

theorem strip_eq_nil_iff (s : Str) : strip s = [] ↔ IsBlank s := by
  constructor
  · intro h c hc
    obtain ⟨a, b, he, ha, hb⟩ := strip_decomp s
    rw [h, List.append_nil] at he
    rw [he] at hc
    rcases List.mem_append.1 hc with h | h
    · exact (isSpace_iff c).1 (ha c h)
    · exact (isSpace_iff c).1 (hb c h)
  · intro h
    have : s.dropWhile isSpace = [] := List.dropWhile_eq_nil_iff.2 (fun c hc => (isSpace_iff c).2 (h c hc))
    unfold strip
    rw [this]; rfl

/-- The texts of the lines of a loaded program. -/
theorem load_raws {env : Env α} {data : List Str} {light : Bool} {home : Home α} {g : GCode α}
    (h : GCode.load env data light home = .ok g) :
    g.lines.map (·.raw) = (data.map strip).filter (fun s => !s.isEmpty) := by
  have hr : ((readLines data : List (PyLine α))).map (·.raw) = (data.map strip).filter (fun s => !s.isEmpty) := by
    simp [readLines, Function.comp_def]
  rcases load_ok h with ⟨rfl, rfl⟩ | ⟨_, s, hs, rfl⟩
  · rfl
  · have := fold_raws hs
    rw [hr] at this
    simpa [finalize, BuildSt.start] using this

theorem allLines_eq_lines {g : GCode α} (h : Indexed g) : g.allLines = g.lines := by
  rw [h.flat, GCode.allLines, layerLines, List.flatMap_def]

theorem load_write {env : Env α} {data : List Str} {light : Bool} {home : Home α} {g : GCode α}
    (h : GCode.load env data light home = .ok g) :
    g.write = ((data.map strip).filter (fun s => !s.isEmpty)).flatMap (fun t => t ++ ['\n']) := by
  rw [GCode.write, allLines_eq_lines (load_indexed h), ← load_raws h, List.flatMap_map]

/-- Reading back what was written gives the same lines. -/
theorem readLines_readlines (texts : List Str) (h : ∀ t ∈ texts, strip t = t ∧ t ≠ [] ∧ '\n' ∉ t) :
    (readLines (readlines (texts.flatMap (fun t => t ++ ['\n']))) : List (PyLine α)) =
      texts.map (fun t => { raw := t }) := by
  rw [readlines_write texts (fun t ht => (h t ht).2.2)]
  induction texts with
  | nil => rfl
  | cons t ts ih =>
    obtain ⟨h1, h2, _⟩ := h t (by simp)
    have hs : strip (t ++ ['\n']) = t := by
      rw [strip_append_space t ['\n'] (by simp [isSpace]), h1]
    rw [List.map_cons, readLines_cons, hs, if_neg h2, ih (fun x hx => h x (by simp [hx]))]
    rfl

end GCodeUtils
