import Verif.Props.Filter

/-
  C31-C35: conversion to relative extrusion, and the filter framework.
-/

set_option linter.unusedSectionVars false

namespace GCodeUtils

open Spec

variable {α : Type} [Field α] [LinearOrder α] [IsStrictOrderedRing α] [FloorRing α]

theorem toRelativeE_program (g : GCode α) :
    ∃ g', g.toRelativeE = .ok g' ∧ g' = { g with allLayers := g'.allLayers } ∧
      program g' = (scan relLine RelSt.init (program g)).2 := by
  refine ⟨_, toRelativeE_eq g, rfl, ?_⟩
  rw [program_def, program_def]
  exact (scanLayers_flat relLine g.allLayers _).1

/-- **C31** (partial).  The conversion always succeeds and keeps the number of lines.  Run the original and the converted
program side by side from any state whose filament counter is at zero.  As long as the lines executed so far are in the
class `EModeSt` describes (`E` moves only after an `M82` or `M83`; no absolute `E` move after relative ones unless a
`G92 E` came between; no `G90`/`G91` after the first `M82`/`M83`), the two printers are in the same state, filament
included, except for the extrusion mode.  Missing: programs outside the class, where the claim is false, see
`C31_unstated_refuted`, `C31_return_refuted` and `C31_g90_refuted`. -/
theorem C31_conversion_partial (g : GCode α) (home : Pos3 α) (p : Printer α) (hp : p.e = p.eOrg) :
    ∃ g', g.toRelativeE = .ok g' ∧ (program g').length = (program g).length ∧
      ∀ n t, ({} : EModeSt).run ((program g).take n) = some t →
        let a := p.run home ((program g).take n)
        let b := p.run home ((program g').take n)
        b = { a with relE := b.relE } ∧ b.pushed = a.pushed ∧ b.pos = a.pos ∧ b.feed = a.feed := by
  obtain ⟨g', h1, _, h2⟩ := toRelativeE_program g
  refine ⟨g', h1, by rw [h2, scan_length], ?_⟩
  intro n t ht a b
  have hb : b = p.run home (scan relLine RelSt.init ((program g).take n)).2 := by
    show p.run home _ = _
    rw [h2, scan_take]
  have inv := rel_run (home := home) ((program g).take n) (rel_init p hp) ht
  rw [← hb] at inv
  have h := inv.same
  refine ⟨h, ?_, ?_, ?_⟩
  · have := congrArg Printer.pushed h; exact this
  · have := congrArg Printer.pos h; exact this
  · have := congrArg Printer.feed h; exact this

/-- The converted program, for computed examples. -/
def relQ (g : GCode ℚ) : GCode ℚ := okOr g g.toRelativeE

/-- Filament pushed by the texts. -/
def pushedBy (ts : List Str) : ℚ := (Printer.start.final ⟨0, 0, 0⟩ ts : Printer ℚ).pushed

/-- Slicer-like output with retraction and counter resets, then relative moves. -/
def rSample : List Str :=
  [c!"G90", c!"M82", c!"G92 E0", c!"G1 X10 E1", c!"G1 X20 E2.5", c!"G1 E1.5", c!"G92 E0", c!"G1 X30 E2", c!"M83", c!"G1 X40 E1"]

example : GCode.load qEnv rSample = .ok (loadQ rSample) ∧
    ({} : EModeSt).run (program (loadQ rSample)) = some { known := true, rel := true, synced := false } ∧
    texts (relQ (loadQ rSample)) =
      [c!"G90", c!"M83", c!"G92 E0", c!"G1 X10.000 E1.00000", c!"G1 X20.000 E1.50000", c!"G1 E-1.00000", c!"G92 E0",
       c!"G1 X30.000 E2.00000", c!"M83", c!"G1 X40 E1"] ∧
    pushedBy (texts (loadQ rSample)) = 45 / 10 ∧ pushedBy (texts (relQ (loadQ rSample))) = 45 / 10 := by decide +kernel

/-- **C31**: without an `M82` or `M83` the words become relative but no mode switch is written: 2 mm become 1 mm. -/
theorem C31_unstated_refuted : ∃ g : GCode ℚ, GCode.load qEnv [c!"G1 X10 E1", c!"G1 X20 E2"] = .ok g ∧
    ∃ g', g.toRelativeE = .ok g' ∧ pushedBy (texts g) = 2 ∧ pushedBy (texts g') = 1 :=
  ⟨loadQ [c!"G1 X10 E1", c!"G1 X20 E2"], by decide +kernel, relQ (loadQ [c!"G1 X10 E1", c!"G1 X20 E2"]), by decide +kernel⟩

/-- **C31**: returning from relative to absolute extrusion: 7 mm become 12 mm. -/
theorem C31_return_refuted : ∃ g : GCode ℚ, GCode.load qEnv [c!"M83", c!"G1 E5", c!"M82", c!"G1 E7"] = .ok g ∧
    ∃ g', g.toRelativeE = .ok g' ∧ pushedBy (texts g) = 7 ∧ pushedBy (texts g') = 12 :=
  ⟨loadQ [c!"M83", c!"G1 E5", c!"M82", c!"G1 E7"], by decide +kernel, relQ (loadQ [c!"M83", c!"G1 E5", c!"M82", c!"G1 E7"]),
    by decide +kernel⟩

/-- **C31**: a `G90` after the `M82` makes the printer absolute again: 2 mm become 1 mm. -/
theorem C31_g90_refuted : ∃ g : GCode ℚ, GCode.load qEnv [c!"M82", c!"G90", c!"G1 E1", c!"G1 E2"] = .ok g ∧
    ∃ g', g.toRelativeE = .ok g' ∧ pushedBy (texts g) = 2 ∧ pushedBy (texts g') = 1 :=
  ⟨loadQ [c!"M82", c!"G90", c!"G1 E1", c!"G1 E2"], by decide +kernel, relQ (loadQ [c!"M82", c!"G90", c!"G1 E1", c!"G1 E2"]),
    by decide +kernel⟩

/-! ### C32: what the conversion leaves alone -/

theorem relLine_relativised (s : RelSt α) (l : PyLine α) : Relativised l (relLine s l).2 := by
  have same : ¬ HasCmd l c!"M82" → Relativised l l := fun h =>
    ⟨fun _ _ => rfl, fun h' => absurd h' h, fun _ => rfl, fun _ => ⟨rfl, rfl, rfl, rfl, rfl, rfl, rfl⟩⟩
  unfold relLine
  by_cases n1 : HasCmd l c!"M83"
  · rw [if_pos n1]
    exact same (by intro h; rw [HasCmd, n1] at h; exact absurd h (by decide))
  · rw [if_neg n1]
    by_cases n2 : HasCmd l c!"M82"
    · rw [if_pos n2]
      exact ⟨fun h => absurd n2 h, fun _ => ⟨m83_line, rfl⟩, fun h => absurd n2 h, fun h => absurd n2 h⟩
    · rw [if_neg n2]
      by_cases n3 : HasCmd l c!"G92"
      · rw [if_pos n3]
        cases l.e with
        | some e => exact same n2
        | none =>
          simp only
          split <;> exact same n2
      · rw [if_neg n3]
        by_cases hm : IsMove l ∧ s.relative = false
        · rw [if_pos hm]
          cases hE : l.e with
          | none => exact same n2
          | some e =>
            refine ⟨fun _ h => ?_, fun h => absurd h n2, fun _ => rfl, fun _ => ⟨rfl, rfl, rfl, rfl, rfl, rfl, by rw [hE]; rfl⟩⟩
            rcases h with h | h
            · exact absurd hm.1 h
            · rw [hE] at h; simp at h
        · rw [if_neg hm]; exact same n2

theorem forall₂_right {β γ : Type} {P : γ → Prop} {as : List β} {bs : List γ} (h : List.Forall₂ (fun _ b => P b) as bs) : ∀ b ∈ bs, P b := by
  induction h with
  | nil => simp
  | cons h _ ih =>
    intro b hb
    rcases List.mem_cons.1 hb with rfl | hb
    · exact h
    · exact ih b hb

/-- **C32**.  No line of the converted program is an `M82`; each `M82` has become the line `M83`; every other line keeps
its command and its X, Y, Z, F, I, J and the presence of E, and is the same line unless it is a move with an E word;
layers keep height, duration and number of lines. -/
theorem C32_scope (g : GCode α) :
    ∃ g', g.toRelativeE = .ok g' ∧ g' = { g with allLayers := g'.allLayers } ∧ (∀ l ∈ program g', ¬ HasCmd l c!"M82") ∧
      LayerWise Relativised g.allLayers g'.allLayers := by
  obtain ⟨g', h1, h2, h3⟩ := toRelativeE_program g
  have h4 := toRelativeE_eq g
  rw [h1] at h4
  have h5 := Except.ok.inj h4
  refine ⟨g', h1, h2, ?_, ?_⟩
  · intro l hl
    rw [h3] at hl
    have := (scan_forall₂ (R := fun _ l' => ¬ HasCmd l' c!"M82") (fun _ : RelSt α => True) (f := relLine) (fun s l _ => ⟨trivial, by
      have r := relLine_relativised s l
      by_cases h82 : HasCmd l c!"M82"
      · intro h; have := (r.switch h82).1; rw [HasCmd, h] at this; exact absurd this (by decide)
      · rw [hasCmd_congr (r.command h82)]; exact h82⟩) (program g) RelSt.init trivial).2
    exact forall₂_right this l hl
  · rw [h5]
    exact scanLayers_layerWise (fun _ => True) (fun s l _ => ⟨trivial, relLine_relativised s l⟩) _ _ trivial

example : (program (relQ sampleG)).map (·.raw) =
    [c!"; start", c!"G21", c!"G90", c!"M83", c!"G28", c!"G1 Z0.3 F1200", c!"G1 X10.000 Y10.000 E1.00000",
     c!"G1 X20.000 Y10.000 E1.00000", c!"G92 E0", c!"G1 Z0.6", c!"G1 X20.000 Y20.000 E1.00000", c!"M104 S0"] := by decide +kernel

/-! ### C33: converting twice -/

theorem scanLayers_id {σ : Type} {f : σ → PyLine α → σ × PyLine α} (Ls : List (Layer α)) : ∀ s,
    (scan f s (Ls.flatMap (·.lines))).2 = Ls.flatMap (·.lines) → (scanLayers f s Ls).2 = Ls := by
  induction Ls with
  | nil => intro s _; rfl
  | cons L Ls ih =>
    intro s h
    rw [List.flatMap_cons, scan_append] at h
    obtain ⟨h1, h2⟩ := List.append_inj h (scan_length _ _ _)
    simp only [scanLayers]
    rw [h1, ih _ h2]

theorem rel_twice (ls : List (PyLine α)) : ∀ {s s2 : RelSt α}, (s2.relative = true ∨ EModeStated ls) →
    (scan relLine s2 (scan relLine s ls).2).2 = (scan relLine s ls).2 := by
  induction ls with
  | nil => intro s s2 _; rfl
  | cons l ls ih =>
    intro s s2 h
    have r := relLine_relativised s l
    have tail : ¬ (HasCmd l c!"M82" ∨ HasCmd l c!"M83") → EModeStated (l :: ls) → EModeStated ls := by
      intro hn hm pre m post he hmv hE
      obtain ⟨m', hmem, hc⟩ := hm (l :: pre) m post (by rw [he]; rfl) hmv hE
      rcases List.mem_cons.1 hmem with rfl | hmem
      · exact absurd hc hn
      · exact ⟨m', hmem, hc⟩
    generalize hl' : (relLine s l).2 = l' at r
    have key : (relLine s2 l').2 = l' ∧ ((relLine s2 l').1.relative = true ∨ EModeStated ls) := by
      by_cases h83 : HasCmd l' c!"M83"
      · unfold relLine; rw [if_pos h83]; exact ⟨rfl, .inl rfl⟩
      · have n82 : ¬ HasCmd l c!"M82" := fun h' => h83 (r.switch h').1
        have hc := r.command n82
        have n83 : ¬ HasCmd l c!"M83" := by rw [← hasCmd_congr hc]; exact h83
        have n82' : ¬ HasCmd l' c!"M82" := by rw [hasCmd_congr hc]; exact n82
        have nn : ¬ (HasCmd l c!"M82" ∨ HasCmd l c!"M83") := by tauto
        have h' : s2.relative = true ∨ EModeStated ls := h.imp id (tail nn)
        unfold relLine
        rw [if_neg h83, if_neg n82']
        by_cases h92 : HasCmd l' c!"G92"
        · rw [if_pos h92]
          cases l'.e with
          | some e => exact ⟨rfl, h'⟩
          | none => simp only; split <;> exact ⟨rfl, h'⟩
        · rw [if_neg h92]
          by_cases hm : IsMove l' ∧ s2.relative = false
          · rw [if_pos hm]
            cases hE : l'.e with
            | none => exact ⟨rfl, h'⟩
            | some e =>
              exfalso
              rcases h with h | h
              · rw [h] at hm; simp at hm
              · obtain ⟨m, hmem, _⟩ := h [] l ls rfl ((isMove_congr hc).1 hm.1) (by
                  intro h0
                  have := (r.rest n82).2.2.2.2.2.2
                  rw [hE, h0] at this; simp at this)
                simp at hmem
          · rw [if_neg hm]; exact ⟨rfl, h'⟩
    simp only [scan, hl']
    rw [key.1, ih key.2]

/-- **C33** (partial).  If every move with an E word comes after an `M82` or `M83`, converting a converted program
changes nothing at all.  Missing: programs that never state an extrusion mode, see `C33_refuted`. -/
theorem C33_idempotent_partial (g : GCode α) (h : EModeStated (program g)) :
    ∃ g', g.toRelativeE = .ok g' ∧ g'.toRelativeE = .ok g' := by
  obtain ⟨g', h1, _, h3⟩ := toRelativeE_program g
  refine ⟨g', h1, ?_⟩
  rw [toRelativeE_eq]
  congr 1
  have : (scanLayers relLine RelSt.init g'.allLayers).2 = g'.allLayers := by
    apply scanLayers_id
    rw [← program_def, h3]
    exact rel_twice _ (.inr h)
  rw [this]

example : EModeStated (program sampleG) := by
  intro pre l post he hm hE
  have hl : (program sampleG).take 4 ++ (program sampleG).drop 4 = pre ++ l :: post := by rw [← he]; simp
  have h2 : ∀ m ∈ (program sampleG).take 4, ¬ IsMove m := by decide +kernel
  have h90 : ∃ m ∈ (program sampleG).take 4, HasCmd m c!"M82" := by decide +kernel
  obtain ⟨m, hm1, hm2⟩ := h90
  rcases List.append_eq_append_iff.1 hl with ⟨as, h1, _⟩ | ⟨bs, h1, h3⟩
  · exact ⟨m, by rw [h1]; simp [hm1], .inl hm2⟩
  · cases bs with
    | nil => rw [List.append_nil] at h1; exact ⟨m, by rw [← h1]; exact hm1, .inl hm2⟩
    | cons b bs =>
      obtain ⟨rfl, _⟩ := List.cons.inj h3
      exact absurd hm (h2 l (by rw [h1]; simp))

/-- **C33** is false in general: E words of a program that never states a mode are differenced twice. -/
theorem C33_refuted : ∃ g : GCode ℚ, GCode.load qEnv [c!"G1 X10 E1", c!"G1 X20 E2"] = .ok g ∧
    ∃ g' g'', g.toRelativeE = .ok g' ∧ g'.toRelativeE = .ok g'' ∧
      texts g' = [c!"G1 X10.000 E1.00000", c!"G1 X20.000 E1.00000"] ∧ texts g'' = [c!"G1 X10.000 E1.00000", c!"G1 X20.000 E0.00000"] :=
  ⟨loadQ [c!"G1 X10 E1", c!"G1 X20 E2"], by decide +kernel, relQ (loadQ [c!"G1 X10 E1", c!"G1 X20 E2"]),
    relQ (relQ (loadQ [c!"G1 X10 E1", c!"G1 X20 E2"])), by decide +kernel⟩

/-! ### C34: rounding -/

/-- The E word of a text, as a number. -/
def Spec.eWord (raw : Str) : α := (value 1 (words raw) 'e').getD 0

theorem eWord_unsplit (l : PyLine α) (h : IsMove l) (e : α) (he : l.e = some e) :
    |(eWord (unsplit l).raw : α) - e| ≤ 5 / 10 ^ 6 := by
  have h1 := line_unsplit_move ⟨0, 0, 0⟩ h (Printer.start : Printer α) rfl
  obtain ⟨c, hc, hl⟩ := h
  obtain ⟨n, rfl, hn⟩ : ∃ n, c = 'G' :: n ∧ numLen n = n.length := by
    simp only [List.mem_cons, List.not_mem_nil, or_false] at hc
    rcases hc with rfl | rfl | rfl | rfl
    · exact ⟨c!"0", rfl, by decide⟩
    · exact ⟨c!"1", rfl, by decide⟩
    · exact ⟨c!"2", rfl, by decide⟩
    · exact ⟨c!"3", rfl, by decide⟩
  have hf := findall_unsplit l 'G' n (by decide) hl hn
  have hw : words (unsplit l).raw = ('g', n) :: (lineToks l).filterMap id := by
    unfold words; rw [hf]; rfl
  have hi : instr (unsplit l).raw = some ('G' :: n, words (unsplit l).raw) := by
    unfold instr; rw [hw]; rfl
  unfold Printer.line at h1
  rw [hi] at h1
  simp only [Printer.step] at h1
  rw [if_pos hc] at h1
  have h2 := congrArg Printer.pushed h1
  have hv : value (1 : α) (words (unsplit l).raw) 'e' = (value (Printer.start : Printer α).unit (words (unsplit l).raw) 'e') := rfl
  have h3 : (eWord (unsplit l).raw : α) = fixedVal 5 e := by
    unfold eWord
    rw [hv]
    have push : ∀ v : Option α, (Printer.start : Printer α).push v = v.getD 0 := by
      intro v; cases v <;> simp [Printer.push, axis, Printer.start]
    simp only [Printer.move, Printer.moveTo, push, he] at h2
    simpa [Printer.start] using h2
  rw [h3]
  have e5 : (1 : α) / (2 * 10 ^ 5) = 5 / 10 ^ 6 := by norm_num
  rw [← e5]
  exact fixedVal_bound 5 e

/-- **C34**.  Whatever the program: over any number of lines, the total of the E words written on the lines the conversion
has rewritten differs from the total of the exact values by at most 0.000005 for each of these lines. -/
theorem C34_total (g : GCode α) : ∃ g', g.toRelativeE = .ok g' ∧ ∀ n,
    let changed := (((program g).zip (program g')).take n).filter (fun q => IsMove q.1 ∧ q.2 ≠ q.1)
    (∀ q ∈ changed, q.1.e ≠ none ∧ q.2.e ≠ none) ∧
    |(changed.map (fun q => (eWord q.2.raw : α))).sum - (changed.map (fun q => q.2.e.getD 0)).sum| ≤ changed.length * (5 / 10 ^ 6) := by
  obtain ⟨g', h1, _, h3⟩ := toRelativeE_program g
  refine ⟨g', h1, ?_⟩
  have key : ∀ q ∈ (program g).zip (program g'), IsMove q.1 → q.2 ≠ q.1 →
      (q.1.e ≠ none ∧ q.2.e ≠ none) ∧ |(eWord q.2.raw : α) - q.2.e.getD 0| ≤ 5 / 10 ^ 6 := by
    rw [h3]
    generalize (RelSt.init : RelSt α) = s
    induction program g generalizing s with
    | nil => intro q hq; simp [scan] at hq
    | cons l ls ih =>
      intro q hq hm hne
      simp only [scan, List.zip_cons_cons, List.mem_cons] at hq
      rcases hq with rfl | hq
      · simp only at hm hne ⊢
        have n1 : ∀ d, d ∉ [c!"G0", c!"G1", c!"G2", c!"G3"] → ¬ HasCmd l d := by
          intro d hd h'
          obtain ⟨c, hc, hl⟩ := hm
          rw [HasCmd, hl, Option.some.injEq] at h'
          exact hd (h' ▸ hc)
        unfold relLine at hne ⊢
        rw [if_neg (n1 c!"M83" (by decide)), if_neg (n1 c!"M82" (by decide)), if_neg (n1 c!"G92" (by decide))] at hne ⊢
        by_cases hr : IsMove l ∧ s.relative = false
        · rw [if_pos hr] at hne ⊢
          cases hE : l.e with
          | none => rw [hE] at hne; exact absurd rfl hne
          | some e =>
            simp only
            refine ⟨⟨by simp, by simp [unsplit]⟩, ?_⟩
            exact eWord_unsplit { l with e := some (e - s.current), relativeE := some true } hm (e - s.current) rfl
        · rw [if_neg hr] at hne; exact absurd rfl hne
      · exact ih _ q hq hm hne
  intro n changed
  have hch : ∀ q ∈ changed, (q.1.e ≠ none ∧ q.2.e ≠ none) ∧ |(eWord q.2.raw : α) - q.2.e.getD 0| ≤ 5 / 10 ^ 6 := by
    intro q hq
    obtain ⟨hq1, hq2⟩ := List.mem_filter.1 hq
    have hq3 : IsMove q.1 ∧ q.2 ≠ q.1 := by simpa using hq2
    exact key q (List.mem_of_mem_take hq1) hq3.1 hq3.2
  refine ⟨fun q hq => (hch q hq).1, ?_⟩
  clear_value changed
  induction changed with
  | nil => simp
  | cons q qs ih =>
    have h0 := (hch q (by simp)).2
    have h1 := ih (fun q hq => hch q (by simp [hq]))
    simp only [List.map_cons, List.sum_cons, List.length_cons]
    push_cast
    rw [abs_le] at h0 h1 ⊢
    constructor <;> nlinarith [h0.1, h0.2, h1.1, h1.2]

/-- **C34** as the printer sees it.  Load a program in millimetres, convert it, and feed the *written texts* of both to two printers.  After any
number of lines in the class of `C31_conversion_partial` the net filament pushed differs by at most 0.000005 for each
move with an E word so far, and the head is off by at most 0.0005 for each of them.  Missing: programs outside the
class, for which not even the exact values agree. -/
theorem C34_written_partial {env : Env α} {data : List Str} {home : Home α} {g : GCode α} (h : GCode.load env data false home = .ok g)
    (hc : ∀ l ∈ g.lines, CommandFirst l.raw ∧ HomingClear (α := α) l.raw) (h20 : ∀ l ∈ g.lines, ¬ HasCmd l c!"G20") :
    ∃ g', g.toRelativeE = .ok g' ∧ ∀ n t, ({} : EModeSt).run (g.lines.take n) = some t →
      let a := Printer.start.final ⟨home.x, home.y, home.z⟩ ((g.lines.take n).map (·.raw))
      let b := Printer.start.final ⟨home.x, home.y, home.z⟩ (((program g').take n).map (·.raw))
      let k : α := ((g.lines.take n).filter (fun l => IsMove l ∧ l.e ≠ none)).length
      |b.pushed - a.pushed| ≤ k * (5 / 10 ^ 6) ∧ |b.pos.x - a.pos.x| ≤ k * (5 / 10 ^ 4) ∧
      |b.pos.y - a.pos.y| ≤ k * (5 / 10 ^ 4) ∧ |b.pos.z - a.pos.z| ≤ k * (5 / 10 ^ 4) ∧ b.rel = a.rel ∧ b.tool = a.tool := by
  have hl : g.lines = program g := (load_indexed h).flat
  obtain ⟨g', h1, h2, h3⟩ := C31_conversion_partial g ⟨home.x, home.y, home.z⟩ Printer.start rfl
  obtain ⟨g'', h1', _, hprog⟩ := toRelativeE_program g
  rw [h1] at h1'
  obtain rfl : g' = g'' := Except.ok.inj h1'
  refine ⟨g', h1, ?_⟩
  intro n t ht a b k
  have hsub : ∀ l ∈ g.lines.take n, l ∈ g.lines := fun l hl => List.mem_of_mem_take hl
  obtain ⟨e1, e2, e3, e4⟩ := h3 n t (by rw [← hl]; exact ht)
  have ha : a = Printer.start.run ⟨home.x, home.y, home.z⟩ ((program g).take n) := by
    rw [← hl]; exact (load_exec h hc n).symm
  have htx := load_textual h hc h20
  have near := rel_written (home := ⟨home.x, home.y, home.z⟩) (g.lines.take n) (s := RelSt.init)
    (w := Printer.start) (q := Printer.start) (k := 0)
    ((Near.self _).mono (by simp) (by simp) (by simp)) rfl
    (fun l hl => htx l (hsub l hl)) (fun l hl => h20 l (hsub l hl))
  rw [Nat.zero_add] at near
  have hk : k = ((g.lines.take n).filter (fun l => IsMove l ∧ l.e ≠ none)).length := rfl
  rw [← hk] at near
  rw [hl, scan_take, ← hprog] at near
  have hbe : b = Printer.start.final ⟨home.x, home.y, home.z⟩ (((program g').take n).map (·.raw)) := rfl
  rw [← hbe] at near
  rw [← ha] at e1 e2 e3 e4
  clear_value a b k
  generalize Printer.start.run ⟨home.x, home.y, home.z⟩ ((program g').take n) = q at near e1 e2 e3 e4
  refine ⟨?_, ?_, ?_, ?_, ?_, ?_⟩
  · rw [← e2, near.push]; exact near.e
  · rw [← e3]; exact near.px
  · rw [← e3]; exact near.py
  · rw [← e3]; exact near.pz
  · rw [near.rel]; have := congrArg Printer.rel e1; exact this
  · rw [near.tool]; have := congrArg Printer.tool e1; exact this

example : (∀ l ∈ (loadQ rSample).lines, CommandFirst l.raw ∧ HomingClear (α := ℚ) l.raw) ∧
    (∀ l ∈ (loadQ rSample).lines, ¬ HasCmd l c!"G20") := by decide +kernel
/-- The rounding does happen: three moves of 0.0000049 mm come out as nothing. -/
example : GCode.load qEnv [c!"M82", c!"G1 E0.0000049", c!"G1 E0.0000098", c!"G1 E0.0000147"] =
      .ok (loadQ [c!"M82", c!"G1 E0.0000049", c!"G1 E0.0000098", c!"G1 E0.0000147"]) ∧
    (({} : EModeSt).run (loadQ [c!"M82", c!"G1 E0.0000049", c!"G1 E0.0000098", c!"G1 E0.0000147"]).lines).isSome ∧
    pushedBy (texts (relQ (loadQ [c!"M82", c!"G1 E0.0000049", c!"G1 E0.0000098", c!"G1 E0.0000147"]))) = 0 := by decide +kernel

/-! ### C35: the framework -/

theorem filterLayers_error {σ : Type} (f : OpFilter σ α) (Ls : List (Layer α)) : ∀ s e,
    filterLayers f s Ls = .error e → filterLines f s (Ls.flatMap (·.lines)) = .error e := by
  induction Ls with
  | nil => intro s e h; simp [filterLayers] at h
  | cons L Ls ih =>
    intro s e h
    rw [List.flatMap_cons, filterLines_append]
    unfold filterLayers at h
    cases h1 : filterLines f s L.lines with
    | error e1 => rw [h1] at h; simpa using h
    | ok r =>
      obtain ⟨s1, out⟩ := r
      rw [h1] at h
      simp only at h ⊢
      cases h2 : filterLayers f s1 Ls with
      | error e2 =>
        rw [h2] at h
        simp only [Except.error.injEq] at h
        subst h
        rw [ih s1 _ h2]
      | ok r => obtain ⟨s2, outs⟩ := r; rw [h2] at h; simp at h

/-- **C35** (splicing).  Running any stateful filter over a program is calling it on each line in program order, layer
after layer with the state handed on, each layer's lines being replaced by the concatenation of the replacements (`None`: the line, one line: that line, list: those lines); heights, durations and the rest of the object stay. -/
theorem C35_splice {σ : Type} (f : OpFilter σ α) (s : σ) (g : GCode α) :
    runFilter f s g = (filterLayers f s g.allLayers).map (fun r => (r.1, { g with allLayers := r.2 })) := by
  unfold runFilter
  rw [parseLayers_eq]
  cases filterLayers f s g.allLayers with
  | error e => rfl
  | ok r => rfl

/-- **C35** (whole program).  Layers do not matter to what happens to the lines: the output program is the filtered input
program, and the run fails exactly if it fails on the sequence of lines, with the same error. -/
theorem C35_flat {σ : Type} (f : OpFilter σ α) (s : σ) (g : GCode α) :
    (∀ e, runFilter f s g = .error e ↔ filterLines f s (program g) = .error e) ∧
    (∀ s' g', runFilter f s g = .ok (s', g') → filterLines f s (program g) = .ok (s', program g') ∧
      g'.allLayers.map (·.z) = g.allLayers.map (·.z) ∧ g'.allLayers.map (·.duration) = g.allLayers.map (·.duration)) := by
  rw [C35_splice]
  cases hf : filterLayers f s g.allLayers with
  | error e =>
    have := filterLayers_error f _ _ _ hf
    rw [← program_def] at this
    refine ⟨fun e' => ?_, fun s' g' h => by simp [Except.map] at h⟩
    rw [this]; simp [Except.map]
  | ok r =>
    obtain ⟨s1, out⟩ := r
    obtain ⟨h1, h2, h3⟩ := filterLayers_flat f _ _ _ _ hf
    rw [← program_def] at h1
    refine ⟨fun e' => by rw [h1]; simp [Except.map], ?_⟩
    intro s' g' h
    simp only [Except.map, Except.ok.injEq, Prod.mk.injEq] at h
    obtain ⟨rfl, rfl⟩ := h
    refine ⟨?_, h2, h3⟩
    rw [h1, program_def]

/-- **C35** (identity).  A filter that always returns `None` leaves the object identical, whatever it does to its own
state. -/
theorem C35_keep {σ : Type} (f : OpFilter σ α) (hf : ∀ s l, ∃ s', f s l = .ok (s', .keep)) (s : σ) (g : GCode α) :
    ∃ s', runFilter f s g = .ok (s', g) := by
  have lines : ∀ (ls : List (PyLine α)) s, ∃ s', filterLines f s ls = .ok (s', ls) := by
    intro ls
    induction ls with
    | nil => intro s; exact ⟨s, rfl⟩
    | cons l ls ih =>
      intro s
      obtain ⟨s1, h1⟩ := hf s l
      obtain ⟨s2, h2⟩ := ih s1
      exact ⟨s2, by simp [filterLines, h1, h2, replacement]⟩
  have layers : ∀ (Ls : List (Layer α)) s, ∃ s', filterLayers f s Ls = .ok (s', Ls) := by
    intro Ls
    induction Ls with
    | nil => intro s; exact ⟨s, rfl⟩
    | cons L Ls ih =>
      intro s
      obtain ⟨s1, h1⟩ := lines L.lines s
      obtain ⟨s2, h2⟩ := ih s1
      exact ⟨s2, by simp [filterLayers, h1, h2]⟩
  obtain ⟨s', h⟩ := layers g.allLayers s
  exact ⟨s', by rw [C35_splice, h]; rfl⟩

/-- A filter using all three kinds of results: it doubles moves, drops comments and counts. -/
def demoFilter : OpFilter ℕ ℚ := fun n l =>
  if l.command = none then .ok (n, .many [])
  else if l.command = some c!"G1" then .ok (n + 1, .many [l, l])
  else if l.command = some c!"M82" then .ok (n, .one { raw := c!"M83" })
  else .ok (n, .keep)

example : okOr (0, []) ((runFilter demoFilter 0 (loadQ [c!"M82", c!"; c", c!"G1 X1", c!"G28"])).map (fun r => (r.1, texts r.2))) =
    (1, [c!"M83", c!"G1 X1", c!"G1 X1", c!"G28"]) := by decide +kernel
example : ∀ s l, ∃ s', (fun (n : ℕ) (_ : PyLine ℚ) => (.ok (n + 1, .keep) : Except Err (ℕ × FResult ℚ))) s l = .ok (s', .keep) :=
  fun s _ => ⟨s + 1, rfl⟩

end GCodeUtils
