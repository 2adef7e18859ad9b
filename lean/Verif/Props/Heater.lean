import Verif.Lemmas.Heater
import Verif.Props.TempCal
import Verif.Props.Visit

/-
  C86, C87: what a printer does with a temperature tower and with pauses.
-/

set_option linter.unusedSectionVars false

namespace GCodeUtils

open Spec

variable {α : Type} [Field α] [LinearOrder α] [IsStrictOrderedRing α] [FloorRing α]

/-- C86, temperature towers. For any temperature function and any state of the object, a printer reading the written
program moves and extrudes exactly as with the original one: the same states, in the same order, with the lines of the
original program. -/
theorem C86_tower (env : Env α) (data : List Str) (light : Bool) (home : Home α) (g : GCode α) (h : GCode.load env data light home = .ok g)
    (mode : RoundMode) (temp : TempFn α) (minZ : α) (st st' : TempSt α) (hw : (writeTemp mode temp minZ st g).2 = .ok st')
    (origin : Pos3 α) (p : Printer α) :
    SameMotion origin p (g.lines.map (·.raw)) (writeTemp mode temp minZ st g).1 := by
  unfold writeTemp at hw ⊢
  cases hp : parseHeights minZ g.zmax st.zmin g.allLayers with
  | error er => rw [hp] at hw; simp at hw
  | ok q =>
    obtain ⟨b, top⟩ := q
    rw [hp] at hw
    simp only at hw ⊢
    obtain ⟨ins, k, e, l, f, n, o⟩ := writeLoop_any mode temp b top g.allLayers st.lastTarget
    have hk : k = g.allLayers.length := by
      apply o
      cases hr : (writeLoop mode temp b top st.lastTarget g.allLayers).2 with
      | error er => rw [hr] at hw; simp [Except.map] at hw
      | ok l => exact ⟨l, rfl⟩
    subst hk
    rw [List.take_length] at e l
    rw [e, (load_indexed h).flat]
    refine tower_motion origin p ins g.allLayers l ?_
    intro s hs p
    obtain ⟨t, ht⟩ := f s hs
    exact line_tempLine ht origin p

/-- C86, pauses: the printer moves and extrudes as with the original program, when the heights are known. -/
theorem C86_pause (env : Env α) (data : List Str) (light : Bool) (home : Home α) (g : GCode α)
    (hg : GCode.load env data light home = .ok g) (h : none ∉ g.allZs) (mode : RoundMode) (digits : ℕ) (pauses : List ℤ)
    (origin : Pos3 α) (p : Printer α) :
    ∃ g', g.pauseAt mode digits pauses = .ok g' ∧ SameMotion origin p (g.lines.map (·.raw)) (g'.allLines.map (·.raw)) := by
  obtain ⟨g', k, h1, h2, _⟩ := C38_count_partial env data light home g hg h mode digits pauses
  refine ⟨g', h1, ?_⟩
  rw [(load_indexed hg).flat]
  unfold GCode.allLines layerLines
  rw [h2]
  unfold withPauses
  have key : ∀ (Ls : List (Layer α)) (k : ℕ → ℕ), ∃ marked : List (Str × Bool),
      marked.map (·.1) = ((Ls.mapIdx (fun i L => { L with lines := List.replicate (k i) pauseLine ++ L.lines })).flatMap (·.lines)).map (·.raw) ∧
      (marked.filter (·.2)).map (·.1) = (Ls.map (·.lines)).flatten.map (·.raw) ∧
      ∀ m ∈ marked, m.2 = false → ∀ p : Printer α, p.line origin m.1 = p := by
    intro Ls
    induction Ls with
    | nil => intro k; exact ⟨[], rfl, rfl, by simp⟩
    | cons L Ls ih =>
      intro k
      obtain ⟨marked, h1, h2, h3⟩ := ih (fun i => k (i + 1))
      refine ⟨List.replicate (k 0) (c!"M226", false) ++ L.lines.map (fun l => (l.raw, true)) ++ marked, ?_, ?_, ?_⟩
      · rw [List.mapIdx_cons, List.flatMap_cons, List.map_append, List.map_append, h1]
        simp [Function.comp_def, (pauseLine_raw (α := α)).1]
      · rw [List.filter_append, List.filter_append, List.map_append, h2]
        have e1 : (List.replicate (k 0) (c!"M226", false)).filter (·.2) = [] := by
          rw [List.filter_eq_nil_iff]
          intro m hm
          rw [List.eq_of_mem_replicate hm]
          simp
        have e2 : (L.lines.map (fun l => (l.raw, true))).filter (·.2) = L.lines.map (fun l => (l.raw, true)) := by
          rw [List.filter_eq_self]; simp
        rw [e1, e2]
        simp [Function.comp_def]
      · intro m hm hf
        rw [List.mem_append, List.mem_append] at hm
        rcases hm with (hm | hm) | hm
        · rw [List.eq_of_mem_replicate hm]
          exact fun p => line_pause origin p
        · rw [List.mem_map] at hm
          obtain ⟨l, _, rfl⟩ := hm
          cases hf
        · exact h3 m hm hf
  obtain ⟨marked, m1, m2, m3⟩ := key g.allLayers k
  refine ⟨marked, m1, m2, ?_⟩
  rw [← m1]
  exact sameMotion_of_marked origin p marked m3

/-- The motion of `spire` is not trivial: the printer ends at height 0.4 with 5 mm pushed. -/
example : ((Printer.start : Printer ℚ).final ⟨0, 0, 0⟩ ((loadQ spire).lines.map (·.raw))).pos = ⟨5, 0, 2 / 5⟩ ∧
    ((Printer.start : Printer ℚ).final ⟨0, 0, 0⟩ (writeContinuous .halfEven 200 300 (1 / 10) (loadQ spire)).1).pushed = 5 ∧
    (∃ st, (writeContinuous .halfEven 200 300 (1 / 10) (loadQ spire)).2 = .ok st) :=
  ⟨by decide +kernel, by decide +kernel, { zmin := some (1 / 5), lastTarget := some (2333 / 10) }, by decide +kernel⟩

/-- C87, what the printer's heater is told. If the gradient stays in the safety range, then whenever a layer starts at a height
where the gradient applies, the temperature asked for last is the one for that height, to the tenth, from the beginning of
the layer to its first line that sets the temperature; provided that the program itself sets no temperature between the
first layer of the gradient and this one.  Without this proviso it is false, see `C87_refuted`. -/
theorem C87_temperature_partial (env : Env α) (data : List Str) (light : Bool) (home : Home α) (g : GCode α)
    (h : GCode.load env data light home = .ok g) (mode : RoundMode) (temp : TempFn α) (minZ : α) (T : α → α → α → α)
    (hT : ∀ b top, b < top → ∀ c, temp b top c = .ok (some (T b top c)))
    (hsafe : ∀ b top c, b < top → b ≤ c → c ≤ top → 150 ≤ T b top c ∧ T b top c ≤ 250) :
    writeTemp mode temp minZ {} g = ([], .error .runtimeError) ∨
    ∃ b top ins, IsBase minZ (altitudes g) b ∧ g.zmax = some top ∧ b < top ∧
      (writeTemp mode temp minZ {} g).1 = tower ins g.allLayers ∧ ins.length = g.allLayers.length ∧
      ∀ (i : ℕ) (L : Layer α) (c : α) (pre : List Str) (before : Option α),
        g.allLayers[i]? = some L → startHeight L = some c → c ≠ 0 → b ≤ c → c ≤ top →
        pre <+: L.lines.map (·.raw) → (∀ r ∈ pre, asksFor (α := α) r = none) →
        (∀ (j : ℕ) (M : Layer α), j < i → g.allLayers[j]? = some M →
          (∃ (k : ℕ) (N : Layer α), k ≤ j ∧ g.allLayers[k]? = some N ∧ InGradient b top N) →
          ∀ l ∈ M.lines, asksFor (α := α) l.raw = none) →
        (tower (ins.take i) (g.allLayers.take i) ++ (ins[i]?.join).toList ++ pre) <+: (writeTemp mode temp minZ {} g).1 ∧
        ∃ t, NearestTenth (T b top c) t ∧
          heater before (tower (ins.take i) (g.allLayers.take i) ++ (ins[i]?.join).toList ++ pre) = some t := by
  rcases writeTemp_loaded h mode temp minZ with ⟨_, hw⟩ | ⟨b, top, hb, hz, hlt, hw⟩
  · exact Or.inl hw
  · right
    obtain ⟨ts, ins, last, e1, f, t⟩ := hw _ (hT b top hlt)
    have hil : ins.length = g.allLayers.length := by rw [← f.length_eq, t.length]
    refine ⟨b, top, ins, hb, hz, hlt, by rw [e1], hil, ?_⟩
    have f' : List.Forall₂ (fun (t : Option α) i => (t = none ∧ i = none) ∨ ∃ u s, t = some u ∧ i = some s ∧ asksFor s = some u) ts ins := by
      rw [List.forall₂_iff_get] at f ⊢
      refine ⟨f.1, fun i h1 h2 => ?_⟩
      rcases f.2 i h1 h2 with hf | ⟨u, x, hu, hx, hl⟩
      · exact Or.inl hf
      · refine Or.inr ⟨u, x, hu, hx, ?_⟩
        have hlen : i < g.allLayers.length := by rw [← t.length]; exact h1
        obtain ⟨c, _, _, cb, ct, hn⟩ := t.sound i u _ (by
          rw [List.getElem?_eq_getElem h1]
          simpa using hu) (List.getElem?_eq_getElem hlen)
        obtain ⟨k1, k2⟩ := hsafe b top c hlt cb ct
        have hr := nearestTenth_between hn 1500 2500 (by push_cast; linarith) (by push_cast; linarith)
        push_cast at hr
        rcases hl with ⟨_, _, n, rfl, hn'⟩ | ⟨hout, _⟩
        · exact asksFor_temp hn'
        · exact absurd ⟨by linarith [hr.1], by linarith [hr.2]⟩ hout
    intro i L c pre before hL hc h0 hbc hct hpre hpq hq
    have hi : i < g.allLayers.length := by
      by_contra hx
      rw [List.getElem?_eq_none (by omega)] at hL; simp at hL
    constructor
    · rw [e1]
      obtain ⟨post, hpost⟩ := hpre
      have hI : i < ins.length := by omega
      have hsplit : tower ins g.allLayers = tower (ins.take i) (g.allLayers.take i) ++ (ins[i]?.join).toList ++ (L.lines.map (·.raw)) ++
          tower (ins.drop (i + 1)) (g.allLayers.drop (i + 1)) := by
        have hLe : g.allLayers[i] = L := by
          rw [List.getElem?_eq_getElem hi] at hL
          exact Option.some.inj hL
        conv_lhs => rw [← List.take_append_drop i ins, ← List.take_append_drop i g.allLayers,
          List.drop_eq_getElem_cons hI, List.drop_eq_getElem_cons hi]
        unfold tower
        rw [List.zipWith_append (by simp; omega), List.flatten_append, List.zipWith_cons_cons, List.flatten_cons, hLe,
          List.getElem?_eq_getElem hI]
        simp
      rw [hsplit, ← hpost]
      exact ⟨post ++ tower (ins.drop (i + 1)) (g.allLayers.drop (i + 1)), by simp⟩
    · have hquiet : ∀ (j : ℕ) (M : Layer α), j < i → g.allLayers[j]? = some M → ((none : Option α) ≠ none ∨ ∃ k u, k ≤ j ∧ ts[k]? = some (some u)) →
          ∀ l ∈ M.lines, asksFor (α := α) l.raw = none := by
        intro j M hj hM hor
        rcases hor with hor | ⟨k, u, hk, hu⟩
        · exact absurd rfl hor
        · have hkl : k < g.allLayers.length := by omega
          obtain ⟨c', hc', n0, cb, ct, _⟩ := t.sound k u _ hu (List.getElem?_eq_getElem hkl)
          exact hq j M hj hM ⟨k, _, hk, List.getElem?_eq_getElem hkl, c', hc', n0, cb, ct⟩
      have hti : i < ts.length := by rw [t.length]; exact hi
      have hfin : ∀ u, (((none : Option α).toList) ++ (ts.take (i + 1)).filterMap id).getLast? = some u → NearestTenth (T b top c) u →
          ∃ t, NearestTenth (T b top c) t ∧
            heater before (tower (ins.take i) (g.allLayers.take i) ++ (ins[i]?.join).toList ++ pre) = some t := by
        intro u hu hn
        refine ⟨u, hn, ?_⟩
        rw [heater_append, heater_quiet hpq]
        exact heater_tower f' t.length i hi none before (by simp) hquiet u hu
      have htake : ts.take (i + 1) = ts.take i ++ [ts[i]] := by
        rw [List.take_add_one, List.getElem?_eq_getElem hti]
        rfl
      cases htsi : ts[i] with
      | some u =>
        obtain ⟨c', hc', _, _, _, hn⟩ := t.sound i u L (by rw [List.getElem?_eq_getElem hti, htsi]) hL
        rw [hc] at hc'
        obtain rfl := Option.some.inj hc'
        refine hfin u ?_ hn
        rw [htake, htsi]
        simp
      | none =>
        obtain ⟨u, hu, hn⟩ := t.complete i L c (by rw [List.getElem?_eq_getElem hti, htsi]) hL hc h0 hbc hct
        refine hfin u ?_ hn
        rw [htake, htsi]
        simpa using hu

/-- A tower whose program sets the temperature itself in its second layer, as slicers do after the first layer. -/
def bossy : List Str := [c!"M104 S215", c!"G1 Z0.2", c!"G1 X1 E1", c!"G1 Z0.4", c!"M104 S190", c!"G1 X2 E2", c!"G1 Z0.6", c!"G1 X3 E3"]

/-- C87 is false when the program sets the temperature itself: asked for a gradient from 240 to 210, the second printed layer, for
which 220 was computed, is printed at 190. -/
theorem C87_refuted : GCode.load qEnv bossy = .ok (loadQ bossy) ∧
    (writeContinuous .halfEven 240 210 (1 / 10) (loadQ bossy)).1 =
      [c!"M104 S215", c!"M104 S230.0", c!"G1 Z0.2", c!"G1 X1 E1", c!"M104 S220.0", c!"G1 Z0.4", c!"M104 S190", c!"G1 X2 E2",
       c!"M104 S210.0", c!"G1 Z0.6", c!"G1 X3 E3"] ∧
    heater (none : Option ℚ) [c!"M104 S215", c!"M104 S230.0", c!"G1 Z0.2", c!"G1 X1 E1", c!"M104 S220.0", c!"G1 Z0.4", c!"M104 S190",
      c!"G1 X2 E2"] = some 190 := by decide +kernel

/-- The hypotheses are met by the continuous gradient from 220 to 200 … -/
example : (∀ b top : ℚ, b < top → ∀ c, continuousTemp 220 200 b top c = .ok (some (linear 220 200 b top c))) ∧
    (∀ b top c : ℚ, b < top → b ≤ c → c ≤ top → 150 ≤ linear 220 200 b top c ∧ linear 220 200 b top c ≤ 250) := by
  refine ⟨fun b top hlt c => continuousTemp_linear 220 200 b top hlt c, fun b top c hlt hb ht => ?_⟩
  obtain ⟨k1, k2⟩ := (C44_interpolation (220 : ℚ) 200 b top hlt).2.2.2.1 c hb ht
  norm_num at k1 k2
  exact ⟨by linarith, by linarith⟩

/-- … and by the layers of `spire`, which sets no temperature. -/
example : (loadQ spire).allLayers.length = 7 ∧ (∀ l ∈ (loadQ spire).lines, asksFor (α := ℚ) l.raw = none) ∧
    ((loadQ spire).allLayers.map startHeight) = [none, some (1 / 5), some (2 / 5), some (3 / 5), some (4 / 5), some (2 / 5), none] := by
  decide +kernel

end GCodeUtils
