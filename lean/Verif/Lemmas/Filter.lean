import Verif.Spec.Filter
import Verif.Lemmas.Fold
import Mathlib.Tactic.Linarith
import Mathlib.Tactic.Ring

/-
  Lemmas about the filter framework and the two simple filters.
-/

set_option linter.unusedSectionVars false

namespace GCodeUtils

open Spec

variable {α : Type} [Field α] [LinearOrder α] [IsStrictOrderedRing α] [FloorRing α]

/-! ### splicing -/

theorem parseLayerStep_fold {σ : Type} (f : OpFilter σ α) (ls : List (PyLine α)) :
    ∀ (s : σ) (d : Bool) (acc : List (PyLine α)),
      (∀ e, filterLines f s ls = .error e → ls.foldlM (parseLayerStep f) (s, d, acc) = .error e) ∧
      (∀ s' out, filterLines f s ls = .ok (s', out) → ∃ d', ls.foldlM (parseLayerStep f) (s, d, acc) = .ok (s', d', acc ++ out) ∧
        (d' = false → d = false ∧ out = ls)) := by
  induction ls with
  | nil =>
    intro s d acc
    refine ⟨fun e h => by simp [filterLines] at h, ?_⟩
    intro s' out h
    simp only [filterLines, Except.ok.injEq, Prod.mk.injEq] at h
    obtain ⟨rfl, rfl⟩ := h
    exact ⟨d, by simp [pure, Except.pure], fun h => ⟨h, rfl⟩⟩
  | cons l ls ih =>
    intro s d acc
    rw [List.foldlM_cons]
    unfold filterLines
    cases hf : f s l with
    | error e =>
      have : parseLayerStep f (s, d, acc) l = .error e := by simp [parseLayerStep, hf]
      rw [this]
      refine ⟨fun e' h => ?_, fun s' out h => by simp at h⟩
      simpa [bind, Except.bind] using h
    | ok p =>
      obtain ⟨s1, r⟩ := p
      obtain ⟨d1, h1, hd⟩ : ∃ d1, parseLayerStep f (s, d, acc) l = .ok (s1, d1, acc ++ replacement l r) ∧
          (d1 = false → d = false ∧ replacement l r = [l]) := by
        cases r with
        | keep => exact ⟨d, by simp [parseLayerStep, hf, replacement], fun h => ⟨h, rfl⟩⟩
        | one r => exact ⟨true, by simp [parseLayerStep, hf, replacement], fun h => by simp at h⟩
        | many rs => exact ⟨true, by simp [parseLayerStep, hf, replacement], fun h => by simp at h⟩
      rw [h1]
      simp only [bind, Except.bind]
      obtain ⟨ih1, ih2⟩ := ih s1 d1 (acc ++ replacement l r)
      cases hg : filterLines f s1 ls with
      | error e =>
        refine ⟨fun e' h => ?_, fun s' out h => by simp at h⟩
        rw [ih1 e hg]
        simpa using h
      | ok q =>
        obtain ⟨s2, o2⟩ := q
        refine ⟨fun e' h => by simp at h, fun s' out h => ?_⟩
        simp only [Except.ok.injEq, Prod.mk.injEq] at h
        obtain ⟨rfl, rfl⟩ := h
        obtain ⟨d', h2, h3⟩ := ih2 _ _ hg
        refine ⟨d', by rw [h2, List.append_assoc], fun h => ?_⟩
        obtain ⟨h4, h5⟩ := h3 h
        obtain ⟨h6, h7⟩ := hd h4
        exact ⟨h6, by rw [h7, h5]; rfl⟩

theorem parseLayer_eq {σ : Type} (f : OpFilter σ α) (s : σ) (ls : List (PyLine α)) :
    parseLayer f s ls = filterLines f s ls := by
  obtain ⟨h1, h2⟩ := parseLayerStep_fold f ls s false []
  unfold parseLayer
  cases hf : filterLines f s ls with
  | error e => rw [h1 e hf]
  | ok p =>
    obtain ⟨s', out⟩ := p
    obtain ⟨d', h3, h4⟩ := h2 _ _ hf
    rw [h3]
    cases d' with
    | true => simp
    | false => simp [(h4 rfl).2]

theorem parseLayers_eq {σ : Type} (f : OpFilter σ α) (Ls : List (Layer α)) :
    ∀ s, parseLayers f s Ls = filterLayers f s Ls := by
  induction Ls with
  | nil => intro s; rfl
  | cons L Ls ih =>
    intro s
    unfold parseLayers filterLayers
    rw [parseLayer_eq]
    cases filterLines f s L.lines with
    | error e => rfl
    | ok p =>
      simp only [ih]
      cases filterLayers f p.1 Ls <;> rfl

theorem filterLines_append {σ : Type} (f : OpFilter σ α) (a b : List (PyLine α)) :
    ∀ s, filterLines f s (a ++ b) = match filterLines f s a with
      | .error e => .error e
      | .ok (s1, o1) => match filterLines f s1 b with
        | .error e => .error e
        | .ok (s2, o2) => .ok (s2, o1 ++ o2) := by
  induction a with
  | nil => intro s; simp only [List.nil_append, filterLines]; cases filterLines f s b <;> rfl
  | cons l a ih =>
    intro s
    simp only [List.cons_append, filterLines]
    cases f s l with
    | error e => rfl
    | ok p =>
      simp only [ih]
      cases filterLines f p.1 a with
      | error e => rfl
      | ok q =>
        simp only
        cases filterLines f q.1 b with
        | error e => rfl
        | ok r => simp [List.append_assoc]

/-- Filtering layer by layer is filtering the whole program. -/
theorem filterLayers_flat {σ : Type} (f : OpFilter σ α) (Ls : List (Layer α)) :
    ∀ s s' Ls', filterLayers f s Ls = .ok (s', Ls') →
      filterLines f s (Ls.flatMap (·.lines)) = .ok (s', Ls'.flatMap (·.lines)) ∧
      Ls'.map (·.z) = Ls.map (·.z) ∧ Ls'.map (·.duration) = Ls.map (·.duration) := by
  induction Ls with
  | nil =>
    intro s s' Ls' h
    simp only [filterLayers, Except.ok.injEq, Prod.mk.injEq] at h
    obtain ⟨rfl, rfl⟩ := h
    exact ⟨rfl, rfl, rfl⟩
  | cons L Ls ih =>
    intro s s' Ls' h
    unfold filterLayers at h
    cases h1 : filterLines f s L.lines with
    | error e => rw [h1] at h; simp at h
    | ok p =>
      rw [h1] at h
      simp only at h
      cases h2 : filterLayers f p.1 Ls with
      | error e => rw [h2] at h; simp at h
      | ok q =>
        rw [h2] at h
        simp only [Except.ok.injEq, Prod.mk.injEq] at h
        obtain ⟨rfl, rfl⟩ := h
        obtain ⟨i1, i2, i3⟩ := ih _ _ _ h2
        refine ⟨?_, by simp [i2], by simp [i3]⟩
        rw [List.flatMap_cons, filterLines_append, h1]
        simp only [i1]
        simp

/-! ### one-to-one filters -/

/-- A filter that always succeeds and always produces one line. -/
def scan {σ : Type} (f : σ → PyLine α → σ × PyLine α) : σ → List (PyLine α) → σ × List (PyLine α)
  | s, [] => (s, [])
  | s, l :: ls => ((scan f (f s l).1 ls).1, (f s l).2 :: (scan f (f s l).1 ls).2)

theorem scan_length {σ : Type} (f : σ → PyLine α → σ × PyLine α) (ls : List (PyLine α)) :
    ∀ s, (scan f s ls).2.length = ls.length := by
  induction ls with
  | nil => intro s; rfl
  | cons l ls ih => intro s; simp [scan, ih]

theorem scan_take {σ : Type} (f : σ → PyLine α → σ × PyLine α) (ls : List (PyLine α)) :
    ∀ s n, (scan f s (ls.take n)).2 = (scan f s ls).2.take n := by
  induction ls with
  | nil => intro s n; simp [scan]
  | cons l ls ih =>
    intro s n
    cases n with
    | zero => simp [scan]
    | succ n => simp [scan, ih]

theorem scan_append {σ : Type} (f : σ → PyLine α → σ × PyLine α) (a b : List (PyLine α)) :
    ∀ s, scan f s (a ++ b) = ((scan f (scan f s a).1 b).1, (scan f s a).2 ++ (scan f (scan f s a).1 b).2) := by
  induction a with
  | nil => intro s; simp [scan]
  | cons l a ih => intro s; simp [scan, ih]

/-- `F` produces one line for each line as `f` says, on states satisfying `P`. -/
def OneToOne {σ : Type} (P : σ → Prop) (F : OpFilter σ α) (f : σ → PyLine α → σ × PyLine α) : Prop :=
  ∀ s l, P s → P (f s l).1 ∧ ∃ r, F s l = .ok ((f s l).1, r) ∧ replacement l r = [(f s l).2]

theorem filterLines_scan {σ : Type} {P : σ → Prop} {F : OpFilter σ α} {f : σ → PyLine α → σ × PyLine α}
    (h : OneToOne P F f) (ls : List (PyLine α)) : ∀ s, P s → P (scan f s ls).1 ∧ filterLines F s ls = .ok (scan f s ls) := by
  induction ls with
  | nil => intro s hs; exact ⟨hs, rfl⟩
  | cons l ls ih =>
    intro s hs
    obtain ⟨h1, r, h2, h3⟩ := h s l hs
    obtain ⟨i1, i2⟩ := ih _ h1
    refine ⟨i1, ?_⟩
    unfold filterLines
    rw [h2]
    simp only [i2, h3, scan, List.singleton_append]

/-- The scan layer by layer. -/
def scanLayers {σ : Type} (f : σ → PyLine α → σ × PyLine α) : σ → List (Layer α) → σ × List (Layer α)
  | s, [] => (s, [])
  | s, L :: Ls =>
    ((scanLayers f (scan f s L.lines).1 Ls).1,
      { L with lines := (scan f s L.lines).2 } :: (scanLayers f (scan f s L.lines).1 Ls).2)

theorem filterLayers_scan {σ : Type} {P : σ → Prop} {F : OpFilter σ α} {f : σ → PyLine α → σ × PyLine α}
    (h : OneToOne P F f) (Ls : List (Layer α)) : ∀ s, P s → filterLayers F s Ls = .ok (scanLayers f s Ls) := by
  induction Ls with
  | nil => intro s hs; rfl
  | cons L Ls ih =>
    intro s hs
    obtain ⟨h1, h2⟩ := filterLines_scan h L.lines s hs
    unfold filterLayers
    rw [h2]
    simp only [ih _ h1]
    rfl

theorem scanLayers_flat {σ : Type} (f : σ → PyLine α → σ × PyLine α) (Ls : List (Layer α)) :
    ∀ s, (scanLayers f s Ls).2.flatMap (·.lines) = (scan f s (Ls.flatMap (·.lines))).2 ∧
      (scanLayers f s Ls).2.map (fun L => (L.lines.length, L.z, L.duration)) =
        Ls.map (fun L => (L.lines.length, L.z, L.duration)) := by
  induction Ls with
  | nil => intro s; exact ⟨rfl, rfl⟩
  | cons L Ls ih =>
    intro s
    obtain ⟨i1, i2⟩ := ih (scan f s L.lines).1
    refine ⟨?_, ?_⟩
    · simp only [scanLayers, List.flatMap_cons, i1, scan_append]
    · simp only [scanLayers, List.map_cons, i2, scan_length]

theorem runFilter_scan {σ : Type} {P : σ → Prop} {F : OpFilter σ α} {f : σ → PyLine α → σ × PyLine α}
    (h : OneToOne P F f) (s : σ) (hs : P s) (g : GCode α) :
    (runFilter F s g).map (·.2) = .ok { g with allLayers := (scanLayers f s g.allLayers).2 } := by
  unfold runFilter
  rw [parseLayers_eq, filterLayers_scan h _ _ hs]
  rfl

/-! ### translation as a scan -/

/-- The translation filter on one line. -/
def transLine (s : TransSt α) (l : PyLine α) : TransSt α × PyLine α :=
  if IsMove l then (s, if s.absMode = some true then translateMove s l else l)
  else if HasCmd l c!"G90" then ({ s with absMode := some true }, l)
  else if HasCmd l c!"G91" then ({ s with absMode := some false }, l)
  else if HasCmd l c!"G92" then translateG92 s l
  else (s, l)

theorem inMoves_iff (l : PyLine α) : l.inMoves = true ↔ IsMove l := by
  unfold PyLine.inMoves IsMove moveGcodes
  cases l.command with
  | none => simp
  | some c => simp

theorem isCmd_iff (l : PyLine α) (c : Str) : l.isCmd c = true ↔ HasCmd l c := by simp [PyLine.isCmd, HasCmd]

theorem translateG92_first (s : TransSt α) (l : PyLine α) : (translateG92 s l).1.firstMoveAfterHome = s.firstMoveAfterHome := by
  rcases l with ⟨raw, command, x, y, z, e, f, i, j, im, rel, relE, cx, cy, cz, ce, cf, ct, ex⟩
  unfold translateG92
  split
  · rfl
  · cases x <;> cases y <;> rfl

theorem translate_oneToOne : OneToOne (fun s : TransSt α => s.firstMoveAfterHome = false) translateFilter transLine := by
  intro s l hs
  unfold translateFilter transLine
  by_cases hm : IsMove l
  · rw [if_pos hm, if_pos ((inMoves_iff l).2 hm)]
    refine ⟨hs, ?_⟩
    cases ha : s.absMode with
    | none => exact ⟨.keep, by simp, by simp [replacement]⟩
    | some b =>
      cases b with
      | true => exact ⟨.one (translateMove s l), by simp, by simp [replacement]⟩
      | false => exact ⟨.keep, by simp [hs], by simp [replacement]⟩
  · have hm' : ¬ l.inMoves = true := by rw [inMoves_iff]; exact hm
    rw [if_neg hm, if_neg hm']
    simp only [isCmd_iff]
    by_cases h1 : HasCmd l c!"G90"
    · simp only [if_pos h1]; exact ⟨hs, .keep, rfl, rfl⟩
    · simp only [if_neg h1]
      by_cases h2 : HasCmd l c!"G91"
      · simp only [if_pos h2]; exact ⟨hs, .keep, rfl, rfl⟩
      · simp only [if_neg h2]
        by_cases h3 : HasCmd l c!"G92"
        · simp only [if_pos h3]
          exact ⟨by rw [translateG92_first]; exact hs, .one (translateG92 s l).2, rfl, rfl⟩
        · simp only [if_neg h3]; exact ⟨hs, .keep, rfl, rfl⟩

theorem translate_eq (g : GCode α) (x y : Option α) :
    g.translate x y = .ok { g with allLayers := (scanLayers transLine (TransSt.init x y) g.allLayers).2 } :=
  runFilter_scan translate_oneToOne _ rfl g

/-- The argument values after the translation of a move. -/
theorem translateMove_args (s : TransSt α) (l : PyLine α) :
    (translateMove s l).x = l.x.map (· + s.tx) ∧ (translateMove s l).y = l.y.map (· + s.ty) ∧
    (translateMove s l).z = l.z ∧ (translateMove s l).e = l.e ∧ (translateMove s l).f = l.f ∧
    (translateMove s l).i = l.i ∧ (translateMove s l).j = l.j ∧ (translateMove s l).command = l.command := by
  rcases l with ⟨raw, command, x, y, z, e, f, i, j, im, rel, relE, cx, cy, cz, ce, cf, ct, ex⟩
  unfold translateMove
  by_cases hx : s.tx = 0 <;> by_cases hy : s.ty = 0 <;> cases x <;> cases y <;> simp [hx, hy, unsplit]

/-- A move that names neither X nor Y is left alone entirely. -/
theorem translateMove_other (s : TransSt α) (l : PyLine α) (hx : l.x = none) (hy : l.y = none) : translateMove s l = l := by
  unfold translateMove
  simp [hx, hy]

theorem translateMove_zero (s : TransSt α) (l : PyLine α) (hx : s.tx = 0) (hy : s.ty = 0) : translateMove s l = l := by
  unfold translateMove
  cases l.x <;> cases h : l.y <;> simp [hx, hy, h]

/-- `G92` with an X, Y or Z word. -/
theorem translateG92_args (s : TransSt α) (l : PyLine α) (h : ¬ (l.x = none ∧ l.y = none ∧ l.z = none)) :
    (translateG92 s l).2.x = l.x.map (· - s.tx) ∧ (translateG92 s l).2.y = l.y.map (· - s.ty) ∧
    (translateG92 s l).2.z = l.z ∧ (translateG92 s l).2.e = l.e ∧ (translateG92 s l).2.f = l.f ∧
    (translateG92 s l).2.i = l.i ∧ (translateG92 s l).2.j = l.j ∧ (translateG92 s l).2.command = l.command ∧
    (translateG92 s l).1.tx = (if l.x.isSome then 0 else s.tx) ∧ (translateG92 s l).1.ty = (if l.y.isSome then 0 else s.ty) ∧
    (translateG92 s l).1.absMode = s.absMode := by
  rcases l with ⟨raw, command, x, y, z, e, f, i, j, im, rel, relE, cx, cy, cz, ce, cf, ct, ex⟩
  unfold translateG92
  rw [if_neg h]
  cases x <;> cases y <;> simp [unsplit]

/-! ### simulation of a translated program -/

/-- One axis of the two runs: `t` the requested amount, `c` what the filter still adds, original and translated
position and origin. -/
def AxisInv (a : AxisSt) (t c p o p' o' : α) : Prop :=
  match a with
  | .home => c = t ∧ p' = p ∧ o' = o
  | .homeOff => c = 0 ∧ p' = p ∧ o' = o + t
  | .placed => c = t ∧ p' = p + t ∧ o' = o
  | .placedOff => c = 0 ∧ p' = p + t ∧ o' = o + t

theorem AxisInv.shift {a : AxisSt} {t c p o p' o' : α} (h : AxisInv a t c p o p' o') :
    p' = p + (if a.isPlaced then t else 0) := by
  cases a <;> simp only [AxisInv] at h <;> simp [AxisSt.isPlaced, h]

/-- An absolute move. -/
theorem AxisInv.abs {a : AxisSt} {t c p o p' o' : α} (h : AxisInv a t c p o p' o') (v : Option α) :
    AxisInv (if v.isSome then a.place else a) t c (axis false p o v) o (axis false p' o' (v.map (· + c))) o' := by
  cases v with
  | none => simpa [axis] using h
  | some k =>
    cases a <;> simp only [AxisInv] at h <;> obtain ⟨rfl, rfl, rfl⟩ := h <;> simp [AxisInv, AxisSt.place, axis] <;> ring

/-- A relative move. -/
theorem AxisInv.rel {a : AxisSt} {t c p o p' o' : α} (h : AxisInv a t c p o p' o') (v : Option α) :
    AxisInv a t c (axis true p o v) o (axis true p' o' v) o' := by
  cases v with
  | none => simpa [axis] using h
  | some k =>
    cases a <;> simp only [AxisInv] at h <;> obtain ⟨rfl, rfl, rfl⟩ := h <;> simp [AxisInv, axis] <;> ring

/-- A `G92`. -/
theorem AxisInv.set {a b : AxisSt} {t c p o p' o' : α} (h : AxisInv a t c p o p' o') (v : Option α)
    (hb : (if v.isSome then a.relabel else some a) = some b) :
    AxisInv b t (if v.isSome then 0 else c) p (relabel p o v) p' (relabel p' o' (v.map (· - c))) := by
  cases v with
  | none =>
    simp only [Option.isSome_none, Bool.false_eq_true, if_false, Option.some.injEq] at hb
    subst hb
    simpa [relabel] using h
  | some k =>
    simp only [Option.isSome_some, if_true] at hb
    cases a <;> simp only [AxisSt.relabel, Option.some.injEq, reduceCtorEq] at hb <;> subst hb <;>
      simp only [AxisInv] at h <;> obtain ⟨rfl, rfl, rfl⟩ := h <;> simp [AxisInv, relabel] <;> ring

/-- A `G28`. -/
theorem AxisInv.home {a b : AxisSt} {t c p o p' o' hm : α} (h : AxisInv a t c p o p' o') (named : Bool)
    (hb : (if named then a.rehome else some a) = some b) :
    AxisInv b t c (if named then hm else p) (if named then 0 else o) (if named then hm else p') (if named then 0 else o') := by
  cases named with
  | false =>
    simp only [Bool.false_eq_true, if_false, Option.some.injEq] at hb
    subst hb
    simpa using h
  | true =>
    simp only [if_true] at hb
    cases a <;> simp only [AxisSt.rehome, Option.some.injEq, reduceCtorEq] at hb <;> subst hb <;>
      simp only [AxisInv] at h <;> simp [AxisInv, h]

/-- The two runs. -/
structure TransInv (tx ty : α) (t : TrackSt) (s : TransSt α) (p q : Printer α) : Prop where
  mode : t.mode = s.absMode
  rel : ∀ b, t.mode = some b → p.rel = !b
  x : AxisInv t.x tx s.tx p.pos.x p.org.x q.pos.x q.org.x
  y : AxisInv t.y ty s.ty p.pos.y p.org.y q.pos.y q.org.y
  rest : { q with pos := ⟨0, 0, q.pos.z⟩, org := ⟨0, 0, q.org.z⟩ } = { p with pos := ⟨0, 0, p.pos.z⟩, org := ⟨0, 0, p.org.z⟩ }

theorem exec_other (home : Pos3 α) (r : Printer α) (pos org : Pos3 α) {l : PyLine α} (hm : ¬ IsMove l) (h28 : ¬ HasCmd l c!"G28")
    (h90 : ¬ HasCmd l c!"G90") (h91 : ¬ HasCmd l c!"G91") (h92 : ¬ HasCmd l c!"G92") :
    Printer.exec home { r with pos := pos, org := org } l = { r.exec home l with pos := pos, org := org } ∧
    (r.exec home l).pos = r.pos ∧ (r.exec home l).org = r.org ∧ (r.exec home l).rel = r.rel := by
  unfold Printer.exec
  cases hc : l.command with
  | none => exact ⟨rfl, rfl, rfl, rfl⟩
  | some cmd =>
    have h0 : ¬ cmd ∈ [c!"G0", c!"G1", c!"G2", c!"G3"] := fun h => hm ⟨cmd, h, hc⟩
    have e28 : ¬ cmd = c!"G28" := fun h => h28 (by rw [HasCmd, hc, h])
    have e90 : ¬ cmd = c!"G90" := fun h => h90 (by rw [HasCmd, hc, h])
    have e91 : ¬ cmd = c!"G91" := fun h => h91 (by rw [HasCmd, hc, h])
    have e92 : ¬ cmd = c!"G92" := fun h => h92 (by rw [HasCmd, hc, h])
    simp only [if_neg h0, if_neg e28, if_neg e90, if_neg e91, if_neg e92]
    by_cases a1 : cmd = c!"G20"
    · simp [if_pos a1]
    · by_cases a2 : cmd = c!"G21"
      · simp [if_pos a2, if_neg a1]
      · by_cases a3 : cmd = c!"M82"
        · simp [if_pos a3, if_neg a1, if_neg a2]
        · by_cases a4 : cmd = c!"M83"
          · simp [if_pos a4, if_neg a1, if_neg a2, if_neg a3]
          · simp only [if_neg a1, if_neg a2, if_neg a3, if_neg a4]
            split <;> exact ⟨rfl, rfl, rfl, rfl⟩

theorem trans_step {home : Pos3 α} {tx ty : α} {t t' : TrackSt} {s : TransSt α} {p q : Printer α} {l : PyLine α}
    (h : TransInv tx ty t s p q) (ht : t.step l = some t') :
    TransInv tx ty t' (transLine s l).1 (p.exec home l) (q.exec home (transLine s l).2) := by
  rcases p with ⟨pi, pr, prE, pt, ⟨px, py, pz⟩, ⟨ox, oy, oz⟩, pe, peo, pf, pp, pm⟩
  rcases q with ⟨qi, qr, qrE, qt, ⟨qx, qy, qz⟩, ⟨ux, uy, uz⟩, qe, qeo, qf, qp, qm⟩
  obtain ⟨h1, h2, h3, h4, h5⟩ := h
  simp only [Printer.mk.injEq, Pos3.mk.injEq, true_and] at h5
  obtain ⟨rfl, rfl, rfl, rfl, rfl, rfl, rfl, rfl, rfl, rfl, rfl⟩ := h5
  unfold TrackSt.step at ht
  unfold transLine
  by_cases hm : IsMove l
  · rw [if_pos hm] at ht
    rw [if_pos hm]
    obtain ⟨c, hc, hl⟩ := hm
    by_cases hxy : l.x = none ∧ l.y = none
    · rw [if_pos hxy] at ht
      simp only [Option.some.injEq] at ht
      subst ht
      have : (if s.absMode = some true then translateMove s l else l) = l := by
        split
        · exact translateMove_other s l hxy.1 hxy.2
        · rfl
      simp only [this]
      have he : ∀ r : Printer α, r.exec home l = r.moveTo l.x l.y l.z l.e l.f := by
        intro r; unfold Printer.exec; rw [hl]; simp only [if_pos hc]
      rw [he, he]
      simp only [hxy.1, hxy.2]
      exact ⟨h1, h2, h3, h4, rfl⟩
    · rw [if_neg hxy] at ht
      cases hmode : t.mode with
      | none => rw [hmode] at ht; simp at ht
      | some b =>
        rw [hmode] at ht
        have hrel := h2 b hmode
        rw [h1] at hmode
        cases b with
        | false =>
          simp only [Option.some.injEq] at ht
          subst ht
          simp only [hmode]
          have he : ∀ r : Printer α, r.exec home l = r.moveTo l.x l.y l.z l.e l.f := by
            intro r; unfold Printer.exec; rw [hl]; simp only [if_pos hc]
          simp only [Option.some.injEq, Bool.false_eq_true, if_false]
          rw [he, he]
          simp only [Bool.not_false] at hrel
          subst hrel
          exact ⟨h1, h2, h3.rel l.x, h4.rel l.y, rfl⟩
        | true =>
          simp only [Option.some.injEq] at ht
          subst ht
          simp only [hmode, if_true]
          obtain ⟨a1, a2, a3, a4, a5, _, _, a6⟩ := translateMove_args s l
          have he : (Printer.exec home · l) = fun r : Printer α => r.moveTo l.x l.y l.z l.e l.f := by
            funext r; unfold Printer.exec; rw [hl]; simp only [if_pos hc]
          have he' : (Printer.exec home · (translateMove s l)) = fun r : Printer α => r.moveTo (l.x.map (· + s.tx)) (l.y.map (· + s.ty)) l.z l.e l.f := by
            funext r; unfold Printer.exec; rw [a6, hl]; simp only [if_pos hc, a1, a2, a3, a4, a5]
          rw [congrFun he, congrFun he']
          simp only [Bool.not_true] at hrel
          subst hrel
          exact ⟨hmode.symm, fun b hb => h2 b (by rw [h1, hmode]; exact hb), h3.abs l.x, h4.abs l.y, rfl⟩
  · rw [if_neg hm] at ht
    rw [if_neg hm]
    have hmove : ∀ c, l.command = some c → ¬ c ∈ [c!"G0", c!"G1", c!"G2", c!"G3"] := fun c hc hmem => hm ⟨c, hmem, hc⟩
    by_cases h90 : HasCmd l c!"G90"
    · rw [if_pos h90] at ht
      rw [if_pos h90]
      simp only [Option.some.injEq] at ht
      subst ht
      have he : ∀ r : Printer α, r.exec home l = { r with rel := false, relE := false } := by
        intro r; unfold Printer.exec; rw [h90]; simp
      simp only [he]
      exact ⟨rfl, fun b hb => by simp only [Option.some.injEq] at hb; subst hb; rfl, h3, h4, rfl⟩
    · rw [if_neg h90] at ht
      rw [if_neg h90]
      by_cases h91 : HasCmd l c!"G91"
      · rw [if_pos h91] at ht
        rw [if_pos h91]
        simp only [Option.some.injEq] at ht
        subst ht
        have he : ∀ r : Printer α, r.exec home l = { r with rel := true, relE := true } := by
          intro r; unfold Printer.exec; rw [h91]; simp
        simp only [he]
        exact ⟨rfl, fun b hb => by simp only [Option.some.injEq] at hb; subst hb; rfl, h3, h4, rfl⟩
      · rw [if_neg h91] at ht
        rw [if_neg h91]
        by_cases h28 : HasCmd l c!"G28"
        · rw [if_pos h28] at ht
          have h92 : ¬ HasCmd l c!"G92" := by rw [HasCmd, h28]; decide
          rw [if_neg h92]
          have he : ∀ r : Printer α, r.exec home l = r.homeAxes home l.x.isSome l.y.isSome l.z.isSome := by
            intro r; unfold Printer.exec; rw [h28]; simp
          simp only [he]
          simp only at ht
          cases hX : (if (l.x.isSome || !(l.x.isSome || l.y.isSome || l.z.isSome)) = true then t.x.rehome else some t.x) with
          | none => rw [hX] at ht; simp at ht
          | some ax =>
            cases hY : (if (l.y.isSome || !(l.x.isSome || l.y.isSome || l.z.isSome)) = true then t.y.rehome else some t.y) with
            | none => rw [hX, hY] at ht; simp at ht
            | some ay =>
              rw [hX, hY] at ht
              simp only [Option.some.injEq] at ht
              subst ht
              exact ⟨h1, h2, h3.home _ hX, h4.home _ hY, rfl⟩
        · rw [if_neg h28] at ht
          by_cases h92 : HasCmd l c!"G92"
          · rw [if_pos h92] at ht
            rw [if_pos h92]
            by_cases hn : l.x = none ∧ l.y = none ∧ l.z = none
            · rw [if_pos hn] at ht; simp at ht
            · rw [if_neg hn] at ht
              obtain ⟨a1, a2, a3, a4, a5, _, _, a6, a7, a8, a9⟩ := translateG92_args s l hn
              have he : ∀ r : Printer α, r.exec home l = r.relabelTo l.x l.y l.z l.e := by
                intro r; unfold Printer.exec; rw [h92]; simp
              have he' : ∀ r : Printer α, r.exec home (translateG92 s l).2 = r.relabelTo (l.x.map (· - s.tx)) (l.y.map (· - s.ty)) l.z l.e := by
                intro r; unfold Printer.exec; rw [a6, h92]; simp [a1, a2, a3, a4]
              rw [he, he']
              cases hX : (if l.x.isSome = true then t.x.relabel else some t.x) with
              | none => rw [hX] at ht; simp at ht
              | some ax =>
                cases hY : (if l.y.isSome = true then t.y.relabel else some t.y) with
                | none => rw [hX, hY] at ht; simp at ht
                | some ay =>
                  rw [hX, hY] at ht
                  simp only [Option.some.injEq] at ht
                  subst ht
                  refine ⟨by rw [a9]; exact h1, h2, ?_, ?_, rfl⟩
                  · rw [a7]; exact h3.set l.x hX
                  · rw [a8]; exact h4.set l.y hY
          · rw [if_neg h92] at ht
            rw [if_neg h92]
            simp only [Option.some.injEq] at ht
            subst ht
            obtain ⟨e1, e2, e3, e4⟩ := exec_other home ⟨qi, qr, qrE, qt, ⟨px, py, qz⟩, ⟨ox, oy, uz⟩, qe, qeo, qf, qp, qm⟩ ⟨qx, qy, qz⟩ ⟨ux, uy, uz⟩ hm h28 h90 h91 h92
            simp only at e1 e2 e3 e4
            rw [e1]
            refine ⟨h1, ?_, ?_, ?_, ?_⟩
            · rw [e4]; exact h2
            · rw [e2, e3]; exact h3
            · rw [e2, e3]; exact h4
            · rw [e2, e3]

theorem trans_run {home : Pos3 α} {tx ty : α} (ls : List (PyLine α)) : ∀ {t t' : TrackSt} {s : TransSt α} {p q : Printer α},
    TransInv tx ty t s p q → t.run ls = some t' →
    TransInv tx ty t' (scan transLine s ls).1 (p.run home ls) (q.run home (scan transLine s ls).2) := by
  induction ls with
  | nil =>
    intro t t' s p q h ht
    simp only [TrackSt.run, Option.some.injEq] at ht
    subst ht
    exact h
  | cons l ls ih =>
    intro t t' s p q h ht
    unfold TrackSt.run at ht
    cases h1 : t.step l with
    | none => rw [h1] at ht; simp at ht
    | some t1 =>
      rw [h1] at ht
      exact ih (trans_step h h1) ht

theorem trans_init (tx ty : α) (p : Printer α) : TransInv tx ty {} ⟨tx, ty, false, none⟩ p p :=
  ⟨rfl, fun _ h => by simp at h, ⟨rfl, rfl, rfl⟩, ⟨rfl, rfl, rfl⟩, rfl⟩

theorem track_append (a b : List (PyLine α)) : ∀ (t : TrackSt), t.run (a ++ b) = (t.run a).bind (·.run b) := by
  induction a with
  | nil => intro t; simp [TrackSt.run]
  | cons l a ih =>
    intro t
    simp only [List.cons_append, TrackSt.run]
    cases t.step l with
    | none => rfl
    | some t1 => simp [ih]

/-! ### translations without `G92` -/

theorem transLine_move {s : TransSt α} {l : PyLine α} (m : IsMove l) :
    transLine s l = (s, if s.absMode = some true then translateMove s l else l) := by
  unfold transLine; rw [if_pos m]

theorem transLine_stay {s : TransSt α} {l : PyLine α} (m : ¬ IsMove l) (h : ¬ HasCmd l c!"G92") :
    transLine s l = ({ s with absMode := if HasCmd l c!"G90" then some true else if HasCmd l c!"G91" then some false else s.absMode }, l) := by
  unfold transLine
  rw [if_neg m]
  by_cases h90 : HasCmd l c!"G90"
  · simp only [if_pos h90]
  · by_cases h91 : HasCmd l c!"G91"
    · simp only [if_neg h90, if_pos h91]
    · simp only [if_neg h90, if_neg h91, if_neg h]

/-- The state after lines without `G92`: only the mode can have changed. -/
theorem transLine_g92free (s : TransSt α) (l : PyLine α) (h : ¬ HasCmd l c!"G92") :
    (transLine s l).1.tx = s.tx ∧ (transLine s l).1.ty = s.ty ∧
    ∀ s' : TransSt α, s'.absMode = s.absMode → (transLine s' l).1.absMode = (transLine s l).1.absMode := by
  by_cases hm : IsMove l
  · simp only [transLine_move hm]; exact ⟨trivial, trivial, fun _ h => h⟩
  · simp only [transLine_stay hm h]
    exact ⟨trivial, trivial, fun s' h => by rw [h]⟩

/-- The filter leaves the command alone. -/
theorem transLine_command (s : TransSt α) (l : PyLine α) : (transLine s l).2.command = l.command := by
  unfold transLine
  by_cases hm : IsMove l
  · simp only [if_pos hm]
    split
    · exact (translateMove_args s l).2.2.2.2.2.2.2
    · rfl
  · simp only [if_neg hm]
    split
    · rfl
    · split
      · rfl
      · split
        · by_cases hn : l.x = none ∧ l.y = none ∧ l.z = none
          · unfold translateG92; rw [if_pos hn]; rfl
          · exact (translateG92_args s l hn).2.2.2.2.2.2.2.1
        · rfl

theorem isMove_congr {a b : PyLine α} (h : a.command = b.command) : IsMove a ↔ IsMove b := by
  unfold IsMove; rw [h]
theorem hasCmd_congr {a b : PyLine α} (h : a.command = b.command) (c : Str) : HasCmd a c ↔ HasCmd b c := by
  unfold HasCmd; rw [h]

theorem transLine_compose {s s2 s3 : TransSt α} {l : PyLine α} (h : ¬ HasCmd l c!"G92") (hm : s.absMode = s2.absMode)
    (hm' : s.absMode = s3.absMode) (hx : s3.tx = s.tx + s2.tx) (hy : s3.ty = s.ty + s2.ty) :
    SameArgs (transLine s2 (transLine s l).2).2 (transLine s3 l).2 := by
  have hc := transLine_command s l
  have hc1 := isMove_congr hc
  have hc2 := hasCmd_congr hc c!"G90"
  have hc3 := hasCmd_congr hc c!"G91"
  have hc4 := hasCmd_congr hc c!"G92"
  have key : (transLine s2 (transLine s l).2).2 = if IsMove l then
      (if s.absMode = some true then translateMove s2 (translateMove s l) else l) else l := by
    by_cases m : IsMove l
    · rw [if_pos m, transLine_move (hc1.2 m), transLine_move m, ← hm]
      by_cases ha : s.absMode = some true
      · simp only [if_pos ha]
      · simp only [if_neg ha]
    · rw [if_neg m, transLine_stay m h]
      simp only
      rw [transLine_stay m h]
  have key3 : (transLine s3 l).2 = if IsMove l then (if s.absMode = some true then translateMove s3 l else l) else l := by
    by_cases m : IsMove l
    · rw [if_pos m, transLine_move m, hm']
    · rw [if_neg m, transLine_stay m h]
  rw [key, key3]
  by_cases m : IsMove l
  · simp only [if_pos m]
    by_cases ha : s.absMode = some true
    · simp only [if_pos ha]
      obtain ⟨a1, a2, a3, a4, a5, a6, a7, a8⟩ := translateMove_args s l
      obtain ⟨b1, b2, b3, b4, b5, b6, b7, b8⟩ := translateMove_args s2 (translateMove s l)
      obtain ⟨c1, c2, c3, c4, c5, c6, c7, c8⟩ := translateMove_args s3 l
      refine ⟨by rw [b8, a8, c8], ?_, ?_, by rw [b3, a3, c3], by rw [b4, a4, c4], by rw [b5, a5, c5], by rw [b6, a6, c6],
        by rw [b7, a7, c7]⟩
      · rw [b1, a1, c1, hx]; cases l.x <;> simp [add_assoc]
      · rw [b2, a2, c2, hy]; cases l.y <;> simp [add_assoc]
    · simp only [if_neg ha]; exact ⟨rfl, rfl, rfl, rfl, rfl, rfl, rfl, rfl⟩
  · simp only [if_neg m]; exact ⟨rfl, rfl, rfl, rfl, rfl, rfl, rfl, rfl⟩

theorem scan_compose (ls : List (PyLine α)) (h : ∀ l ∈ ls, ¬ HasCmd l c!"G92") :
    ∀ (s s2 s3 : TransSt α), s.absMode = s2.absMode → s.absMode = s3.absMode → s3.tx = s.tx + s2.tx → s3.ty = s.ty + s2.ty →
      List.Forall₂ SameArgs (scan transLine s2 (scan transLine s ls).2).2 (scan transLine s3 ls).2 ∧
      (scan transLine s ls).1.absMode = (scan transLine s2 (scan transLine s ls).2).1.absMode ∧
      (scan transLine s ls).1.absMode = (scan transLine s3 ls).1.absMode ∧
      (scan transLine s3 ls).1.tx = (scan transLine s ls).1.tx + (scan transLine s2 (scan transLine s ls).2).1.tx ∧
      (scan transLine s3 ls).1.ty = (scan transLine s ls).1.ty + (scan transLine s2 (scan transLine s ls).2).1.ty := by
  induction ls with
  | nil =>
    intro s s2 s3 h1 h2 h3 h4
    exact ⟨List.Forall₂.nil, h1, h2, h3, h4⟩
  | cons l ls ih =>
    intro s s2 s3 h1 h2 h3 h4
    have hl := h l (by simp)
    have hl' : ¬ HasCmd (transLine s l).2 c!"G92" := by rw [hasCmd_congr (transLine_command s l)]; exact hl
    obtain ⟨a1, a2, a3⟩ := transLine_g92free s l hl
    obtain ⟨b1, b2, b3⟩ := transLine_g92free s2 (transLine s l).2 hl'
    obtain ⟨c1, c2, c3⟩ := transLine_g92free s3 l hl
    have e1 : (transLine s l).1.absMode = (transLine s2 (transLine s l).2).1.absMode := by
      by_cases m : IsMove l
      · rw [transLine_move ((isMove_congr (transLine_command s l)).2 m), transLine_move m]; exact h1
      · rw [transLine_stay m hl]
        simp only
        rw [transLine_stay m hl, h1]
    obtain ⟨i1, i2, i3, i4, i5⟩ := ih (fun l hl => h l (by simp [hl])) (transLine s l).1 (transLine s2 (transLine s l).2).1
      (transLine s3 l).1 e1 (c3 s h2) (by rw [a1, b1, c1, h3]) (by rw [a2, b2, c2, h4])
    exact ⟨List.Forall₂.cons (transLine_compose hl h1 h2 h3 h4) i1, i2, i3, i4, i5⟩

/-! ### relative extrusion as a scan -/

/-- The relative-extrusion filter on one line. -/
def relLine (s : RelSt α) (l : PyLine α) : RelSt α × PyLine α :=
  if HasCmd l c!"M83" then ({ s with relative := true }, l)
  else if HasCmd l c!"M82" then ({ s with relative := false }, rawToLine c!"M83")
  else if HasCmd l c!"G92" then
    match l.e with
    | some e => ({ s with current := e }, l)
    | none => if l.x = none ∧ l.y = none ∧ l.z = none then ({ s with current := 0 }, l) else (s, l)
  else if IsMove l ∧ s.relative = false then
    match l.e with
    | some e => ({ s with current := e }, unsplit { l with e := some (e - s.current), relativeE := some true })
    | none => (s, l)
  else (s, l)

theorem rel_oneToOne : OneToOne (fun _ : RelSt α => True) relExtFilter relLine := by
  intro s l _
  refine ⟨trivial, ?_⟩
  unfold relExtFilter relLine
  simp only [isCmd_iff]
  by_cases h1 : HasCmd l c!"M83"
  · simp only [if_pos h1]; exact ⟨.keep, rfl, rfl⟩
  · simp only [if_neg h1]
    by_cases h2 : HasCmd l c!"M82"
    · simp only [if_pos h2]; exact ⟨.one _, rfl, rfl⟩
    · simp only [if_neg h2]
      by_cases h3 : HasCmd l c!"G92"
      · simp only [if_pos h3]
        cases l.e with
        | some e => exact ⟨.keep, rfl, rfl⟩
        | none =>
          simp only
          by_cases h4 : l.x = none ∧ l.y = none ∧ l.z = none
          · simp only [if_pos h4]; exact ⟨.keep, rfl, rfl⟩
          · simp only [if_neg h4]; exact ⟨.keep, rfl, rfl⟩
      · simp only [if_neg h3]
        have hb : ((l.inMoves && !s.relative) = true) ↔ (IsMove l ∧ s.relative = false) := by
          rw [Bool.and_eq_true, inMoves_iff]; simp
        simp only [hb]
        by_cases h4 : IsMove l ∧ s.relative = false
        · simp only [if_pos h4]
          cases l.e with
          | some e => exact ⟨.one _, rfl, rfl⟩
          | none => exact ⟨.keep, rfl, rfl⟩
        · simp only [if_neg h4]; exact ⟨.keep, rfl, rfl⟩

theorem toRelativeE_eq (g : GCode α) :
    g.toRelativeE = .ok { g with allLayers := (scanLayers relLine RelSt.init g.allLayers).2 } :=
  runFilter_scan rel_oneToOne _ trivial g

theorem m83_line : (rawToLine c!"M83" : PyLine α).command = some c!"M83" := by rfl

/-- The two runs. -/
structure RelInv (t : EModeSt) (s : RelSt α) (p q : Printer α) : Prop where
  same : q = { p with relE := q.relE }
  mode : s.relative = (t.known && t.rel)
  stated : t.known = true → q.relE = true ∧ p.relE = t.rel
  unstated : t.known = false → q.relE = p.relE
  sync : t.synced = true → s.current = p.e - p.eOrg

theorem exec_other_e (home : Pos3 α) (r : Printer α) (b : Bool) {l : PyLine α} (hm : ¬ IsMove l) (h90 : ¬ HasCmd l c!"G90")
    (h91 : ¬ HasCmd l c!"G91") (h92 : ¬ HasCmd l c!"G92") (h82 : ¬ HasCmd l c!"M82") (h83 : ¬ HasCmd l c!"M83") :
    Printer.exec home { r with relE := b } l = { r.exec home l with relE := b } ∧
    (r.exec home l).relE = r.relE ∧ (r.exec home l).e = r.e ∧ (r.exec home l).eOrg = r.eOrg := by
  unfold Printer.exec
  cases hc : l.command with
  | none => exact ⟨rfl, rfl, rfl, rfl⟩
  | some cmd =>
    have h0 : ¬ cmd ∈ [c!"G0", c!"G1", c!"G2", c!"G3"] := fun h => hm ⟨cmd, h, hc⟩
    have e82 : ¬ cmd = c!"M82" := fun h => h82 (by rw [HasCmd, hc, h])
    have e83 : ¬ cmd = c!"M83" := fun h => h83 (by rw [HasCmd, hc, h])
    have e90 : ¬ cmd = c!"G90" := fun h => h90 (by rw [HasCmd, hc, h])
    have e91 : ¬ cmd = c!"G91" := fun h => h91 (by rw [HasCmd, hc, h])
    have e92 : ¬ cmd = c!"G92" := fun h => h92 (by rw [HasCmd, hc, h])
    simp only [if_neg h0, if_neg e82, if_neg e83, if_neg e90, if_neg e91, if_neg e92]
    by_cases a1 : cmd = c!"G20"
    · simp [if_pos a1]
    · by_cases a2 : cmd = c!"G21"
      · simp [if_pos a2, if_neg a1]
      · by_cases a3 : cmd = c!"G28"
        · simp [if_pos a3, if_neg a1, if_neg a2, Printer.homeAxes]
        · simp only [if_neg a1, if_neg a2, if_neg a3]
          split <;> exact ⟨rfl, rfl, rfl, rfl⟩

theorem rel_step {home : Pos3 α} {t t' : EModeSt} {s : RelSt α} {p q : Printer α} {l : PyLine α}
    (h : RelInv t s p q) (ht : t.step l = some t') :
    RelInv t' (relLine s l).1 (p.exec home l) (q.exec home (relLine s l).2) := by
  rcases p with ⟨pi, pr, prE, pt, pos, org, pe, peo, pf, pp, pm⟩
  rcases q with ⟨qi, qr, qrE, qt, qpos, qorg, qe, qeo, qf, qp, qm⟩
  obtain ⟨h1, h2, h3, h4, h5⟩ := h
  simp only [Printer.mk.injEq, true_and] at h1
  obtain ⟨rfl, rfl, rfl, rfl, rfl, rfl, rfl, rfl, rfl, rfl⟩ := h1
  simp only at h3 h4 h5
  unfold EModeSt.step at ht
  unfold relLine
  by_cases hm : IsMove l
  · rw [if_pos hm] at ht
    obtain ⟨c, hc, hl⟩ := id hm
    have n1 : ¬ HasCmd l c!"M83" := by rw [HasCmd, hl, Option.some.injEq]; rintro rfl; simp at hc
    have n2 : ¬ HasCmd l c!"M82" := by rw [HasCmd, hl, Option.some.injEq]; rintro rfl; simp at hc
    have n3 : ¬ HasCmd l c!"G92" := by rw [HasCmd, hl, Option.some.injEq]; rintro rfl; simp at hc
    rw [if_neg n1, if_neg n2, if_neg n3]
    have he : ∀ (r : Printer α) (l' : PyLine α), l'.command = l.command → r.exec home l' = r.moveTo l'.x l'.y l'.z l'.e l'.f := by
      intro r l' h'; unfold Printer.exec; rw [h', hl]; simp only [if_pos hc]
    cases hE : l.e with
    | none =>
      rw [hE, if_pos rfl] at ht
      simp only [Option.some.injEq] at ht
      subst ht
      have hk : (if IsMove l ∧ s.relative = false then (s, l) else (s, l)) = (s, l) := by split <;> rfl
      simp only [hk, he _ l rfl, hE]
      refine ⟨rfl, h2, h3, h4, ?_⟩
      intro hs
      simp only [Printer.moveTo, Printer.push, add_zero]
      exact h5 hs
    | some k =>
      rw [hE, if_neg (by simp)] at ht
      by_cases hkn : t.known = true
      · rw [if_neg (by simp [hkn])] at ht
        obtain ⟨rfl, rfl⟩ := h3 hkn
        by_cases hr : t.rel = true
        · rw [if_pos hr] at ht
          simp only [Option.some.injEq] at ht
          subst ht
          rw [if_neg (by simp [h2, hkn, hr])]
          simp only [he _ l rfl, hE]
          refine ⟨?_, h2, fun _ => ⟨rfl, rfl⟩, fun h => by simp [hkn] at h, fun h => by simp at h⟩
          simp [Printer.moveTo, Printer.push, axis, hr]
        · rw [if_neg hr] at ht
          by_cases hs : t.synced = true
          · rw [if_pos hs] at ht
            simp only [Option.some.injEq] at ht
            subst ht
            rw [if_pos ⟨hm, by simp [h2, hr]⟩]
            simp only
            rw [he _ (unsplit { l with e := some (k - s.current), relativeE := some true }) rfl, he _ l rfl, hE]
            have hcur := h5 hs
            refine ⟨?_, h2, fun _ => ⟨rfl, rfl⟩, fun h => by simp [hkn] at h, fun _ => ?_⟩
            · have e1 : qe + (k - s.current) - qe = qeo + k - qe := by rw [hcur]; ring
              have hr' : t.rel = false := by simpa using hr
              simp only [Printer.moveTo, Printer.push, axis, unsplit, hr', if_true, e1, Bool.false_eq_true, if_false]
            · have hr' : t.rel = false := by simpa using hr
              simp only [Printer.moveTo, Printer.push, axis, hr', Bool.false_eq_true, if_false]
              ring
          · rw [if_neg hs] at ht; simp at ht
      · rw [if_pos (by simp [hkn])] at ht; simp at ht
  · rw [if_neg hm] at ht
    by_cases h83 : HasCmd l c!"M83"
    · rw [if_pos h83] at ht
      rw [if_pos h83]
      simp only [Option.some.injEq] at ht
      subst ht
      have he : ∀ r : Printer α, r.exec home l = { r with relE := true } := by
        intro r; unfold Printer.exec; rw [h83]; simp
      simp only [he]
      exact ⟨rfl, rfl, fun _ => ⟨rfl, rfl⟩, fun _ => rfl, h5⟩
    · rw [if_neg h83] at ht
      rw [if_neg h83]
      by_cases h82 : HasCmd l c!"M82"
      · rw [if_pos h82] at ht
        rw [if_pos h82]
        simp only [Option.some.injEq] at ht
        subst ht
        have he : ∀ r : Printer α, r.exec home l = { r with relE := false } := by
          intro r; unfold Printer.exec; rw [h82]; simp
        have he' : ∀ r : Printer α, r.exec home (rawToLine c!"M83") = { r with relE := true } := by
          intro r; unfold Printer.exec; rw [m83_line]; simp
        simp only [he, he']
        exact ⟨rfl, rfl, fun _ => ⟨rfl, rfl⟩, fun h => by simp at h, h5⟩
      · rw [if_neg h82] at ht
        rw [if_neg h82]
        by_cases h9 : HasCmd l c!"G90" ∨ HasCmd l c!"G91"
        · rw [if_pos h9] at ht
          have h92 : ¬ HasCmd l c!"G92" := by rcases h9 with h | h <;> rw [HasCmd, h] <;> decide
          rw [if_neg h92, if_neg (fun h => hm h.1)]
          by_cases hk : t.known = true
          · rw [if_pos hk] at ht; simp at ht
          · rw [if_neg hk] at ht
            simp only [Option.some.injEq] at ht
            subst ht
            have hk' : t.known = false := by simpa using hk
            obtain rfl := h4 hk'
            refine ⟨rfl, h2, fun h => absurd h hk, fun _ => rfl, ?_⟩
            intro hs
            rcases h9 with h | h
            · have : ∀ r : Printer α, r.exec home l = { r with rel := false, relE := false } := by
                intro r; unfold Printer.exec; rw [h]; simp
              rw [this]; exact h5 hs
            · have : ∀ r : Printer α, r.exec home l = { r with rel := true, relE := true } := by
                intro r; unfold Printer.exec; rw [h]; simp
              rw [this]; exact h5 hs
        · rw [if_neg h9] at ht
          by_cases h92 : HasCmd l c!"G92"
          · rw [if_pos h92] at ht
            rw [if_pos h92]
            have he : ∀ r : Printer α, r.exec home l = r.relabelTo l.x l.y l.z l.e := by
              intro r; unfold Printer.exec; rw [h92]; simp
            cases hE : l.e with
            | none =>
              rw [hE, if_pos rfl] at ht
              by_cases hn : l.x = none ∧ l.y = none ∧ l.z = none
              · rw [if_pos hn] at ht
                simp only [Option.some.injEq] at ht
                subst ht
                simp only [if_pos hn, he, hE]
                exact ⟨rfl, h2, h3, h4, fun h => by simp at h⟩
              · rw [if_neg hn] at ht
                simp only [Option.some.injEq] at ht
                subst ht
                simp only [if_neg hn, he, hE]
                exact ⟨rfl, h2, h3, h4, h5⟩
            | some k =>
              rw [hE, if_neg (by simp)] at ht
              simp only [Option.some.injEq] at ht
              subst ht
              simp only [he, hE]
              exact ⟨rfl, h2, h3, h4, fun _ => by simp [Printer.relabelTo, relabel]⟩
          · rw [if_neg h92] at ht
            rw [if_neg h92, if_neg (fun h => hm h.1)]
            simp only [Option.some.injEq] at ht
            subst ht
            push Not at h9
            obtain ⟨e1, e2, e3, e4⟩ := exec_other_e home ⟨qi, qr, prE, qt, qpos, qorg, qe, qeo, qf, qp, qm⟩ qrE hm h9.1 h9.2 h92 h82 h83
            simp only at e1 e2 e3 e4
            rw [e1]
            refine ⟨rfl, h2, ?_, ?_, ?_⟩
            · simpa only [e2] using h3
            · simpa only [e2] using h4
            · simpa only [e3, e4] using h5

theorem rel_run {home : Pos3 α} (ls : List (PyLine α)) : ∀ {t t' : EModeSt} {s : RelSt α} {p q : Printer α},
    RelInv t s p q → t.run ls = some t' →
    RelInv t' (scan relLine s ls).1 (p.run home ls) (q.run home (scan relLine s ls).2) := by
  induction ls with
  | nil =>
    intro t t' s p q h ht
    simp only [EModeSt.run, Option.some.injEq] at ht
    subst ht
    exact h
  | cons l ls ih =>
    intro t t' s p q h ht
    unfold EModeSt.run at ht
    cases h1 : t.step l with
    | none => rw [h1] at ht; simp at ht
    | some t1 =>
      rw [h1] at ht
      exact ih (rel_step h h1) ht

theorem rel_init (p : Printer α) (h : p.e = p.eOrg) : RelInv {} RelSt.init p p :=
  ⟨rfl, rfl, fun h => by simp at h, fun _ => rfl, fun _ => by rw [h]; simp [RelSt.init]⟩

theorem emode_append (a b : List (PyLine α)) : ∀ (t : EModeSt), t.run (a ++ b) = (t.run a).bind (·.run b) := by
  induction a with
  | nil => intro t; simp [EModeSt.run]
  | cons l a ih =>
    intro t
    simp only [List.cons_append, EModeSt.run]
    cases t.step l with
    | none => rfl
    | some t1 => simp [ih]

end GCodeUtils
