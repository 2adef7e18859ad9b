import Verif.Lemmas.Meaning
import Verif.Spec.Printer

set_option linter.unusedSectionVars false

namespace GCodeUtils

open Spec

variable {α : Type} [Field α] [LinearOrder α] [IsStrictOrderedRing α] [FloorRing α]

/-! ### argument values -/

/-- Argument by letter. -/
def PyLine.arg (l : PyLine α) (c : Char) : Option α :=
  if c = 'x' then l.x else if c = 'y' then l.y else if c = 'z' then l.z else if c = 'e' then l.e
  else if c = 'f' then l.f else if c = 'i' then l.i else if c = 'j' then l.j else none

theorem setArg_arg (l : PyLine α) (c : Char) (v : α) (k : Char) (hk : k ∈ c!"xyzefij") :
    (l.setArg c v).arg k = if c = k then some v else l.arg k := by
  simp only [List.mem_cons, List.not_mem_nil, or_false] at hk
  unfold PyLine.setArg
  rcases hk with rfl | rfl | rfl | rfl | rfl | rfl | rfl <;>
    (split_ifs <;> first | (subst_vars; rfl) | (exfalso; subst_vars; simp_all))

theorem fold_arg {u : α} (toks : List Tok) : ∀ {l l' : PyLine α}, toks.foldlM (parseTok u) l = .ok l' →
    ∀ k ∈ c!"xyzefij", l'.arg k = (value u (toks.filterMap id) k).or (l.arg k) := by
  induction toks with
  | nil =>
    intro l l' h k _
    simp only [List.foldlM_nil, pure, Except.pure, Except.ok.injEq] at h
    subst h; simp [value]
  | cons t ts ih =>
    intro l l' h k hk
    rw [foldlM_cons_ok] at h
    obtain ⟨l1, h1, h2⟩ := h
    rw [ih h2 k hk]
    cases t with
    | none =>
      simp only [parseTok, Except.ok.injEq] at h1
      subst h1; simp
    | some p =>
      obtain ⟨c, v⟩ := p
      simp only [List.filterMap_cons, id, value]
      rw [Option.or_assoc]
      congr 1
      simp only [parseTok] at h1
      by_cases hc : (!nonArgLetters.contains c && !v.isEmpty) = true
      · rw [if_pos hc] at h1
        cases hp : (parseFloat v : Option α) with
        | none => rw [hp] at h1; simp at h1
        | some a =>
          rw [hp] at h1
          simp only [Except.ok.injEq] at h1
          subst h1
          rw [setArg_arg _ _ _ _ hk]
          have hv : v ≠ [] := by
            simp only [Bool.and_eq_true, Bool.not_eq_true', List.isEmpty_eq_false_iff] at hc
            exact hc.2
          by_cases hck : c = k <;> simp [hck, hv]
      · rw [if_neg hc] at h1
        simp only [Except.ok.injEq] at h1
        subst h1
        have : ¬ (c = k ∧ v ≠ []) := by
          rintro ⟨rfl, hv⟩
          apply hc
          have : nonArgLetters.contains c = false := by
            simp only [List.mem_cons, List.not_mem_nil, or_false] at hk
            rcases hk with rfl | rfl | rfl | rfl | rfl | rfl | rfl <;> decide
          rw [this]
          simp [hv]
        rw [if_neg this]
        rfl

theorem value_scale (u : α) (ws : List (Char × Str)) (k : Char) : value u ws k = (value 1 ws k).map (u * ·) := by
  induction ws with
  | nil => rfl
  | cons w ws ih =>
    obtain ⟨c, v⟩ := w
    simp only [value, ih]
    cases value (1 : α) ws k with
    | some a => rfl
    | none =>
      simp only [Option.map_none, Option.none_or]
      split_ifs
      · simp
      · rfl

theorem value_none_of_absent (u : α) (ws : List (Char × Str)) (k : Char) (h : ws.any (·.1 == k) = false) :
    value u ws k = none := by
  induction ws with
  | nil => rfl
  | cons w ws ih =>
    obtain ⟨c, v⟩ := w
    simp only [List.any_cons, Bool.or_eq_false_iff, beq_eq_false_iff_ne, ne_eq] at h
    simp only [value, ih h.2, Option.none_or]
    rw [if_neg]
    rintro ⟨h1, _⟩; exact h.1 h1

/-! ### reading a line -/

theorem not_hasCommand_inert {r : Str} (h : dropN (findall (lower r)) = []) :
    r.head? ≠ some 'G' ∧ r.head? ≠ some 'M' ∧ r.head? ≠ some 'T' := by
  have key : ∀ c, c ∈ c!"GMT" → r.head? ≠ some c := by
    intro c hc hr
    have : HasCommand r := by
      cases r with
      | nil => simp at hr
      | cons d r =>
        simp only [List.head?_cons, Option.some.injEq] at hr
        subst hr
        refine ⟨d, by simp, ?_⟩
        simp only [List.mem_cons, List.not_mem_nil, or_false] at hc
        rcases hc with rfl | rfl | rfl <;> decide
    exact dropN_ne_nil this h
  exact ⟨key _ (by decide), key _ (by decide), key _ (by decide)⟩

/-- Three ways a line can read. -/
theorem instr_cases (r : Str) (h : CommandFirst r) :
    (dropN (findall (lower r)) = [] ∧ instr r = none) ∨
    (∃ ts, dropN (findall (lower r)) = none :: ts ∧ instr r = none) ∨
    (∃ c v ts, dropN (findall (lower r)) = some (c, v) :: ts ∧
      instr r = some (c.toUpper :: v, (c, v) :: ts.filterMap id)) := by
  unfold CommandFirst at h
  unfold instr
  cases hf : findall (lower r) with
  | nil =>
    left
    simp [dropN, words, hf]
  | cons t ts =>
    rw [hf] at h
    cases t with
    | none =>
      right; left
      simp only at h
      rw [h]
      exact ⟨ts, rfl, rfl⟩
    | some p =>
      obtain ⟨c, v⟩ := p
      have hw : words r = (c, v) :: ts.filterMap id := by simp [words, hf]
      by_cases hc : c = 'n'
      · subst hc
        cases ts with
        | nil => left; rw [hw]; exact ⟨rfl, rfl⟩
        | cons t2 ts2 =>
          cases t2 with
          | none =>
            right; left
            simp only at h
            have h' : (none :: ts2 : List Tok).filterMap id = [] := by simpa using h
            rw [hw, h']
            exact ⟨ts2, rfl, rfl⟩
          | some q =>
            obtain ⟨c2, v2⟩ := q
            right; right
            rw [hw]
            exact ⟨c2, v2, ts2, rfl, rfl⟩
      · right; right
        refine ⟨c, v, ts, by simp [dropN, hc], ?_⟩
        rw [hw]
        split
        · rename_i heq; simp at heq; exact absurd heq.1.1 hc
        · rename_i heq; simp at heq; exact absurd heq.1.1 hc
        · rename_i heq; simp only [List.cons.injEq, Prod.mk.injEq] at heq; obtain ⟨⟨rfl, rfl⟩, rfl⟩ := heq; rfl
        · rename_i heq; simp at heq

/-- A line whose text is its own command changes nothing. -/
theorem process_inert {home : Home α} {m m' : Machine α} {r : Str} {l : PyLine α}
    (h : dropN (findall (lower r)) = []) (hp : processLine home m { raw := r } = .ok (m', l)) :
    m' = m ∧ l.arg = (fun _ => none) ∧ l.isMove = false ∧ l.extruding = none ∧
      (r ≠ [] → l.currentX = some m.currentX ∧ l.currentY = some m.currentY ∧ l.currentZ = some m.currentZ ∧
        l.currentE = some m.currentE ∧ l.currentF = some m.currentF) := by
  obtain ⟨hG, hM, hT⟩ := not_hasCommand_inert h
  have hs : split ({ raw := r } : PyLine α) = ({ raw := r, command := some r, isMove := false }, []) := by
    unfold split; simp only [h]
  rw [processLine_eq_core, hs] at hp
  unfold processCore at hp
  simp only at hp
  by_cases he : r.isEmpty = true
  · rw [if_pos he] at hp
    simp only [Except.ok.injEq, Prod.mk.injEq] at hp
    obtain ⟨rfl, rfl⟩ := hp
    refine ⟨rfl, ?_, rfl, rfl, fun hr => absurd (List.isEmpty_iff.1 he) hr⟩
    funext k; simp [PyLine.arg]
  · rw [if_neg he] at hp
    have hne : ∀ (d : Char) (n : Str), d ∈ c!"GMT" → r ≠ d :: n := by
      intro d n hd hr
      simp only [List.mem_cons, List.not_mem_nil, or_false] at hd
      rcases hd with rfl | rfl | rfl
      · exact hG (by rw [hr]; rfl)
      · exact hM (by rw [hr]; rfl)
      · exact hT (by rw [hr]; rfl)
    have hsm : stepModes m ({ raw := r, command := some r, isMove := false } : PyLine α) r =
        .ok (m, { raw := r, command := some r, isMove := false }) := by
      unfold stepModes
      simp only [Bool.false_eq_true, if_false]
      rw [if_neg (hne _ _ (by decide)), if_neg (hne _ _ (by decide)), if_neg (hne _ _ (by decide)),
        if_neg (hne _ _ (by decide)), if_neg (hne _ _ (by decide)), if_neg (hne _ _ (by decide)), if_neg hT]
    rw [hsm] at hp
    simp only at hp
    rw [if_neg hG] at hp
    have hpos : ∀ (l : PyLine α), l.isMove = false → stepPos home m l r = m := by
      intro l hl
      unfold stepPos
      rw [if_neg (by simp [hl]), if_neg (hne _ _ (by decide)), if_neg (hne _ _ (by decide))]
    simp only at hp
    rw [hpos _ rfl] at hp
    simp only [stepExtrusion, stamp, Except.ok.injEq, Prod.mk.injEq] at hp
    obtain ⟨rfl, rfl⟩ := hp
    refine ⟨rfl, ?_, rfl, rfl, fun _ => ⟨rfl, rfl, rfl, rfl, rfl⟩⟩
    funext k; simp [PyLine.arg]

/-- The arguments of a processed command line. -/
def cmdArgs (u : α) (cmd : Str) (ws : List (Char × Str)) (k : Char) : Option α :=
  if cmd.head? = some 'G' then value u ws k else none

/-- Processing a line with a command word, in terms of its words. -/
theorem process_cmd {home : Home α} {m m' : Machine α} {r : Str} {l : PyLine α} {c : Char} {v : Str} {ts : List Tok}
    (h : dropN (findall (lower r)) = some (c, v) :: ts) (hp : processLine home m { raw := r } = .ok (m', l)) :
    ∃ m1 l1 l2, stepModes m ({ raw := r, command := some (c.toUpper :: v), isMove := moveGcodes.contains (c.toUpper :: v) } : PyLine α) (c.toUpper :: v) = .ok (m1, l1) ∧
      (∀ k ∈ c!"xyzefij", l2.arg k = cmdArgs (if m1.imperial then 254 / 10 else 1) (c.toUpper :: v) ((c, v) :: ts.filterMap id) k) ∧
      ArgsOnly l1 l2 ∧
      m' = (stepExtrusion (stepPos home m1 l2 (c.toUpper :: v)) (stamp (stepPos home m1 l2 (c.toUpper :: v)) l2) (c.toUpper :: v)).1 ∧
      l = { (stepExtrusion (stepPos home m1 l2 (c.toUpper :: v)) (stamp (stepPos home m1 l2 (c.toUpper :: v)) l2) (c.toUpper :: v)).2 with currentE := some m'.currentE } := by
  have hs := split_eq ({ raw := r } : PyLine α) h
  rw [processLine_eq_core, hs] at hp
  unfold processCore at hp
  simp only [List.isEmpty_cons, Bool.false_eq_true, if_false] at hp
  cases h1 : stepModes m ({ raw := r, command := some (c.toUpper :: v), isMove := moveGcodes.contains (c.toUpper :: v) } : PyLine α) (c.toUpper :: v) with
  | error er => rw [h1] at hp; simp at hp
  | ok q =>
    obtain ⟨m1, l1⟩ := q
    rw [h1] at hp
    simp only at hp
    have hl1 : l1.command = some (c.toUpper :: v) ∧ ∀ k, l1.arg k = none := by
      rcases stepModes_shape h1 with ⟨_, _, rfl⟩ | ⟨_, rfl, _⟩ <;>
        exact ⟨rfl, fun k => by simp [PyLine.arg]⟩
    cases h2 : (if (c.toUpper :: v).head? = some 'G' then parseCoordinates l1 (some (c, v) :: ts) m1.imperial else .ok l1) with
    | error er => rw [h2] at hp; simp at hp
    | ok l2 =>
      rw [h2] at hp
      simp only [Except.ok.injEq, Prod.mk.injEq] at hp
      refine ⟨m1, l1, l2, rfl, ?_, ite_coords_argsOnly h2, hp.1.symm, ?_⟩
      · intro k hk
        unfold cmdArgs
        by_cases hG : (c.toUpper :: v).head? = some 'G'
        · rw [if_pos hG] at h2 ⊢
          unfold parseCoordinates at h2
          rw [hl1.1] at h2
          simp only at h2
          rw [if_neg (by simpa using hG)] at h2
          have := fold_arg _ h2 k hk
          rw [hl1.2 k, Option.or_none] at this
          rw [this]; rfl
        · rw [if_neg hG] at h2 ⊢
          simp only [Except.ok.injEq] at h2
          subst h2
          exact hl1.2 k
      · rw [← hp.2, ← hp.1]

/-! ### simulation -/

/-- The machine state of the model and the reference printer agree on everything but the filament. -/
structure GeoSim (m : Machine α) (p : Printer α) : Prop where
  inch : m.imperial = p.inch
  rel : m.relative = p.rel
  relE : m.relativeE = p.relE
  tool : m.currentTool = p.tool
  px : m.currentX = p.pos.x
  py : m.currentY = p.pos.y
  pz : m.currentZ = p.pos.z
  ox : m.offsetX = p.org.x
  oy : m.offsetY = p.org.y
  oz : m.offsetZ = p.org.z
  feed : m.currentF = p.feed

/-- Home position of the model as a point. -/
def Home.pos (h : Home α) : Pos3 α := ⟨h.x, h.y, h.z⟩

theorem moveAxis_eq (rel : Bool) (cur off : α) (v : Option α) : moveAxis rel cur off v = axis rel cur off v := by
  unfold moveAxis axis
  cases rel <;> cases v <;> simp [add_comm]

/-- Geometry is not touched by the extrusion accounting. -/
theorem stepExtrusion_geo {m : Machine α} {l : PyLine α} {cmd : Str} {p : Printer α} (h : GeoSim m p) :
    GeoSim (stepExtrusion m l cmd).1 p := by
  obtain ⟨te, ce, me, oe, ex, he⟩ := stepExtrusion_shape m l cmd
  rw [he]
  exact ⟨h.1, h.2, h.3, h.4, h.5, h.6, h.7, h.8, h.9, h.10, h.11⟩

theorem stamp_keeps (m : Machine α) (l : PyLine α) (cmd : Str) :
    (stepExtrusion m (stamp m l) cmd).2.currentX = some m.currentX ∧
    (stepExtrusion m (stamp m l) cmd).2.currentY = some m.currentY ∧
    (stepExtrusion m (stamp m l) cmd).2.currentZ = some m.currentZ ∧
    (stepExtrusion m (stamp m l) cmd).2.currentF = some m.currentF ∧
    (∀ k, (stepExtrusion m (stamp m l) cmd).2.arg k = l.arg k) ∧
    (stepExtrusion m (stamp m l) cmd).1.currentX = m.currentX ∧
    (stepExtrusion m (stamp m l) cmd).1.currentY = m.currentY ∧
    (stepExtrusion m (stamp m l) cmd).1.currentZ = m.currentZ ∧
    (stepExtrusion m (stamp m l) cmd).1.currentF = m.currentF := by
  obtain ⟨te, ce, me, oe, ex, he⟩ := stepExtrusion_shape m (stamp m l) cmd
  rw [he]
  exact ⟨rfl, rfl, rfl, rfl, fun _ => rfl, rfl, rfl, rfl, rfl⟩

theorem truthy_iff (v : Option α) : truthy v = true ↔ ∃ k, v = some k ∧ k ≠ 0 := by
  cases v <;> simp [truthy]

theorem arg_x (l : PyLine α) : l.arg 'x' = l.x := rfl
theorem arg_y (l : PyLine α) : l.arg 'y' = l.y := rfl
theorem arg_z (l : PyLine α) : l.arg 'z' = l.z := rfl
theorem arg_e (l : PyLine α) : l.arg 'e' = l.e := rfl
theorem arg_f (l : PyLine α) : l.arg 'f' = l.f := rfl

theorem moves_iff (cmd : Str) : moveGcodes.contains cmd = true ↔ cmd ∈ [c!"G0", c!"G1", c!"G2", c!"G3"] := by
  simp [moveGcodes]

/-- What the homing condition says about the stored arguments. -/
theorem homing_flags {u : α} (hu : u ≠ 0) {ws : List (Char × Str)}
    (h : (∀ w ∈ ws, w.1 ∉ c!"xyz") ∨
      ((∀ c ∈ c!"xyz", ws.any (·.1 == c) = true → (value (1 : α) ws c).isSome = true) ∧
        ∃ c ∈ c!"xyz", value (1 : α) ws c ≠ none ∧ value (1 : α) ws c ≠ some 0)) :
    (∀ c ∈ c!"xyz", (value u ws c).isSome = ws.any (·.1 == c)) ∧
    (truthy (value u ws 'x') || truthy (value u ws 'y') || truthy (value u ws 'z')) =
      ((value u ws 'x').isSome || (value u ws 'y').isSome || (value u ws 'z').isSome) := by
  rcases h with h | ⟨h1, c, hc, hk, hk0⟩
  · have hab : ∀ c ∈ c!"xyz", ws.any (·.1 == c) = false := by
      intro c hc
      rw [List.any_eq_false]
      intro w hw he
      rw [beq_iff_eq] at he
      exact h w hw (he ▸ hc)
    have hv : ∀ c ∈ c!"xyz", value u ws c = none := fun c hc => value_none_of_absent u ws c (hab c hc)
    refine ⟨fun c hc => by rw [hv c hc, hab c hc]; rfl, ?_⟩
    rw [hv _ (by decide), hv _ (by decide), hv _ (by decide)]
    rfl
  · obtain ⟨k, hk⟩ := Option.ne_none_iff_exists'.1 hk
    rw [hk] at hk0
    have hk0 : k ≠ 0 := fun h => hk0 (by rw [h])
    refine ⟨?_, ?_⟩
    · intro c hc
      cases hb : ws.any (·.1 == c) with
      | true => rw [value_scale, Option.isSome_map]; exact h1 c hc hb
      | false => rw [value_none_of_absent u ws c hb]; rfl
    · have ht : truthy (value u ws c) = true := by
        rw [value_scale, hk]
        simp [truthy, hu, hk0]
      have hs : (value u ws c).isSome = true := by rw [value_scale, hk]; rfl
      simp only [List.mem_cons, List.not_mem_nil, or_false] at hc
      rcases hc with rfl | rfl | rfl <;> simp [ht, hs]

/-- Position step against the reference, once the modes have been brought up to date. -/
theorem stepPos_geo {home : Home α} {m m1 : Machine α} {p : Printer α} {l0 l1 l2 : PyLine α} {c : Char} {v : Str}
    {ws : List (Char × Str)} (hsim : GeoSim m p)
    (hl0 : l0.isMove = moveGcodes.contains (c.toUpper :: v))
    (h1 : stepModes m l0 (c.toUpper :: v) = .ok (m1, l1)) (hargs : ArgsOnly l1 l2)
    (hval : ∀ k ∈ c!"xyzefij", l2.arg k = cmdArgs (if m1.imperial then 254 / 10 else 1) (c.toUpper :: v) ws k)
    (hhome : c.toUpper :: v = c!"G28" → (∀ w ∈ ws, w.1 ∉ c!"xyz") ∨
      ((∀ c ∈ c!"xyz", ws.any (·.1 == c) = true → (value (1 : α) ws c).isSome = true) ∧
        ∃ c ∈ c!"xyz", value (1 : α) ws c ≠ none ∧ value (1 : α) ws c ≠ some 0)) :
    GeoSim (stepPos home m1 l2 (c.toUpper :: v)) (p.step home.pos (c.toUpper :: v) ws) := by
  generalize hcmd : c.toUpper :: v = cmd at *
  have hne : cmd ≠ [] := by rw [← hcmd]; simp
  obtain ⟨x, y, z, e, f, i, j, hl2⟩ := hargs
  have hvx : l2.x = cmdArgs (if m1.imperial then 254 / 10 else 1) cmd ws 'x' := by rw [← arg_x, hval 'x' (by decide)]
  have hvy : l2.y = cmdArgs (if m1.imperial then 254 / 10 else 1) cmd ws 'y' := by rw [← arg_y, hval 'y' (by decide)]
  have hvz : l2.z = cmdArgs (if m1.imperial then 254 / 10 else 1) cmd ws 'z' := by rw [← arg_z, hval 'z' (by decide)]
  have hvf : l2.f = cmdArgs (if m1.imperial then 254 / 10 else 1) cmd ws 'f' := by rw [← arg_f, hval 'f' (by decide)]
  unfold Printer.step
  by_cases hm : cmd ∈ [c!"G0", c!"G1", c!"G2", c!"G3"]
  · -- a move
    have hmv : l0.isMove = true := by rw [hl0, moves_iff]; exact hm
    have hG : cmd.head? = some 'G' := by
      simp only [List.mem_cons, List.not_mem_nil, or_false] at hm
      rcases hm with rfl | rfl | rfl | rfl <;> rfl
    rcases stepModes_shape h1 with ⟨_, rfl, hl1⟩ | ⟨hf, _⟩
    swap
    · rw [hf] at hmv; simp at hmv
    rw [if_pos hm]
    have hmv2 : l2.isMove = true := by rw [hl2, hl1]; exact hmv
    have hrel : l2.relative = some m1.relative := by rw [hl2, hl1]
    unfold stepPos
    rw [if_pos hmv2]
    have hu : (if m1.imperial = true then (254 / 10 : α) else 1) = p.unit := by rw [hsim.inch]; rfl
    unfold cmdArgs at hvx hvy hvz hvf
    rw [if_pos hG, hu] at hvx hvy hvz hvf
    simp only [hrel, Option.getD_some, moveAxis_eq, hvx, hvy, hvz, hvf]
    constructor <;> simp [Printer.move, hsim.inch, hsim.rel, hsim.relE, hsim.tool, hsim.px, hsim.py, hsim.pz, hsim.ox,
      hsim.oy, hsim.oz, hsim.feed]
  · rw [if_neg hm]
    have hmv : l0.isMove = false := by
      rw [hl0, Bool.eq_false_iff]
      intro h; exact hm ((moves_iff cmd).1 h)
    rcases stepModes_shape h1 with ⟨hf, _⟩ | ⟨_, hl1, _⟩
    · rw [hf] at hmv; simp at hmv
    have hmv2 : l2.isMove = false := by rw [hl2, hl1]; exact hmv
    unfold stepModes at h1
    rw [if_neg (by simp [hmv])] at h1
    unfold stepPos
    rw [if_neg (by simp [hmv2])]
    by_cases g20 : cmd = c!"G20"
    · subst g20
      simp only [if_true, Except.ok.injEq, Prod.mk.injEq] at h1
      obtain ⟨rfl, _⟩ := h1
      simp only [List.cons.injEq, Char.reduceEq, and_false, false_and, if_false, if_true]
      exact ⟨rfl, hsim.2, hsim.3, hsim.4, hsim.5, hsim.6, hsim.7, hsim.8, hsim.9, hsim.10, hsim.11⟩
    rw [if_neg g20] at h1 ⊢
    by_cases g21 : cmd = c!"G21"
    · subst g21
      simp only [if_true, Except.ok.injEq, Prod.mk.injEq] at h1
      obtain ⟨rfl, _⟩ := h1
      simp only [List.cons.injEq, Char.reduceEq, and_false, false_and, if_false, if_true]
      exact ⟨rfl, hsim.2, hsim.3, hsim.4, hsim.5, hsim.6, hsim.7, hsim.8, hsim.9, hsim.10, hsim.11⟩
    rw [if_neg g21] at h1 ⊢
    by_cases g28 : cmd = c!"G28"
    · subst g28
      simp at h1
      obtain ⟨rfl, _⟩ := h1
      rw [if_pos rfl, if_pos rfl]
      have hu0 : (if m.imperial = true then (254 / 10 : α) else 1) ≠ 0 := by split_ifs <;> norm_num
      have hva : cmdArgs (if m.imperial = true then (254 / 10 : α) else 1) c!"G28" ws =
          value (if m.imperial = true then (254 / 10 : α) else 1) ws := rfl
      rw [hva] at hvx hvy hvz
      obtain ⟨hn, hh⟩ := homing_flags hu0 (hhome rfl)
      rw [← hvx, ← hvy, ← hvz] at hh
      have nx := hn 'x' (by decide)
      have ny := hn 'y' (by decide)
      have nz := hn 'z' (by decide)
      rw [← hvx] at nx
      rw [← hvy] at ny
      rw [← hvz] at nz
      simp only [Printer.homing, ← nx, ← ny, ← nz, hh]
      generalize l2.x.isSome = bx
      generalize l2.y.isSome = bY
      generalize l2.z.isSome = bz
      cases bx <;> cases bY <;> cases bz <;>
        constructor <;> simp [Home.pos, hsim.inch, hsim.rel, hsim.relE, hsim.tool, hsim.px, hsim.py, hsim.pz, hsim.ox,
          hsim.oy, hsim.oz, hsim.feed]
    rw [if_neg g28, if_neg g28]
    by_cases g90 : cmd = c!"G90"
    · subst g90
      simp only [if_true, Except.ok.injEq, Prod.mk.injEq] at h1
      obtain ⟨rfl, _⟩ := h1
      simp only [List.cons.injEq, Char.reduceEq, and_false, false_and, if_false, if_true]
      exact ⟨hsim.1, rfl, rfl, hsim.4, hsim.5, hsim.6, hsim.7, hsim.8, hsim.9, hsim.10, hsim.11⟩
    rw [if_neg g90] at h1 ⊢
    by_cases g91 : cmd = c!"G91"
    · subst g91
      simp only [if_true, Except.ok.injEq, Prod.mk.injEq] at h1
      obtain ⟨rfl, _⟩ := h1
      simp only [List.cons.injEq, Char.reduceEq, and_false, false_and, if_false, if_true]
      exact ⟨hsim.1, rfl, rfl, hsim.4, hsim.5, hsim.6, hsim.7, hsim.8, hsim.9, hsim.10, hsim.11⟩
    rw [if_neg g91] at h1 ⊢
    by_cases g92 : cmd = c!"G92"
    · subst g92
      simp at h1
      obtain ⟨rfl, _⟩ := h1
      rw [if_pos rfl, if_pos rfl]
      have hu : (if m.imperial = true then (254 / 10 : α) else 1) = p.unit := by rw [hsim.inch]; rfl
      have hva : cmdArgs (if m.imperial = true then (254 / 10 : α) else 1) c!"G92" ws =
          value (if m.imperial = true then (254 / 10 : α) else 1) ws := rfl
      rw [hva, hu] at hvx hvy hvz
      simp only [Printer.setPosition, ← hvx, ← hvy, ← hvz]
      cases l2.x <;> cases l2.y <;> cases l2.z <;>
      constructor <;> simp [relabel, hsim.inch, hsim.rel, hsim.relE, hsim.tool, hsim.px, hsim.py, hsim.pz, hsim.ox,
        hsim.oy, hsim.oz, hsim.feed]
    rw [if_neg g92, if_neg g92]
    by_cases m82 : cmd = c!"M82"
    · rw [if_pos m82] at h1 ⊢
      simp only [Except.ok.injEq, Prod.mk.injEq] at h1
      obtain ⟨rfl, _⟩ := h1
      exact ⟨hsim.1, hsim.2, rfl, hsim.4, hsim.5, hsim.6, hsim.7, hsim.8, hsim.9, hsim.10, hsim.11⟩
    rw [if_neg m82] at h1 ⊢
    by_cases m83 : cmd = c!"M83"
    · rw [if_pos m83] at h1 ⊢
      simp only [Except.ok.injEq, Prod.mk.injEq] at h1
      obtain ⟨rfl, _⟩ := h1
      exact ⟨hsim.1, hsim.2, rfl, hsim.4, hsim.5, hsim.6, hsim.7, hsim.8, hsim.9, hsim.10, hsim.11⟩
    rw [if_neg m83] at h1 ⊢
    by_cases hT : cmd.head? = some 'T'
    · rw [if_pos hT] at h1
      cases cmd with
      | nil => simp at hT
      | cons d n =>
        simp only [List.head?_cons, Option.some.injEq] at hT
        subst hT
        simp only [List.tail_cons] at h1
        cases hpi : parseInt n with
        | none => rw [hpi] at h1; simp at h1
        | some t =>
          rw [hpi] at h1
          simp only [Except.ok.injEq, Prod.mk.injEq] at h1
          obtain ⟨rfl, _⟩ := h1
          exact ⟨hsim.1, hsim.2, hsim.3, by simp [hpi], hsim.5, hsim.6, hsim.7, hsim.8, hsim.9, hsim.10, hsim.11⟩
    · rw [if_neg hT] at h1
      simp only [Except.ok.injEq, Prod.mk.injEq] at h1
      obtain ⟨rfl, _⟩ := h1
      split
      · exact absurd rfl hT
      · exact hsim

end GCodeUtils
