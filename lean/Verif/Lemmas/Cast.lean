import Verif.Lemmas.ArcSafe

/-
  Programs read with rational numbers and with any other numbers are the same.
-/

set_option linter.unusedSectionVars false

namespace GCodeUtils

open Spec

variable {α : Type} [Field α] [LinearOrder α] [IsStrictOrderedRing α] [FloorRing α]

/-- A line with its numbers taken as elements of `α`. -/
def castLine (l : PyLine ℚ) : PyLine α :=
  { raw := l.raw, command := l.command
    x := l.x.map (↑), y := l.y.map (↑), z := l.z.map (↑), e := l.e.map (↑), f := l.f.map (↑), i := l.i.map (↑), j := l.j.map (↑)
    isMove := l.isMove, relative := l.relative, relativeE := l.relativeE
    currentX := l.currentX.map (↑), currentY := l.currentY.map (↑), currentZ := l.currentZ.map (↑), currentE := l.currentE.map (↑)
    currentF := l.currentF.map (↑), currentTool := l.currentTool, extruding := l.extruding }

/-- A machine state with its numbers taken as elements of `α`. -/
def castMachine (m : Machine ℚ) : Machine α :=
  { imperial := m.imperial, relative := m.relative, relativeE := m.relativeE, currentTool := m.currentTool
    currentX := m.currentX, currentY := m.currentY, currentZ := m.currentZ, currentE := m.currentE, totalE := m.totalE, maxE := m.maxE
    currentF := m.currentF, offsetX := m.offsetX, offsetY := m.offsetY, offsetZ := m.offsetZ, offsetE := m.offsetE }

/-- A home position likewise. -/
def castHome (h : Home ℚ) : Home α := { x := h.x, y := h.y, z := h.z }

theorem castMachine_init : (castMachine Machine.init : Machine α) = Machine.init := by simp [castMachine, Machine.init]

theorem parseUFloat_cast (s : Str) : (parseUFloat s : Option α) = (parseUFloat s : Option ℚ).map (↑) := by
  unfold parseUFloat
  simp only
  split
  · split_ifs <;> simp
  · split_ifs <;> simp

theorem parseFloat_cast (s : Str) : (parseFloat s : Option α) = (parseFloat s : Option ℚ).map (↑) := by
  unfold parseFloat
  split
  · rw [parseUFloat_cast (α := α)]
    cases (parseUFloat _ : Option ℚ) <;> simp
  · rw [parseUFloat_cast (α := α)]
  · rw [parseUFloat_cast (α := α)]

theorem split_cast (r : Str) : (split ({ raw := r } : PyLine α)).1 = castLine (split ({ raw := r } : PyLine ℚ)).1 ∧
    (split ({ raw := r } : PyLine α)).2 = (split ({ raw := r } : PyLine ℚ)).2 := by
  unfold split
  simp only
  split
  · exact ⟨rfl, rfl⟩
  · split <;> exact ⟨rfl, rfl⟩

theorem setArg_cast (l : PyLine ℚ) (c : Char) (v : ℚ) : (castLine (l.setArg c v) : PyLine α) = (castLine l : PyLine α).setArg c (v : α) := by
  unfold PyLine.setArg
  split_ifs <;> rfl

theorem parseTok_cast (u : ℚ) (l l' : PyLine ℚ) (t : Tok) (h : parseTok u l t = .ok l') : parseTok (u : α) (castLine l) t = .ok (castLine l') := by
  unfold parseTok at h ⊢
  cases t with
  | none => simp only [Except.ok.injEq] at h ⊢; rw [h]
  | some p =>
    obtain ⟨c, v⟩ := p
    simp only at h ⊢
    by_cases hc : (!nonArgLetters.contains c && !v.isEmpty) = true
    · rw [if_pos hc] at h ⊢
      rw [parseFloat_cast]
      cases hp : (parseFloat v : Option ℚ) with
      | none => rw [hp] at h; simp at h
      | some a =>
        rw [hp] at h
        simp only [Except.ok.injEq] at h
        subst h
        simp only [Option.map_some, Except.ok.injEq]
        rw [setArg_cast]; simp
    · rw [if_neg hc] at h ⊢
      simp only [Except.ok.injEq] at h ⊢; rw [h]

theorem parseToks_cast (u : ℚ) (toks : List Tok) : ∀ l l' : PyLine ℚ, toks.foldlM (parseTok u) l = .ok l' → toks.foldlM (parseTok (u : α)) (castLine l) = .ok (castLine l') := by
  induction toks with
  | nil => intro l l' h; simp only [List.foldlM_nil, pure, Except.pure, Except.ok.injEq] at h ⊢; rw [h]
  | cons t toks ih =>
    intro l l' h
    rw [List.foldlM_cons] at h ⊢
    cases hp : parseTok u l t with
    | error e => rw [hp] at h; simp [bind, Except.bind] at h
    | ok l1 =>
      rw [hp] at h
      rw [parseTok_cast u l l1 t hp]
      exact ih l1 l' h

theorem coords_cast (l l' : PyLine ℚ) (toks : List Tok) (imp : Bool) (h : parseCoordinates l toks imp = .ok l') :
    parseCoordinates (castLine l : PyLine α) toks imp = .ok (castLine l') := by
  unfold parseCoordinates at h ⊢
  have hc : (castLine l : PyLine α).command = l.command := rfl
  rw [hc]
  cases hcm : l.command with
  | none => rw [hcm] at h; simp only [Except.ok.injEq] at h ⊢; rw [h]
  | some c =>
    rw [hcm] at h
    simp only at h ⊢
    by_cases hg : c.head? ≠ some 'G'
    · rw [if_pos hg] at h ⊢; simp only [Except.ok.injEq] at h ⊢; rw [h]
    · rw [if_neg hg] at h ⊢
      have := parseToks_cast (α := α) _ _ _ _ h
      rw [← this]
      congr 2
      cases imp <;> simp

theorem stepModes_cast (m m' : Machine ℚ) (l l' : PyLine ℚ) (cmd : Str) (h : stepModes m l cmd = .ok (m', l')) :
    stepModes (castMachine m : Machine α) (castLine l) cmd = .ok (castMachine m', castLine l') := by
  unfold stepModes at h ⊢
  have hm : (castLine l : PyLine α).isMove = l.isMove := rfl
  rw [hm]
  split_ifs at h ⊢
  all_goals first
    | (simp only [Except.ok.injEq, Prod.mk.injEq] at h
       obtain ⟨rfl, rfl⟩ := h
       rfl)
    | skip
  cases hp : parseInt cmd.tail with
  | none => rw [hp] at h; cases h
  | some t =>
    rw [hp] at h
    simp only [Except.ok.injEq, Prod.mk.injEq] at h
    obtain ⟨rfl, rfl⟩ := h
    rfl

theorem moveAxis_cast (rel : Bool) (cur off : ℚ) (v : Option ℚ) : ((moveAxis rel cur off v : ℚ) : α) = moveAxis rel (cur : α) off (v.map (↑)) := by
  unfold moveAxis
  split_ifs
  · cases v <;> simp
  · cases v <;> simp

theorem truthy_cast (v : Option ℚ) : truthy (v.map (↑) : Option α) = truthy v := by
  cases v with
  | none => rfl
  | some a => simp [truthy]

theorem stepPos_cast (home : Home ℚ) (m : Machine ℚ) (l : PyLine ℚ) (cmd : Str) :
    (castMachine (stepPos home m l cmd) : Machine α) = stepPos (castHome home) (castMachine m) (castLine l) cmd := by
  unfold stepPos
  have hm : (castLine l : PyLine α).isMove = l.isMove := rfl
  rw [hm]
  split_ifs with h1 h2 h3
  · simp only [castMachine, Machine.mk.injEq, moveAxis_cast, castLine]
    refine ⟨trivial, trivial, trivial, trivial, trivial, trivial, trivial, trivial, trivial, trivial, ?_, trivial, trivial, trivial, trivial⟩
    cases l.f <;> rfl
  · simp only [castLine, truthy_cast, Option.isSome_map]
    generalize (!(truthy l.x || truthy l.y || truthy l.z)) = b
    by_cases c1 : (b || l.x.isSome) = true <;> by_cases c2 : (b || l.y.isSome) = true <;> by_cases c3 : (b || l.z.isSome) = true <;>
      simp [c1, c2, c3, castMachine, castHome]
  · simp only [castLine]
    cases l.x <;> cases l.y <;> cases l.z <;> simp [castMachine]
  · rfl

theorem stepExtrusion_cast (m : Machine ℚ) (l : PyLine ℚ) (cmd : Str) :
    stepExtrusion (castMachine m : Machine α) (castLine l) cmd = (castMachine (stepExtrusion m l cmd).1, castLine (stepExtrusion m l cmd).2) := by
  unfold stepExtrusion
  have hm : (castLine l : PyLine α).isMove = l.isMove := rfl
  have hr : (castLine l : PyLine α).relativeE = l.relativeE := rfl
  have he : (castLine l : PyLine α).e = l.e.map (↑) := rfl
  rw [he]
  cases l.e with
  | none => rfl
  | some e =>
    simp only [Option.map_some, hm, hr]
    split_ifs <;> simp [castMachine, castLine]
    refine decide_eq_decide.2 ?_
    rw [← Rat.cast_add, Rat.cast_lt]

theorem processLine_cast (home : Home ℚ) (m m' : Machine ℚ) (r : Str) (l : PyLine ℚ) (h : processLine home m { raw := r } = .ok (m', l)) :
    processLine (castHome home) (castMachine m : Machine α) { raw := r } = .ok (castMachine m', castLine l) := by
  obtain ⟨s1, s2⟩ := split_cast (α := α) r
  unfold processLine at h ⊢
  simp only at h ⊢
  rw [s1, s2]
  have hcm : (castLine (split ({ raw := r } : PyLine ℚ)).1 : PyLine α).command = (split ({ raw := r } : PyLine ℚ)).1.command := rfl
  rw [hcm]
  cases hc : (split ({ raw := r } : PyLine ℚ)).1.command with
  | none =>
    rw [hc] at h
    simp only [Except.ok.injEq, Prod.mk.injEq] at h ⊢
    rw [h.1, h.2]; exact ⟨rfl, rfl⟩
  | some cmd =>
    rw [hc] at h
    simp only at h ⊢
    by_cases he : cmd.isEmpty = true
    · rw [if_pos he] at h ⊢
      simp only [Except.ok.injEq, Prod.mk.injEq] at h ⊢
      rw [h.1, h.2]; exact ⟨rfl, rfl⟩
    · rw [if_neg he] at h ⊢
      cases h1 : stepModes m (split ({ raw := r } : PyLine ℚ)).1 cmd with
      | error e => rw [h1] at h; simp [bind, Except.bind] at h
      | ok p =>
        obtain ⟨m1, l1⟩ := p
        rw [h1] at h
        rw [stepModes_cast _ _ _ _ _ h1]
        simp only [bind, Except.bind] at h ⊢
        have himp : (castMachine m1 : Machine α).imperial = m1.imperial := rfl
        rw [himp]
        have fin : ∀ l2 : PyLine ℚ, (Except.ok (((stepExtrusion (stepPos home m1 l2 cmd) (stamp (stepPos home m1 l2 cmd) l2) cmd).1),
            { (stepExtrusion (stepPos home m1 l2 cmd) (stamp (stepPos home m1 l2 cmd) l2) cmd).2 with
              currentE := some (stepExtrusion (stepPos home m1 l2 cmd) (stamp (stepPos home m1 l2 cmd) l2) cmd).1.currentE }) : Except Err (Machine ℚ × PyLine ℚ)) = .ok (m', l) →
            (Except.ok (((stepExtrusion (stepPos (castHome home) (castMachine m1 : Machine α) (castLine l2) cmd) (stamp (stepPos (castHome home) (castMachine m1 : Machine α) (castLine l2) cmd) (castLine l2)) cmd).1),
            { (stepExtrusion (stepPos (castHome home) (castMachine m1 : Machine α) (castLine l2) cmd) (stamp (stepPos (castHome home) (castMachine m1 : Machine α) (castLine l2) cmd) (castLine l2)) cmd).2 with
              currentE := some (stepExtrusion (stepPos (castHome home) (castMachine m1 : Machine α) (castLine l2) cmd) (stamp (stepPos (castHome home) (castMachine m1 : Machine α) (castLine l2) cmd) (castLine l2)) cmd).1.currentE }) : Except Err (Machine α × PyLine α))
              = .ok (castMachine m', castLine l) := by
          intro l2 h
          have hst : stamp (castMachine (stepPos home m1 l2 cmd) : Machine α) (castLine l2) = castLine (stamp (stepPos home m1 l2 cmd) l2) := rfl
          rw [← stepPos_cast, hst, stepExtrusion_cast]
          simp only [Except.ok.injEq, Prod.mk.injEq] at h ⊢
          obtain ⟨rfl, rfl⟩ := h
          exact ⟨rfl, rfl⟩
        by_cases hG : cmd.head? = some 'G'
        · rw [if_pos hG] at h ⊢
          cases h2 : parseCoordinates l1 (split ({ raw := r } : PyLine ℚ)).2 m1.imperial with
          | error e => rw [h2] at h; simp at h
          | ok l2 =>
            rw [h2] at h
            rw [coords_cast _ _ _ _ h2]
            exact fin l2 h
        · rw [if_neg hG] at h ⊢
          exact fin l1 h

theorem run_cast {home : Home ℚ} {m m' : Machine ℚ} {raws : List Str} {out : List (PyLine ℚ)} (h : Run home m (bare raws) m' out) :
    Run (castHome home) (castMachine m : Machine α) (bare raws) (castMachine m') (out.map castLine) := by
  generalize hb : bare raws = ls at h
  induction h generalizing raws with
  | nil m =>
    cases raws with
    | nil => exact Run.nil _
    | cons r raws => simp [bare] at hb
  | cons hp _ ih =>
    cases raws with
    | nil => simp [bare] at hb
    | cons r raws =>
      simp only [bare, List.map_cons, List.cons.injEq] at hb
      obtain ⟨rfl, hb⟩ := hb
      exact Run.cons (processLine_cast _ _ _ _ _ hp) (ih hb)

theorem Run.unique {home : Home α} {m m1 m2 : Machine α} {ls o1 o2 : List (PyLine α)} (h1 : Run home m ls m1 o1) : Run home m ls m2 o2 → m1 = m2 ∧ o1 = o2 := by
  induction h1 generalizing m2 o2 with
  | nil m => intro h2; cases h2; exact ⟨rfl, rfl⟩
  | cons hp _ ih =>
    intro h2
    cases h2 with
    | cons hp' h2 =>
      rw [hp] at hp'
      obtain ⟨rfl, rfl⟩ := Prod.mk.inj (Except.ok.inj hp')
      obtain ⟨rfl, rfl⟩ := ih h2
      exact ⟨rfl, rfl⟩

/-- The lines of a program loaded with numbers in `α` are those of the program loaded with rational numbers. -/
theorem load_cast {envQ : Env ℚ} {env : Env α} {data : List Str} {home : Home ℚ} {gq : GCode ℚ} {g : GCode α} (hq : GCode.load envQ data false home = .ok gq)
    (h : GCode.load env data false (castHome home) = .ok g) : program g = (program gq).map castLine := by
  obtain ⟨o1, r1, e1⟩ := load_run hq
  obtain ⟨o2, r2, e2⟩ := load_run h
  have hb : ∀ {β : Type} [Field β] [LinearOrder β] [IsStrictOrderedRing β] [FloorRing β], (readLines data : List (PyLine β)) = bare ((data.map strip).filter (fun s => !s.isEmpty)) := by
    intro β _ _ _ _; rfl
  rw [hb] at r1 r2
  have r3 := run_cast (α := α) r1
  rw [castMachine_init] at r3
  obtain ⟨_, e⟩ := r2.unique r3
  have p1 : program gq = o1 := by rw [show o1 = gq.lines by rw [e1]; rfl]; exact (load_indexed hq).flat.symm
  have p2 : program g = o2 := by rw [show o2 = g.lines by rw [e2]; rfl]; exact (load_indexed h).flat.symm
  rw [p1, p2, e]

end GCodeUtils
