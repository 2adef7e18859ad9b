import Verif.Spec.Turned
import Verif.Lemmas.Inches

/-
  Reading a program and the same program after a turn.
-/

set_option linter.unusedSectionVars false

namespace GCodeUtils

open Spec

variable {α : Type} [Field α] [LinearOrder α] [IsStrictOrderedRing α] [FloorRing α]

theorem sign_ne (neg : Bool) : (sign α neg) ≠ 0 := by cases neg <;> simp [sign]

theorem sign_cases (neg : Bool) : sign α neg = 1 ∨ sign α neg = -1 := by cases neg <;> simp [sign]

theorem sign_sq (neg : Bool) : sign α neg * sign α neg = 1 := by cases neg <;> simp [sign]

/-- A line after the turn, with its new text. -/
def turnRaw (T : Turn) (r : Str) (l : PyLine α) : PyLine α :=
  { l with raw := r, command := l.command.map T.cmd
           x := T.optX l.x l.y, y := T.optY l.x l.y, i := T.optX l.i l.j, j := T.optY l.i l.j
           currentX := T.optX l.currentX l.currentY, currentY := T.optY l.currentX l.currentY }

theorem turnRaw_turned (T : Turn) (r : Str) (l : PyLine α) : TurnedLine T l (turnRaw T r l) := rfl

/-- The machine after the turn. -/
def turnM (T : Turn) (m : Machine α) : Machine α :=
  { m with currentX := T.x m.currentX m.currentY, currentY := T.y m.currentX m.currentY
           offsetX := T.x m.offsetX m.offsetY, offsetY := T.y m.offsetX m.offsetY }

/-- The result of a line after the turn. -/
def turnP (T : Turn) (r : Str) (p : Machine α × PyLine α) : Machine α × PyLine α := (turnM T p.1, turnRaw T r p.2)

theorem setArg_turn (T : Turn) (r : Str) (l : PyLine α) {k : Char} (hk : k ∈ c!"xyij") (u v : α) :
    (turnRaw T r l).setArg (T.letter k) (u * (T.signOf α (T.letter k) * v)) = turnRaw T r (l.setArg k (u * v)) := by
  rcases T with ⟨sw, nx, ny⟩
  have hm : ∀ s : α, u * (s * v) = s * (u * v) := fun s => by ring
  simp only [List.mem_cons, List.not_mem_nil, or_false] at hk
  rcases hk with rfl | rfl | rfl | rfl <;> cases sw <;>
    simp [Turn.letter, Turn.signOf, PyLine.setArg, turnRaw, Turn.optX, Turn.optY, hm]

theorem setArg_same (T : Turn) (r : Str) (l : PyLine α) {k : Char} (hk : k ∉ c!"xyij") (v : α) :
    (turnRaw T r l).setArg k v = turnRaw T r (l.setArg k v) := by
  simp only [List.mem_cons, List.not_mem_nil, or_false, not_or] at hk
  obtain ⟨h1, h2, h3, h4⟩ := hk
  unfold PyLine.setArg
  simp only [if_neg h1, if_neg h2, if_neg h3, if_neg h4]
  split_ifs <;> rfl

theorem letter_args (T : Turn) {k : Char} (hk : k ∈ c!"xyij") : T.letter k ∈ c!"xyij" := by
  rcases T with ⟨sw, nx, ny⟩
  simp only [List.mem_cons, List.not_mem_nil, or_false] at hk
  rcases hk with rfl | rfl | rfl | rfl <;> cases sw <;> simp [Turn.letter]

theorem args_contain {k : Char} (hk : k ∈ c!"xyij") : nonArgLetters.contains k = false := by
  simp only [List.mem_cons, List.not_mem_nil, or_false] at hk
  rcases hk with rfl | rfl | rfl | rfl <;> decide

theorem parseTok_turn (T : Turn) {t t' : Tok} (h : TurnWord T α t t') (u : α) (l : PyLine α) (r : Str) :
    parseTok u (turnRaw T r l) t' = (parseTok u l t).map (turnRaw T r) := by
  cases h with
  | comment => rfl
  | same k n hk =>
    unfold parseTok
    simp only
    split_ifs
    · cases (parseFloat n : Option α) with
      | none => rfl
      | some a => simp only [Except.map]; rw [setArg_same T r l hk]
    · rfl
  | clockwise _ => rfl
  | counter _ => rfl
  | bare k hk => unfold parseTok; simp; rfl
  | bad k n hk h1 h2 =>
    have p : (parseFloat n : Option α) = none := by
      cases hp : (parseFloat n : Option α) with
      | none => rfl
      | some v => exact absurd ((parseFloat_iff n v).1 hp) (h2 v)
    unfold parseTok
    simp only [args_contain hk, args_contain (letter_args T hk), p]
    split_ifs <;> rfl
  | moved k n n' v hk h1 h2 =>
    have p1 := (parseFloat_iff n v).2 h1
    have p2 := (parseFloat_iff n' _).2 h2
    have e1 : n.isEmpty = false := by
      cases n with
      | nil => simp [parseFloat, parseUFloat] at p1
      | cons a b => rfl
    have e2 : n'.isEmpty = false := by
      cases n' with
      | nil => simp [parseFloat, parseUFloat] at p2
      | cons a b => rfl
    unfold parseTok
    simp only [args_contain hk, args_contain (letter_args T hk), e1, e2, p1, p2]
    simp only [Bool.not_false, Bool.and_self, if_true, Except.map]
    rw [setArg_turn T r l hk]

theorem foldTok_turn (T : Turn) {ts ts' : List Tok} (h : List.Forall₂ (TurnWord T α) ts ts') (u : α) (r : Str) : ∀ l : PyLine α,
    ts'.foldlM (parseTok u) (turnRaw T r l) = (ts.foldlM (parseTok u) l).map (turnRaw T r) := by
  induction h with
  | nil => intro l; rfl
  | cons h _ ih =>
    intro l
    rw [List.foldlM_cons, List.foldlM_cons, parseTok_turn T h]
    cases parseTok u l _ with
    | error er => rfl
    | ok l' => exact ih l'

theorem cmd_cases (T : Turn) (c : Str) : T.cmd c = c ∨ (c = c!"G2" ∧ T.cmd c = c!"G3") ∨ (c = c!"G3" ∧ T.cmd c = c!"G2") := by
  unfold Turn.cmd
  split_ifs with h1 h2 h3
  · exact .inr (.inl ⟨h2, rfl⟩)
  · exact .inr (.inr ⟨h3, rfl⟩)
  · exact .inl rfl
  · exact .inl rfl

/-- A command that is none of `G2`, `G3` is there after the turn exactly if it was there before. -/
theorem cmd_eq (T : Turn) (c d : Str) (h2 : d ≠ c!"G2") (h3 : d ≠ c!"G3") : T.cmd c = d ↔ c = d := by
  rcases cmd_cases T c with h | ⟨h, h'⟩ | ⟨h, h'⟩
  · rw [h]
  · rw [h, ← h, h']; exact ⟨fun e => absurd e.symm h3, fun e => absurd (e.symm.trans h) h2⟩
  · rw [h, ← h, h']; exact ⟨fun e => absurd e.symm h2, fun e => absurd (e.symm.trans h) h3⟩

theorem cmd_head (T : Turn) (c : Str) : (T.cmd c).head? = c.head? := by
  rcases cmd_cases T c with h | ⟨h, h'⟩ | ⟨h, h'⟩
  · rw [h]
  · rw [h', h]; rfl
  · rw [h', h]; rfl

theorem cmd_empty (T : Turn) (c : Str) : (T.cmd c).isEmpty = c.isEmpty := by
  rcases cmd_cases T c with h | ⟨h, h'⟩ | ⟨h, h'⟩
  · rw [h]
  · rw [h', h]; rfl
  · rw [h', h]; rfl

theorem turnM_fields (T : Turn) (m : Machine α) (a b c : Bool) (t : ℤ) :
    turnM T { m with imperial := a, relative := b, relativeE := c, currentTool := t } =
      { turnM T m with imperial := a, relative := b, relativeE := c, currentTool := t } := rfl

theorem stepModes_turn (T : Turn) (m : Machine α) (l : PyLine α) (cmd r : Str) :
    stepModes (turnM T m) (turnRaw T r l) (T.cmd cmd) = (stepModes m l cmd).map (turnP T r) := by
  unfold stepModes
  have : (turnRaw T r l).isMove = l.isMove := rfl
  rw [this]
  simp only [cmd_eq T cmd c!"G20" (by decide) (by decide), cmd_eq T cmd c!"G21" (by decide) (by decide),
    cmd_eq T cmd c!"G90" (by decide) (by decide), cmd_eq T cmd c!"G91" (by decide) (by decide),
    cmd_eq T cmd c!"M82" (by decide) (by decide), cmd_eq T cmd c!"M83" (by decide) (by decide), cmd_head]
  split_ifs with h1 h2 h3 h4 h5 h6 h7 h8
  · rfl
  · rfl
  · rfl
  · rfl
  · rfl
  · rfl
  · rfl
  · have : T.cmd cmd = cmd := by
      rcases cmd_cases T cmd with h | ⟨h, _⟩ | ⟨h, _⟩
      · exact h
      · rw [h] at h8; exact absurd h8 (by decide)
      · rw [h] at h8; exact absurd h8 (by decide)
    rw [this]
    cases parseInt cmd.tail <;> rfl
  · rfl

theorem moveAxis_sign (s : α) (rel : Bool) (cur off : α) (v : Option α) :
    moveAxis rel (s * cur) (s * off) (v.map (s * ·)) = s * moveAxis rel cur off v := by
  unfold moveAxis
  cases v with
  | none => cases rel <;> simp
  | some k => cases rel <;> simp <;> ring

theorem truthy_sign (neg : Bool) (v : Option α) : truthy (v.map (sign α neg * ·)) = truthy v := by
  cases v with
  | none => rfl
  | some k => simp [truthy, sign_ne]

theorem stepPos_turn (T : Turn) (home : Home α) (m : Machine α) (l : PyLine α) (cmd r : Str) :
    stepPos (T.home home) (turnM T m) (turnRaw T r l) (T.cmd cmd) = turnM T (stepPos home m l cmd) := by
  unfold stepPos
  have hm : (turnRaw T r l).isMove = l.isMove := rfl
  have hr : (turnRaw T r l).relative = l.relative := rfl
  have hf : (turnRaw T r l).f = l.f := rfl
  have hz : (turnRaw T r l).z = l.z := rfl
  have hx : (turnRaw T r l).x = T.optX l.x l.y := rfl
  have hy : (turnRaw T r l).y = T.optY l.x l.y := rfl
  simp only [cmd_eq T cmd c!"G28" (by decide) (by decide), cmd_eq T cmd c!"G92" (by decide) (by decide)]
  rw [hm, hr, hf, hz, hx, hy]
  rcases T with ⟨sw, nx, ny⟩
  by_cases h1 : l.isMove = true
  · rw [if_pos h1, if_pos h1]
    cases sw <;> simp [turnM, Turn.x, Turn.y, Turn.optX, Turn.optY, moveAxis_sign]
  rw [if_neg h1, if_neg h1]
  by_cases h2 : cmd = c!"G28"
  · rw [if_pos h2, if_pos h2]
    rcases m with ⟨a1, a2, a3, a4, a5, a6, a7, a8, a9, a10, a11, a12, a13, a14, a15⟩
    have key : ∀ a b c : Bool, (b || a || c) = (a || b || c) := by decide
    cases sw
    · simp only [Turn.optX, Turn.optY, truthy_sign, Bool.false_eq_true, if_false, Option.isSome_map]
      cases (truthy l.x || truthy l.y || truthy l.z) <;> cases l.x <;> cases l.y <;> cases l.z <;>
        simp [turnM, Turn.x, Turn.y, Turn.home]
    · simp only [Turn.optX, Turn.optY, truthy_sign, if_true, Option.isSome_map, key (truthy l.x) (truthy l.y)]
      cases (truthy l.x || truthy l.y || truthy l.z) <;> cases l.x <;> cases l.y <;> cases l.z <;>
        simp [turnM, Turn.x, Turn.y, Turn.home]
  rw [if_neg h2, if_neg h2]
  by_cases h3 : cmd = c!"G92"
  · rw [if_pos h3, if_pos h3]
    rcases m with ⟨a1, a2, a3, a4, a5, a6, a7, a8, a9, a10, a11, a12, a13, a14, a15⟩
    cases sw <;> cases l.x <;> cases l.y <;> cases l.z <;>
      simp [turnM, Turn.x, Turn.y, Turn.optX, Turn.optY, mul_sub]
  · rw [if_neg h3, if_neg h3]

theorem stepExtrusion_turn (T : Turn) (m : Machine α) (l : PyLine α) (cmd r : Str) :
    stepExtrusion (turnM T m) (turnRaw T r l) (T.cmd cmd) = turnP T r (stepExtrusion m l cmd) := by
  unfold stepExtrusion
  have he : (turnRaw T r l).e = l.e := rfl
  have hm : (turnRaw T r l).isMove = l.isMove := rfl
  have hr : (turnRaw T r l).relativeE = l.relativeE := rfl
  rw [he, hm, hr]
  simp only [cmd_eq T cmd c!"G92" (by decide) (by decide)]
  cases l.e with
  | none => rfl
  | some e => simp only; split_ifs <;> rfl

theorem stamp_turn (T : Turn) (m : Machine α) (l : PyLine α) (r : Str) : stamp (turnM T m) (turnRaw T r l) = turnRaw T r (stamp m l) := by
  rcases T with ⟨sw, nx, ny⟩
  cases sw <;> rfl

theorem processCore_turn (T : Turn) (home : Home α) (m : Machine α) (l : PyLine α) (r : Str) {ts ts' : List Tok}
    (h : List.Forall₂ (TurnWord T α) ts ts') :
    processCore (T.home home) (turnM T m) (turnRaw T r l) ts' = (processCore home m l ts).map (turnP T r) := by
  unfold processCore
  have : (turnRaw T r l).command = l.command.map T.cmd := rfl
  rw [this]
  cases hc : l.command with
  | none => rfl
  | some cmd =>
    simp only [Option.map, cmd_empty, cmd_head]
    by_cases he : cmd.isEmpty = true
    · rw [if_pos he, if_pos he]; rfl
    · rw [if_neg he, if_neg he, stepModes_turn]
      cases hs : stepModes m l cmd with
      | error er => rfl
      | ok p =>
        obtain ⟨m1, l1⟩ := p
        simp only [Except.map, turnP]
        have hpc : (if cmd.head? = some 'G' then parseCoordinates (turnRaw T r l1) ts' (turnM T m1).imperial
            else .ok (turnRaw T r l1)) =
            (if cmd.head? = some 'G' then parseCoordinates l1 ts m1.imperial else .ok l1).map (turnRaw T r) := by
          split_ifs
          · unfold parseCoordinates
            have e1 : (turnRaw T r l1).command = l1.command.map T.cmd := rfl
            have e2 : (turnM T m1).imperial = m1.imperial := rfl
            rw [e1, e2]
            cases l1.command with
            | none => rfl
            | some c =>
              simp only [Option.map, cmd_head]
              by_cases hg : c.head? ≠ some 'G'
              · rw [if_pos hg, if_pos hg]; rfl
              · rw [if_neg hg, if_neg hg]
                exact foldTok_turn T h _ r l1
          · rfl
        rw [hpc]
        cases (if cmd.head? = some 'G' then parseCoordinates l1 ts m1.imperial else .ok l1) with
        | error er => rfl
        | ok l2 =>
          simp only [Except.map]
          rw [stepPos_turn, stamp_turn, stepExtrusion_turn]
          rfl

theorem dropN_turn (T : Turn) {ts ts' : List Tok} (h : List.Forall₂ (TurnWord T α) ts ts') :
    List.Forall₂ (TurnWord T α) (dropN ts) (dropN ts') := by
  cases h with
  | nil => exact .nil
  | cons h1 h2 =>
    have hn : ∀ {k : Char}, k ∈ c!"xyij" → k ≠ 'n' := by
      intro k hk e; subst e; exact absurd hk (by decide)
    cases h1 with
    | comment => exact .cons .comment h2
    | same k n hk =>
      unfold dropN
      simp only
      split_ifs
      · exact h2
      · exact .cons (.same k n hk) h2
    | clockwise hf => exact .cons (.clockwise hf) h2
    | counter hf => exact .cons (.counter hf) h2
    | bare k hk =>
      unfold dropN
      simp only [if_neg (hn hk), if_neg (hn (letter_args T hk))]
      exact .cons (.bare k hk) h2
    | bad k n hk d1 d2 =>
      unfold dropN
      simp only [if_neg (hn hk), if_neg (hn (letter_args T hk))]
      exact .cons (.bad k n hk d1 d2) h2
    | moved k n n' v hk d1 d2 =>
      unfold dropN
      simp only [if_neg (hn hk), if_neg (hn (letter_args T hk))]
      exact .cons (.moved k n n' v hk d1 d2) h2

theorem inMoves_turn (T : Turn) (c : Str) (r r' : Str) :
    (({ raw := r', command := some (T.cmd c) } : PyLine α)).inMoves = (({ raw := r, command := some c } : PyLine α)).inMoves := by
  rcases cmd_cases T c with h | ⟨h, h'⟩ | ⟨h, h'⟩
  · rw [h]; rfl
  · rw [h', h]; rfl
  · rw [h', h]; rfl

theorem split_turn (T : Turn) {r s : Str} {ws vs : List Tok} (h1 : Reads letters true (lower r) ws) (h2 : Reads letters true (lower s) vs)
    (h : List.Forall₂ (TurnWord T α) ws vs) (hc : commandOf s vs = (commandOf r ws).map T.cmd) :
    (split ({ raw := s } : PyLine α)).1 = turnRaw T s (split ({ raw := r } : PyLine α)).1 ∧
    (split ({ raw := r } : PyLine α)).1.command = commandOf r ws ∧
    List.Forall₂ (TurnWord T α) (split ({ raw := r } : PyLine α)).2 (split ({ raw := s } : PyLine α)).2 := by
  have f1 := (findall_reads _ _).2 h1
  have f2 := (findall_reads _ _).2 h2
  have hd := dropN_turn T h
  have hcs : ∀ {q : Str} {us : List Tok}, findall (lower q) = us → (split ({ raw := q } : PyLine α)).1.command = commandOf q us := by
    intro q us hq
    unfold split commandOf
    simp only [hq]
    rw [← afterNumber_eq]
    cases dropN us with
    | nil => rfl
    | cons t rest => cases t with
      | none => rfl
      | some w => rfl
  have c1 := hcs f1
  have c2 := hcs f2
  have blank : ∀ (q : Str) (mv : Bool) (c : Option Str), turnRaw T s ({ raw := q, command := c, isMove := mv } : PyLine α) =
      { raw := s, command := c.map T.cmd, isMove := mv } := by
    intro q mv c
    rcases T with ⟨sw, nx, ny⟩
    cases sw <;> rfl
  refine ⟨?_, c1, ?_⟩
  · have hc' : (split ({ raw := s } : PyLine α)).1.command = (split ({ raw := r } : PyLine α)).1.command.map T.cmd := by rw [c1, c2, hc]
    clear c1 c2 hcs
    unfold split at hc' ⊢
    simp only [f1, f2] at hc' ⊢
    cases hws : dropN ws with
    | nil =>
      rw [hws] at hd hc'
      cases hvs : dropN vs with
      | nil =>
        rw [hvs] at hc'
        simp only [Option.map_some, Option.some.injEq] at hc'
        simp only
        rw [blank, Option.map_some, ← hc']
      | cons t rest => rw [hvs] at hd; cases hd
    | cons t rest =>
      rw [hws] at hd hc'
      cases hvs : dropN vs with
      | nil => rw [hvs] at hd; cases hd
      | cons t' rest' =>
        rw [hvs] at hd hc'
        cases hd with
        | cons hw _ =>
          cases t with
          | none => cases hw; simp only; rw [blank]; rfl
          | some w =>
            cases t' with
            | none => cases hw
            | some w' =>
              simp only [Option.map_some, Option.some.injEq] at hc'
              simp only
              rw [blank, Option.map_some, hc', inMoves_turn T _ r s]
  · unfold split
    simp only [f1, f2]
    cases hws : dropN ws with
    | nil =>
      rw [hws] at hd
      cases hvs : dropN vs with
      | nil => exact .nil
      | cons t rest => rw [hvs] at hd; cases hd
    | cons t rest =>
      rw [hws] at hd
      cases hvs : dropN vs with
      | nil => rw [hvs] at hd; cases hd
      | cons t' rest' => rw [hvs] at hd; exact hd

theorem process_turn (T : Turn) (home : Home α) (m : Machine α) {r s : Str} (h : TurnLine T α r s) :
    processLine (T.home home) (turnM T m) { raw := s } = (processLine home m { raw := r }).map (turnP T s) := by
  obtain ⟨ws, vs, h1, h2, h3, h4, _⟩ := h
  obtain ⟨e1, e2, e3⟩ := split_turn T h1 h2 h3 h4
  rw [processLine_eq_core, processLine_eq_core, e1]
  exact processCore_turn T home m _ s e3

theorem isCmd_turn (T : Turn) (l : PyLine α) (r : Str) {d : Str} (h2 : d ≠ c!"G2") (h3 : d ≠ c!"G3") :
    (turnRaw T r l).isCmd d = l.isCmd d := by
  unfold PyLine.isCmd turnRaw
  cases l.command with
  | none => rfl
  | some c =>
    have := cmd_eq T c d h2 h3
    rw [Bool.eq_iff_iff]
    simpa using this

/-- The duration estimate after the turn. -/
def turnD (T : Turn) (d : DurSt α) : DurSt α :=
  { d with lastx := T.x d.lastx d.lasty, lasty := T.y d.lastx d.lasty, lastdx := T.x d.lastdx d.lastdy, lastdy := T.y d.lastdx d.lastdy }

theorem hypot_sign {hypot : α → α → α} (h : EvenHypot hypot) (n n' : Bool) (a b : α) :
    hypot (sign α n * a) (sign α n' * b) = hypot a b := by
  have k : ∀ a b, hypot a (-b) = hypot a b := fun a b => by rw [(h (-b) a).1, (h b a).2, (h b a).1]
  cases n <;> cases n' <;> simp [sign, k, (h _ _).2]

theorem optX_getD (T : Turn) (x y : Option α) (a b : α) : (T.optX x y).getD (T.x a b) = T.x (x.getD a) (y.getD b) := by
  rcases T with ⟨sw, nx, ny⟩
  cases sw <;> cases x <;> cases y <;> simp [Turn.optX, Turn.x]

theorem optY_getD (T : Turn) (x y : Option α) (a b : α) : (T.optY x y).getD (T.y a b) = T.y (x.getD a) (y.getD b) := by
  rcases T with ⟨sw, nx, ny⟩
  cases sw <;> cases x <;> cases y <;> simp [Turn.optY, Turn.y]

theorem turn_sub (T : Turn) (a b c d : α) : T.x a b - T.x c d = T.x (a - c) (b - d) ∧ T.y a b - T.y c d = T.y (a - c) (b - d) := by
  rcases T with ⟨sw, nx, ny⟩
  cases sw <;> simp [Turn.x, Turn.y, mul_sub]

theorem turn_dot (T : Turn) (a b c d : α) : T.x a b * T.x c d + T.y a b * T.y c d = a * c + b * d := by
  rcases T with ⟨sw, nx, ny⟩
  cases sw <;> cases nx <;> cases ny <;> simp [Turn.x, Turn.y, sign] <;> ring

theorem turn_hypot {hypot : α → α → α} (h : EvenHypot hypot) (T : Turn) (a b : α) : hypot (T.x a b) (T.y a b) = hypot a b := by
  rcases T with ⟨sw, nx, ny⟩
  cases sw
  · exact hypot_sign h nx ny a b
  · exact (hypot_sign h nx ny b a).trans (h a b).1

theorem stepDur_turn (T : Turn) {env : Env α} (hh : EvenHypot env.hypot) (d : DurSt α) (l : PyLine α) (r : Str)
    (h : l.command = some c!"G4" → l.raw = r) : stepDur env (turnD T d) (turnRaw T r l) = (stepDur env d l).map (turnD T) := by
  unfold stepDur
  rw [isCmd_turn T l r (by decide) (by decide), isCmd_turn T l r (by decide) (by decide), isCmd_turn T l r (by decide) (by decide)]
  by_cases h1 : (l.isCmd c!"G0" || l.isCmd c!"G1") = true
  · rw [if_pos h1, if_pos h1]
    have hx : (turnRaw T r l).x = T.optX l.x l.y := rfl
    have hy : (turnRaw T r l).y = T.optY l.x l.y := rfl
    have hz : (turnRaw T r l).z = l.z := rfl
    have he : (turnRaw T r l).e = l.e := rfl
    have hf : (turnRaw T r l).f = l.f := rfl
    have d1 : (turnD T d).lastx = T.x d.lastx d.lasty := rfl
    have d2 : (turnD T d).lasty = T.y d.lastx d.lasty := rfl
    have d3 : (turnD T d).lastdx = T.x d.lastdx d.lastdy := rfl
    have d4 : (turnD T d).lastdy = T.y d.lastdx d.lastdy := rfl
    have ht : ∀ a b, moveTravel env (turnD T d) (turnRaw T r l) (T.x a b) (T.y a b) = moveTravel env d l a b := by
      intro a b
      unfold moveTravel
      simp only [turn_hypot hh]
      rfl
    simp only [hx, hy, hz, he, hf, d1, d2, d3, d4, optX_getD, optY_getD, (turn_sub T _ _ _ _).1, (turn_sub T _ _ _ _).2, turn_dot, ht]
    have f1 : (turnD T d).lastf = d.lastf := rfl
    rw [f1]
    have key : ∀ (q : Except Err α) (A B : α → DurSt α), (∀ t, B t = turnD T (A t)) →
        (match q with | .error er => Except.error er | .ok t => .ok (B t)) =
          Except.map (turnD T) (match q with | .error er => Except.error er | .ok t => .ok (A t)) := by
      intro q A B hAB
      cases q with
      | error er => rfl
      | ok t => simp only [Except.map, hAB]
    exact key _ _ _ (fun t => rfl)
  · rw [if_neg h1, if_neg h1]
    by_cases h4 : l.isCmd c!"G4" = true
    · have hr : (turnRaw T r l).raw = l.raw := (h (by simpa [PyLine.isCmd] using h4)).symm
      rw [if_pos h4, if_pos h4, hr]
      cases (findSpecificCode l.raw 'P' : Except Err (Option α)) with
      | error er => rfl
      | ok o =>
        cases o with
        | none => rfl
        | some p => simp only; split_ifs <;> rfl
    · rw [if_neg h4, if_neg h4]; rfl

/-- The bounds after the turn. -/
def turnBB (T : Turn) (b : BBox α) : BBox α :=
  let px := rangeOf T.negX (if T.swap then (b.ymin, b.ymax) else (b.xmin, b.xmax))
  let py := rangeOf T.negY (if T.swap then (b.xmin, b.xmax) else (b.ymin, b.ymax))
  let qx := rangeOf T.negX (if T.swap then (b.yminE, b.ymaxE) else (b.xminE, b.xmaxE))
  let qy := rangeOf T.negY (if T.swap then (b.xminE, b.xmaxE) else (b.yminE, b.ymaxE))
  { xmin := px.1, xmax := px.2, ymin := py.1, ymax := py.2, xminE := qx.1, xmaxE := qx.2, yminE := qy.1, ymaxE := qy.2 }

theorem lower_neg (b v : Option α) : lowerTo (b.map (- ·)) (v.map (- ·)) = (raiseTo b v).map (- ·) := by
  have k : ∀ a b : α, min (-a) (-b) = - max a b := fun a b => by
    rcases le_total a b with h | h
    · rw [max_eq_right h, min_eq_right (neg_le_neg h)]
    · rw [max_eq_left h, min_eq_left (neg_le_neg h)]
  cases b <;> cases v <;> simp [lowerTo, raiseTo, k]

theorem raise_neg (b v : Option α) : raiseTo (b.map (- ·)) (v.map (- ·)) = (lowerTo b v).map (- ·) := by
  have k : ∀ a b : α, max (-a) (-b) = - min a b := fun a b => by
    rcases le_total a b with h | h
    · rw [min_eq_left h, max_eq_left (neg_le_neg h)]
    · rw [min_eq_right h, max_eq_right (neg_le_neg h)]
  cases b <;> cases v <;> simp [lowerTo, raiseTo, k]

theorem range_step (neg : Bool) (r : Option α × Option α) (v : Option α) :
    (lowerTo (rangeOf neg r).1 (v.map (sign α neg * ·)), raiseTo (rangeOf neg r).2 (v.map (sign α neg * ·))) =
      rangeOf neg (lowerTo r.1 v, raiseTo r.2 v) := by
  cases neg
  · simp [rangeOf, sign]
  · simp [rangeOf, sign, lower_neg, raise_neg]

theorem stepBBox_turn (T : Turn) (maxE : α) (b : BBox α) (l : PyLine α) (r : Str) :
    stepBBox maxE (turnBB T b) (turnRaw T r l) = turnBB T (stepBBox maxE b l) := by
  unfold stepBBox
  have hm : (turnRaw T r l).isMove = l.isMove := rfl
  have he : (turnRaw T r l).extruding = l.extruding := rfl
  have hx : (turnRaw T r l).currentX = T.optX l.currentX l.currentY := rfl
  have hy : (turnRaw T r l).currentY = T.optY l.currentX l.currentY := rfl
  rw [hm, he, hx, hy]
  rcases T with ⟨sw, nx, ny⟩
  have r1 : ∀ (neg : Bool) (p : Option α × Option α) (v : Option α), lowerTo (rangeOf neg p).1 (v.map (sign α neg * ·)) = (rangeOf neg (lowerTo p.1 v, raiseTo p.2 v)).1 :=
    fun neg p v => congrArg Prod.fst (range_step neg p v)
  have r2 : ∀ (neg : Bool) (p : Option α × Option α) (v : Option α), raiseTo (rangeOf neg p).2 (v.map (sign α neg * ·)) = (rangeOf neg (lowerTo p.1 v, raiseTo p.2 v)).2 :=
    fun neg p v => congrArg Prod.snd (range_step neg p v)
  cases sw <;> cases l.isMove <;> cases l.extruding.getD false <;> by_cases hE : maxE ≤ 0 <;>
    simp [turnBB, Turn.optX, Turn.optY, hE, r1, r2]

theorem stepLayer_turn (T : Turn) (mode : RoundMode) (a : LayerSt α) (l : PyLine α) (r : Str) (x y : α) :
    stepLayer mode a (turnRaw T r l) x y = stepLayer mode a l x y := by
  have h : nextCurZ a.curZ (turnRaw T r l) = nextCurZ a.curZ l := by
    unfold nextCurZ
    rw [isCmd_turn T l r (by decide) (by decide)]
    rfl
  unfold stepLayer
  rw [h]

/-- The loops, before and after the turn. -/
structure TurnRel (T : Turn) (s s' : BuildSt α) : Prop where
  m : s'.m = turnM T s.m
  bb : s'.bb = turnBB T s.bb
  ds : s'.ds = turnD T s.ds
  ls : LsWith (TurnedLine T) s.ls s'.ls
  done : List.Forall₂ (TurnedLine T) s.done s'.done

theorem buildStep_turn (T : Turn) {env : Env α} (hh : EvenHypot env.hypot) {light : Bool} {home : Home α} {s s' : BuildSt α} (h : TurnRel T s s')
    {r t : Str} (hr : TurnLine T α r t) :
    (∃ er, buildStep env light home s { raw := r } = .error er ∧ buildStep env light (T.home home) s' { raw := t } = .error er) ∨
    ∃ u u', buildStep env light home s { raw := r } = .ok u ∧ buildStep env light (T.home home) s' { raw := t } = .ok u' ∧ TurnRel T u u' := by
  have hp := process_turn T home s.m hr
  unfold buildStep
  rw [h.m, hp]
  cases hq : processLine home s.m { raw := r } with
  | error er => exact .inl ⟨er, rfl, rfl⟩
  | ok p =>
    obtain ⟨m, l⟩ := p
    obtain ⟨ws, vs, h1, h2, h3, h4, h7⟩ := hr
    obtain ⟨e1, e2, e3⟩ := split_turn T h1 h2 h3 h4
    obtain ⟨k1, k2, _⟩ := processLine_keeps hq
    have hst : TurnedLine T (if light then ({ raw := r } : PyLine α) else l) (if light then ({ raw := t } : PyLine α) else turnRaw T t l) := by
      cases light
      · exact turnRaw_turned T t l
      · rcases T with ⟨sw, nx, ny⟩
        cases sw <;> rfl
    simp only [Except.map, turnP]
    have hcw : (turnRaw T t l).command = l.command.map T.cmd := rfl
    rw [hcw]
    cases hc : l.command with
    | none =>
      exact .inr ⟨_, _, rfl, rfl, rfl, h.bb, h.ds, recordLine_with h.ls hst, forall₂_snoc h.done hst⟩
    | some cmd =>
      simp only [Option.map_some, cmd_empty]
      by_cases he : cmd.isEmpty = true
      · rw [if_pos he, if_pos he]
        exact .inr ⟨_, _, rfl, rfl, rfl, h.bb, h.ds, recordLine_with h.ls hst, forall₂_snoc h.done hst⟩
      · rw [if_neg he, if_neg he, h.ds, stepDur_turn T hh s.ds l t (by
          intro h4'
          rw [k2, e2] at h4'
          rw [k1]; exact h7 h4')]
        cases stepDur env s.ds l with
        | error er => exact .inl ⟨er, rfl, rfl⟩
        | ok ds =>
          simp only [Except.map]
          have hls : LsWith (TurnedLine T) { s.ls with hasExtrusion := s.ls.hasExtrusion || l.extruding.getD false }
              { s'.ls with hasExtrusion := s'.ls.hasExtrusion || (turnRaw T t l).extruding.getD false } := by
            have hx : (turnRaw T t l).extruding = l.extruding := rfl
            obtain ⟨q1, q2, q3⟩ := h.ls
            refine ⟨?_, q2, q3⟩
            rw [q1, hx]
          rw [stepLayer_turn]
          have t1 : (turnD T ds).total = ds.total := rfl
          have t2 : (turnD T ds).layerBegin = ds.layerBegin := rfl
          rw [t1, t2]
          obtain ⟨w1, w2⟩ := stepLayer_with env.mode hls l ds.total ds.layerBegin
          refine .inr ⟨_, _, rfl, rfl, rfl, ?_, ?_, recordLine_with w2 hst, forall₂_snoc h.done hst⟩
          · rw [h.bb]; exact stepBBox_turn T _ _ _ _
          · rw [w1]; split_ifs <;> rfl

theorem build_turn (T : Turn) {env : Env α} (hh : EvenHypot env.hypot) {light : Bool} {home : Home α} {ps qs : List Str}
    (h : List.Forall₂ (TurnLine T α) ps qs) : ∀ {s s' : BuildSt α}, TurnRel T s s' →
    (∃ er, (ps.map (fun s => ({ raw := s } : PyLine α))).foldlM (buildStep env light home) s = .error er ∧
      (qs.map (fun s => ({ raw := s } : PyLine α))).foldlM (buildStep env light (T.home home)) s' = .error er) ∨
    ∃ u u', (ps.map (fun s => ({ raw := s } : PyLine α))).foldlM (buildStep env light home) s = .ok u ∧
      (qs.map (fun s => ({ raw := s } : PyLine α))).foldlM (buildStep env light (T.home home)) s' = .ok u' ∧ TurnRel T u u' := by
  induction h with
  | nil => intro s s' hs; exact .inr ⟨s, s', rfl, rfl, hs⟩
  | cons h _ ih =>
    intro s s' hs
    simp only [List.map_cons, List.foldlM_cons]
    rcases buildStep_turn T hh (light := light) (home := home) hs h with ⟨er, e1, e2⟩ | ⟨u, u', e1, e2, hu⟩
    · rw [e1, e2]; exact .inl ⟨er, rfl, rfl⟩
    · rw [e1, e2]; exact ih hu

theorem readLines_turn (T : Turn) {rs ss : List Str} (h : List.Forall₂ (TurnText T α) rs ss) :
    ∃ ps qs : List Str, (readLines rs : List (PyLine α)) = ps.map (fun s => { raw := s }) ∧
      (readLines ss : List (PyLine α)) = qs.map (fun s => { raw := s }) ∧ List.Forall₂ (TurnLine T α) ps qs := by
  induction h with
  | nil => exact ⟨[], [], rfl, rfl, .nil⟩
  | cons h _ ih =>
    obtain ⟨ps, qs, h1, h2, h3⟩ := ih
    rcases h with ⟨e1, e2⟩ | ⟨n1, n2, hl⟩
    · refine ⟨ps, qs, ?_, ?_, h3⟩
      · rw [← h1]; simp [readLines, e1]
      · rw [← h2]; simp [readLines, e2]
    · refine ⟨_ :: ps, _ :: qs, ?_, ?_, .cons hl h3⟩
      · rw [List.map_cons, ← h1]; simp [readLines, n1]
      · rw [List.map_cons, ← h2]; simp [readLines, n2]

end GCodeUtils
