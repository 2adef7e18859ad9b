import Verif.Lemmas.Lex
import Verif.Spec.Erase
import Verif.Lemmas.Run
import Verif.Lemmas.Append
import Verif.Lemmas.Write

set_option linter.unusedSectionVars false

namespace GCodeUtils

open Spec

variable {α : Type} [Field α] [LinearOrder α] [IsStrictOrderedRing α] [FloorRing α]

/-- The machine/line pair with another text. -/
def withRaw2 (r : Str) (p : Machine α × PyLine α) : Machine α × PyLine α := (p.1, withRaw r p.2)

/-- `processLine` after `split`. -/
def processCore (home : Home α) (m : Machine α) (l : PyLine α) (toks : List Tok) :
    Except Err (Machine α × PyLine α) :=
  match l.command with
  | none => .ok (m, l)
  | some cmd =>
    if cmd.isEmpty then .ok (m, l)
    else
      match stepModes m l cmd with
      | .error er => .error er
      | .ok (m, l) =>
        match (if cmd.head? = some 'G' then parseCoordinates l toks m.imperial else .ok l) with
        | .error er => .error er
        | .ok l =>
          .ok ((stepExtrusion (stepPos home m l cmd) (stamp (stepPos home m l cmd) l) cmd).1,
            { (stepExtrusion (stepPos home m l cmd) (stamp (stepPos home m l cmd) l) cmd).2 with
              currentE := some (stepExtrusion (stepPos home m l cmd) (stamp (stepPos home m l cmd) l) cmd).1.currentE })

theorem processLine_eq_core (home : Home α) (m : Machine α) (l0 : PyLine α) :
    processLine home m l0 = processCore home m (split l0).1 (split l0).2 := by
  unfold processLine processCore
  simp only
  cases hc : (split l0).1.command with
  | none => rfl
  | some cmd =>
    simp only
    by_cases he : cmd.isEmpty = true
    · rw [if_pos he, if_pos he]
    · rw [if_neg he, if_neg he]
      simp only [bind, Except.bind]
      cases h1 : stepModes m (split l0).1 cmd with
      | error er => rfl
      | ok p =>
        obtain ⟨m1, l1⟩ := p
        simp only
        by_cases hg : cmd.head? = some 'G'
        · rw [if_pos hg, if_pos hg]
          cases parseCoordinates l1 (split l0).2 m1.imperial <;> rfl
        · rw [if_neg hg, if_neg hg]

theorem stepModes_withRaw (m : Machine α) (l : PyLine α) (cmd r : Str) :
    stepModes m (withRaw r l) cmd = (stepModes m l cmd).map (withRaw2 r) := by
  unfold stepModes
  have : (withRaw r l).isMove = l.isMove := rfl
  rw [this]
  by_cases h0 : l.isMove = true
  · rw [if_pos h0, if_pos h0]; rfl
  · rw [if_neg h0, if_neg h0]
    split_ifs <;> first | rfl | (cases parseInt cmd.tail <;> rfl)

theorem setArg_withRaw (l : PyLine α) (c : Char) (v : α) (r : Str) :
    (withRaw r l).setArg c v = withRaw r (l.setArg c v) := by
  unfold PyLine.setArg
  split_ifs <;> rfl

theorem parseTok_withRaw (u : α) (l : PyLine α) (t : Tok) (r : Str) :
    parseTok u (withRaw r l) t = (parseTok u l t).map (withRaw r) := by
  unfold parseTok
  cases t with
  | none => rfl
  | some p =>
    obtain ⟨c, v⟩ := p
    simp only
    split_ifs
    · cases (parseFloat v : Option α) with
      | none => rfl
      | some a => simp [Except.map, setArg_withRaw]
    · rfl

/-- For every letter, the same words with this letter in the same order. -/
def WordsAlike (a b : List (Char × Str)) : Prop := ∀ k : Char, a.filter (fun w => w.1 = k) = b.filter (fun w => w.1 = k)

theorem WordsAlike.of_eq {a b : List (Char × Str)} (h : a = b) : WordsAlike a b := fun _ => by rw [h]

theorem WordsAlike.trans {a b c : List (Char × Str)} (h : WordsAlike a b) (h' : WordsAlike b c) : WordsAlike a c :=
  fun k => (h k).trans (h' k)

theorem WordsAlike.cons {a b : List (Char × Str)} (w : Char × Str) (h : WordsAlike a b) : WordsAlike (w :: a) (w :: b) := by
  intro k
  rw [List.filter_cons, List.filter_cons, h k]

theorem setArg_fields (l : PyLine α) (c : Char) (v : α) : l.setArg c v =
    { l with x := if c = 'x' then some v else l.x, y := if c = 'y' then some v else l.y, z := if c = 'z' then some v else l.z, e := if c = 'e' then some v else l.e, f := if c = 'f' then some v else l.f, i := if c = 'i' then some v else l.i, j := if c = 'j' then some v else l.j } := by
  unfold PyLine.setArg
  by_cases h1 : c = 'x'
  · subst h1; rfl
  by_cases h2 : c = 'y'
  · subst h2; rfl
  by_cases h3 : c = 'z'
  · subst h3; rfl
  by_cases h4 : c = 'e'
  · subst h4; rfl
  by_cases h5 : c = 'f'
  · subst h5; rfl
  by_cases h6 : c = 'i'
  · subst h6; rfl
  by_cases h7 : c = 'j'
  · subst h7; rfl
  simp only [if_neg h1, if_neg h2, if_neg h3, if_neg h4, if_neg h5, if_neg h6, if_neg h7]

theorem ite_comm_ne {β : Type} {c d k : Char} (h : c ≠ d) (a b o : β) :
    (if d = k then b else if c = k then a else o) = (if c = k then a else if d = k then b else o) := by
  by_cases h1 : d = k
  · have h2 : c ≠ k := fun e => h (e.trans h1.symm)
    rw [if_pos h1, if_neg h2, if_pos h1]
  · rw [if_neg h1, if_neg h1]

theorem setArg_comm (l : PyLine α) {c d : Char} (h : c ≠ d) (v w : α) :
    (l.setArg c v).setArg d w = (l.setArg d w).setArg c v := by
  simp only [setArg_fields, ite_comm_ne h]

/-- Words with different letters can be read in either order. -/
theorem parseTok_comm (u : α) (l : PyLine α) {p q : Char × Str} (h : p.1 ≠ q.1) :
    (parseTok u l (some p) >>= fun l' => parseTok u l' (some q)) =
      (parseTok u l (some q) >>= fun l' => parseTok u l' (some p)) := by
  obtain ⟨c, v⟩ := p
  obtain ⟨d, w⟩ := q
  simp only [ne_eq] at h
  simp only [parseTok, bind, Except.bind]
  by_cases h1 : (!nonArgLetters.contains c && !v.isEmpty) = true
  · by_cases h2 : (!nonArgLetters.contains d && !w.isEmpty) = true
    · simp only [h1, h2, if_true]
      cases (parseFloat v : Option α) with
      | none => cases (parseFloat w : Option α) <;> rfl
      | some a =>
        cases (parseFloat w : Option α) with
        | none => rfl
        | some b => simp only [setArg_comm l h]
    · simp only [h1, h2, if_true, if_false, Bool.false_eq_true]
      cases (parseFloat v : Option α) <;> rfl
  · by_cases h2 : (!nonArgLetters.contains d && !w.isEmpty) = true
    · simp only [h1, h2, if_true, if_false, Bool.false_eq_true]
      cases (parseFloat w : Option α) <;> rfl
    · simp only [h1, h2, if_false, Bool.false_eq_true]

theorem parseWords_front (u : α) (w : Char × Str) (b c : List (Char × Str)) (h : ∀ x ∈ b, x.1 ≠ w.1) (l : PyLine α) :
    (b ++ w :: c).foldlM (fun l p => parseTok u l (some p)) l =
      (w :: (b ++ c)).foldlM (fun l p => parseTok u l (some p)) l := by
  induction b generalizing l with
  | nil => rfl
  | cons x b ih =>
    have ih' := fun l' => ih (fun y hy => h y (by simp [hy])) l'
    rw [List.cons_append, List.foldlM_cons]
    have h1 : (parseTok u l (some x) >>= fun l' => (b ++ w :: c).foldlM (fun l p => parseTok u l (some p)) l') =
        (parseTok u l (some x) >>= fun l' => parseTok u l' (some w) >>= fun l'' =>
          (b ++ c).foldlM (fun l p => parseTok u l (some p)) l'') := by
      congr 1
      funext l'
      rw [ih' l', List.foldlM_cons]
    rw [h1, ← bind_assoc, parseTok_comm u l (h x (by simp)), bind_assoc, List.foldlM_cons]
    simp only [List.cons_append, List.foldlM_cons]

/-- Reading words does not depend on the order between different letters. -/
theorem parseWords_alike (u : α) (a b : List (Char × Str)) (h : WordsAlike a b) (l : PyLine α) :
    b.foldlM (fun l p => parseTok u l (some p)) l = a.foldlM (fun l p => parseTok u l (some p)) l := by
  induction a generalizing b l with
  | nil =>
    cases b with
    | nil => rfl
    | cons w b =>
      have := h w.1
      simp at this
  | cons w a ih =>
    have hw := h w.1
    simp only [List.filter_cons, decide_true, if_true] at hw
    obtain ⟨b1, b2, hb, hb1, -, hb2⟩ := List.filter_eq_cons_iff.1 hw.symm
    have hne : ∀ x ∈ b1, x.1 ≠ w.1 := fun x hx => by simpa using hb1 x hx
    rw [hb, parseWords_front u w b1 b2 hne, List.foldlM_cons, List.foldlM_cons]
    congr 1
    funext l'
    refine ih _ (fun k => ?_) l'
    have hk := h k
    rw [hb, List.filter_append, List.filter_cons, List.filter_cons] at hk
    rw [List.filter_append]
    by_cases hwk : w.1 = k
    · rw [if_pos (by simpa using hwk), if_pos (by simpa using hwk)] at hk
      have h0 : b1.filter (fun x => decide (x.1 = k)) = [] := by
        rw [List.filter_eq_nil_iff]
        intro x hx
        simpa [← hwk] using hne x hx
      rw [h0, List.nil_append] at hk ⊢
      exact (List.cons.inj hk).2
    · rw [if_neg (by simpa using hwk), if_neg (by simpa using hwk)] at hk
      exact hk

/-- Comment tokens do not count, and the text is carried along. -/
theorem fold_parseTok_withRaw (u : α) (r : Str) (toks toks' : List Tok)
    (h : WordsAlike (toks.filterMap id) (toks'.filterMap id)) (l : PyLine α) :
    toks'.foldlM (parseTok u) (withRaw r l) = (toks.foldlM (parseTok u) l).map (withRaw r) := by
  have key : ∀ (ts : List Tok) (l : PyLine α),
      ts.foldlM (parseTok u) l = (ts.filterMap id).foldlM (fun l p => parseTok u l (some p)) l := by
    intro ts
    induction ts with
    | nil => intro l; rfl
    | cons t ts ih =>
      intro l
      cases t with
      | none =>
        rw [List.foldlM_cons]
        simp only [parseTok, bind, Except.bind]
        rw [ih]; rfl
      | some p =>
        rw [List.foldlM_cons]
        simp only [List.filterMap_cons, id]
        rw [List.foldlM_cons]
        cases parseTok u l (some p) with
        | error er => rfl
        | ok l' => exact ih l'
  rw [key toks', key toks, parseWords_alike u _ _ h]
  generalize toks.filterMap id = ws
  induction ws generalizing l with
  | nil => rfl
  | cons w ws ih =>
    rw [List.foldlM_cons, List.foldlM_cons, parseTok_withRaw]
    cases parseTok u l (some w) with
    | error er => rfl
    | ok l' => exact ih l'

theorem parseCoordinates_withRaw (r : Str) (toks toks' : List Tok)
    (h : WordsAlike (toks.filterMap id) (toks'.filterMap id)) (l : PyLine α) (imp : Bool) :
    parseCoordinates (withRaw r l) toks' imp = (parseCoordinates l toks imp).map (withRaw r) := by
  unfold parseCoordinates
  have : (withRaw r l).command = l.command := rfl
  rw [this]
  cases l.command with
  | none => rfl
  | some c =>
    simp only
    by_cases hg : c.head? ≠ some 'G'
    · rw [if_pos hg, if_pos hg]; rfl
    · rw [if_neg hg, if_neg hg]
      exact fold_parseTok_withRaw _ r toks toks' h l

theorem stepExtrusion_withRaw (m : Machine α) (l : PyLine α) (cmd r : Str) :
    stepExtrusion m (withRaw r l) cmd = withRaw2 r (stepExtrusion m l cmd) := by
  rcases l with ⟨raw, command, x, y, z, e, f, i, j, im, rel, relE, cx, cy, cz, ce, cf, ct, ex⟩
  unfold stepExtrusion withRaw
  cases e with
  | none => rfl
  | some e =>
    simp only
    split_ifs <;> rfl

theorem processCore_withRaw (home : Home α) (m : Machine α) (l : PyLine α) (r : Str) (toks toks' : List Tok)
    (h : WordsAlike (toks.filterMap id) (toks'.filterMap id)) :
    processCore home m (withRaw r l) toks' = (processCore home m l toks).map (withRaw2 r) := by
  unfold processCore
  have : (withRaw r l).command = l.command := rfl
  rw [this]
  cases l.command with
  | none => rfl
  | some cmd =>
    simp only
    by_cases he : cmd.isEmpty = true
    · rw [if_pos he, if_pos he]; rfl
    · rw [if_neg he, if_neg he, stepModes_withRaw]
      cases stepModes m l cmd with
      | error er => rfl
      | ok p =>
        obtain ⟨m1, l1⟩ := p
        simp only [Except.map, withRaw2]
        have hpc : (if cmd.head? = some 'G' then parseCoordinates (withRaw r l1) toks' m1.imperial
            else .ok (withRaw r l1)) =
            (if cmd.head? = some 'G' then parseCoordinates l1 toks m1.imperial else .ok l1).map (withRaw r) := by
          split_ifs
          · exact parseCoordinates_withRaw r toks toks' h l1 _
          · rfl
        rw [hpc]
        cases (if cmd.head? = some 'G' then parseCoordinates l1 toks m1.imperial else .ok l1) with
        | error er => rfl
        | ok l2 =>
          simp only [Except.map]
          have h1 : stepPos home m1 (withRaw r l2) cmd = stepPos home m1 l2 cmd := rfl
          have h2 : stamp (stepPos home m1 l2 cmd) (withRaw r l2) =
            withRaw r (stamp (stepPos home m1 l2 cmd) l2) := rfl
          rw [h1, h2, stepExtrusion_withRaw]
          rfl

/-! ### texts with the same meaning -/

/-- The texts parse to a command word and, letter by letter, the same words. -/
structure SameMeaning (r r' : Str) : Prop where
  good : ∃ w rest rest', dropN (findall (lower r)) = some w :: rest ∧ dropN (findall (lower r')) = some w :: rest' ∧
    WordsAlike (rest.filterMap id) (rest'.filterMap id)
  dwell : findSpecificAux 'P' 0 r = findSpecificAux 'P' 0 r'

theorem split_eq (l : PyLine α) {w : Char × Str} {rest : List Tok} (h : dropN (findall (lower l.raw)) = some w :: rest) :
    split l = ({ l with command := some (w.1.toUpper :: w.2), isMove := moveGcodes.contains (w.1.toUpper :: w.2) },
      some w :: rest) := by
  unfold split
  rw [h]
  rfl

theorem sameMeaning_process {r r' : Str} (h : SameMeaning r r') (home : Home α) (m : Machine α) :
    processLine home m { raw := r' } = (processLine home m { raw := r }).map (withRaw2 r') := by
  obtain ⟨w, rest, rest', h1, h2, h3⟩ := h.good
  have s1 := split_eq ({ raw := r } : PyLine α) h1
  have s2 := split_eq ({ raw := r' } : PyLine α) h2
  rw [processLine_eq_core, processLine_eq_core, s1, s2]
  simp only
  exact processCore_withRaw home m
    { raw := r, command := some (w.1.toUpper :: w.2), isMove := moveGcodes.contains (w.1.toUpper :: w.2) } r' (some w :: rest) (some w :: rest') (h3.cons w)

theorem sameMeaning_command {r r' : Str} (h : SameMeaning r r') :
    (rawToLine r' : PyLine α) = withRaw r' (rawToLine r) := by
  obtain ⟨w, rest, rest', h1, h2, h3⟩ := h.good
  have s1 := split_eq ({ raw := r } : PyLine α) h1
  have s2 := split_eq ({ raw := r' } : PyLine α) h2
  unfold rawToLine
  rw [s1, s2]; rfl

/-! ### whole programs up to text -/

/-- Layer states without the texts. -/
def LayerSt.erase (s : LayerSt α) : LayerSt α :=
  { s with
    curLines := s.curLines.map (withRaw [])
    allLayers := s.allLayers.map (fun L => { L with lines := L.lines.map (withRaw []) }) }

/-- Loop states without the texts. -/
def BuildSt.erase (s : BuildSt α) : BuildSt α :=
  { s with done := s.done.map (withRaw []), ls := s.ls.erase }

theorem erase_erase (s : LayerSt α) : s.erase.erase = s.erase := by
  simp [LayerSt.erase, withRaw, Function.comp_def]

theorem buildErase_erase (s : BuildSt α) : s.erase.erase = s.erase := by
  simp [BuildSt.erase, erase_erase, withRaw, Function.comp_def]

theorem estimateHeight_erase (mode : RoundMode) (Ls : List (Layer α)) :
    estimateHeight mode (Ls.map (fun L => { L with lines := L.lines.map (withRaw []) })) = estimateHeight mode Ls := by
  unfold estimateHeight
  rw [List.filterMap_map]
  rfl

theorem baseZ_erase (mode : RoundMode) (s : LayerSt α) : baseZ mode s.erase = baseZ mode s := by
  unfold baseZ LayerSt.erase
  simp only [estimateHeight_erase]

theorem stepLayer_erase (mode : RoundMode) (s : LayerSt α) (l : PyLine α) (t b : α) :
    stepLayer mode s.erase l t b = ((stepLayer mode s l t b).1.erase, (stepLayer mode s l t b).2) := by
  have hb := baseZ_erase mode { s with curZ := nextCurZ s.curZ l }
  have he : ({ s.erase with curZ := nextCurZ s.erase.curZ l } : LayerSt α) =
      LayerSt.erase { s with curZ := nextCurZ s.curZ l } := rfl
  unfold stepLayer
  simp only
  rw [he, hb]
  have e1 : s.erase.curZ = s.curZ := rfl
  have e2 : s.erase.prevZ = s.prevZ := rfl
  have e3 : s.erase.prevBaseZ = s.prevBaseZ := rfl
  rw [e1, e2, e3]
  split_ifs
  · simp [LayerSt.erase]
  · rfl
  · rfl

theorem recordLine_erase (s : LayerSt α) (l : PyLine α) :
    (recordLine s.erase l).erase = (recordLine s l).erase := by
  simp [recordLine, LayerSt.erase, withRaw, Function.comp_def]

theorem recordLine_withRaw (s : LayerSt α) (l : PyLine α) (r : Str) :
    (recordLine s (withRaw r l)).erase = (recordLine s l).erase := by
  simp [recordLine, LayerSt.erase, withRaw]

theorem buildStep_erase (env : Env α) (light : Bool) (home : Home α) (s : BuildSt α) (l0 : PyLine α) :
    (buildStep env light home s.erase l0).map BuildSt.erase = (buildStep env light home s l0).map BuildSt.erase := by
  unfold buildStep
  have : s.erase.m = s.m := rfl
  rw [this]
  cases processLine home s.m l0 with
  | error er => rfl
  | ok p =>
    obtain ⟨m, l⟩ := p
    simp only
    have hrec : ∀ x : PyLine α, (recordLine s.erase.ls x).erase = (recordLine s.ls x).erase :=
      fun x => recordLine_erase s.ls x
    have hdone : ∀ x : PyLine α, (s.erase.done ++ [x]).map (withRaw []) = (s.done ++ [x]).map (withRaw []) := by
      intro x; simp [BuildSt.erase, withRaw, Function.comp_def]
    cases l.command with
    | none =>
      simp only [Except.map, BuildSt.erase] at *
      rw [hrec, hdone]
    | some cmd =>
      simp only
      by_cases he : cmd.isEmpty = true
      · rw [if_pos he, if_pos he]
        simp only [Except.map, BuildSt.erase] at *
        rw [hrec, hdone]
      · rw [if_neg he, if_neg he]
        have hds : s.erase.ds = s.ds := rfl
        rw [hds]
        cases stepDur env s.ds l with
        | error er => rfl
        | ok ds =>
          have h1 : ({ s.erase.ls with hasExtrusion := s.erase.ls.hasExtrusion || l.extruding.getD false } : LayerSt α) =
            LayerSt.erase { s.ls with hasExtrusion := s.ls.hasExtrusion || l.extruding.getD false } := rfl
          simp only [h1, stepLayer_erase, Except.map]
          simp only [BuildSt.erase, recordLine_erase] at *
          rw [hdone]

theorem stepDur_withRaw (env : Env α) (d : DurSt α) (l : PyLine α) (r : Str)
    (h : findSpecificAux 'P' 0 l.raw = findSpecificAux 'P' 0 r) :
    stepDur env d (withRaw r l) = stepDur env d l := by
  unfold stepDur
  have h1 : (findSpecificCode (withRaw r l).raw 'P' : Except Err (Option α)) = findSpecificCode l.raw 'P' := by
    unfold findSpecificCode
    rw [h]; rfl
  rw [h1]
  rfl

/-- Two texts with the same meaning have the same effect, apart from the stored text. -/
theorem buildStep_sameMeaning (env : Env α) (light : Bool) (home : Home α) (s : BuildSt α) {r r' : Str}
    (h : SameMeaning r r') :
    (buildStep env light home s { raw := r' }).map BuildSt.erase =
      (buildStep env light home s { raw := r }).map BuildSt.erase := by
  unfold buildStep
  rw [sameMeaning_process h]
  cases hp : processLine home s.m ({ raw := r } : PyLine α) with
  | error er => rfl
  | ok p =>
    obtain ⟨m, l⟩ := p
    have hraw : l.raw = r := (processLine_keeps hp).1
    simp only [Except.map, withRaw2]
    have hc : (withRaw r' l).command = l.command := rfl
    rw [hc]
    have hst : ∃ x y : PyLine α, (if light then ({ raw := r' } : PyLine α) else withRaw r' l) = withRaw y.raw x ∧
        (if light then ({ raw := r } : PyLine α) else l) = x := by
      by_cases hl : light = true
      · rw [if_pos hl, if_pos hl]; exact ⟨_, { raw := r' }, rfl, rfl⟩
      · rw [if_neg hl, if_neg hl]; exact ⟨_, { raw := r' }, rfl, rfl⟩
    obtain ⟨x, y, hx1, hx2⟩ := hst
    rw [hx1, hx2]
    have hdone : (s.done ++ [withRaw y.raw x]).map (withRaw []) = (s.done ++ [x]).map (withRaw []) := by
      simp [withRaw]
    cases l.command with
    | none => simp only [BuildSt.erase, recordLine_withRaw, hdone]
    | some cmd =>
      simp only
      by_cases he : cmd.isEmpty = true
      · rw [if_pos he, if_pos he]
        simp only [BuildSt.erase, recordLine_withRaw, hdone]
      · rw [if_neg he, if_neg he]
        rw [stepDur_withRaw env s.ds l r' (by rw [hraw]; exact h.dwell)]
        cases stepDur env s.ds l with
        | error er => rfl
        | ok ds =>
          have h1 : (withRaw r' l).extruding = l.extruding := rfl
          have h2 : ∀ t, stepLayer env.mode t (withRaw r' l) ds.total ds.layerBegin =
            stepLayer env.mode t l ds.total ds.layerBegin := fun _ => rfl
          have h3 : stepBBox m.maxE s.bb (withRaw r' l) = stepBBox m.maxE s.bb l := rfl
          simp only [h1, h2, h3, BuildSt.erase, recordLine_withRaw, hdone]

theorem map_erase_bind {x y : Except Err (BuildSt α)} (h : x.map BuildSt.erase = y.map BuildSt.erase) :
    (∃ e, x = .error e ∧ y = .error e) ∨ (∃ s t, x = .ok s ∧ y = .ok t ∧ s.erase = t.erase) := by
  cases x with
  | error e =>
    cases y with
    | error e' => simp only [Except.map, Except.error.injEq] at h; subst h; exact Or.inl ⟨e, rfl, rfl⟩
    | ok t => simp [Except.map] at h
  | ok s =>
    cases y with
    | error e' => simp [Except.map] at h
    | ok t => simp only [Except.map, Except.ok.injEq] at h; exact Or.inr ⟨s, t, rfl, rfl, h⟩

/-- Texts equal, or with the same meaning. -/
def LineRel (l l' : PyLine α) : Prop := l = l' ∨ ∃ r r', SameMeaning r r' ∧ l = { raw := r } ∧ l' = { raw := r' }

theorem fold_sameMeaning (env : Env α) (light : Bool) (home : Home α) {ls ls' : List (PyLine α)}
    (h : List.Forall₂ LineRel ls ls') (s s' : BuildSt α) (hs : s.erase = s'.erase) :
    (ls'.foldlM (buildStep env light home) s').map BuildSt.erase =
      (ls.foldlM (buildStep env light home) s).map BuildSt.erase := by
  induction h generalizing s s' with
  | nil => simp [pure, Except.pure, Except.map, hs]
  | @cons l l' ls ls' hr _ ih =>
    rw [List.foldlM_cons, List.foldlM_cons]
    have hstep : (buildStep env light home s' l').map BuildSt.erase =
        (buildStep env light home s l).map BuildSt.erase := by
      rw [← buildStep_erase env light home s, hs, buildStep_erase]
      rcases hr with rfl | ⟨r, r', hm, rfl, rfl⟩
      · rfl
      · exact buildStep_sameMeaning env light home s' hm
    rcases map_erase_bind hstep with ⟨e, h1, h2⟩ | ⟨t', t, h1, h2, h3⟩
    · rw [h1, h2]; rfl
    · rw [h1, h2]; exact ih t t' h3.symm

theorem closeLast_erase (s : LayerSt α) (t b : α) :
    closeLast s.erase t b = (closeLast s t b).erase := by
  unfold closeLast
  have hc : s.erase.curLines.isEmpty = s.curLines.isEmpty := by simp [LayerSt.erase]
  rw [hc]
  by_cases he : s.curLines.isEmpty = true
  · rw [if_pos he, if_pos he]
  · rw [if_neg he, if_neg he]
    simp [LayerSt.erase]

theorem finalize_erase (g : GCode α) (s : BuildSt α) :
    (finalize g s).eraseText = (finalize g s.erase).eraseText := by
  have h1 : closeLast s.erase.ls s.erase.ds.total s.erase.ds.layerBegin =
    (closeLast s.ls s.ds.total s.ds.layerBegin).erase := closeLast_erase _ _ _
  have h2 : ∀ Ls : List (Layer α), (Ls.map (fun L => { L with lines := L.lines.map (withRaw []) })).map
      (fun L => { L with lines := L.lines.map (withRaw []) }) =
      Ls.map (fun L => ({ L with lines := L.lines.map (withRaw []) } : Layer α)) := by
    intro Ls
    simp [withRaw, Function.comp_def]
  have h3 : (s.done.map (withRaw [])).map (withRaw []) = s.done.map (withRaw []) := by
    simp [withRaw, Function.comp_def]
  unfold finalize GCode.eraseText
  simp only
  rw [h1]
  simp only [LayerSt.erase, BuildSt.erase, List.map_append, h2, h3, List.length_map]
  rfl

/-- Programs whose non-blank lines pairwise have the same meaning load to the same object up to texts. -/
theorem load_sameMeaning (env : Env α) (light : Bool) (home : Home α) (data data' : List Str)
    (h : List.Forall₂ (fun a b => strip a = strip b ∨ (strip a ≠ [] ∧ strip b ≠ [] ∧ SameMeaning (strip a) (strip b)))
      data data') :
    (GCode.load env data' light home).map GCode.eraseText = (GCode.load env data light home).map GCode.eraseText := by
  have hrel : List.Forall₂ LineRel (readLines data : List (PyLine α)) (readLines data') := by
    induction h with
    | nil => exact List.Forall₂.nil
    | @cons a b as bs hab _ ih =>
      rw [readLines_cons, readLines_cons]
      rcases hab with he | ⟨h1, h2, h3⟩
      · rw [he]
        split_ifs
        · exact ih
        · exact List.Forall₂.cons (Or.inl rfl) ih
      · rw [if_neg h1, if_neg h2]
        exact List.Forall₂.cons (Or.inr ⟨_, _, h3, rfl, rfl⟩) ih
  have hemp : data'.isEmpty = data.isEmpty := by
    cases h <;> rfl
  unfold GCode.load prepare
  rw [hemp]
  by_cases he : data.isEmpty = true
  · rw [if_pos he, if_pos he]
  · rw [if_neg he, if_neg he]
    unfold preprocessAll
    have := fold_sameMeaning env (GCode.blank light home).light (GCode.blank light home).home hrel
      (BuildSt.start (GCode.blank light home)) (BuildSt.start (GCode.blank light home)) rfl
    rcases map_erase_bind this with ⟨e, h1, h2⟩ | ⟨t', t, h1, h2, h3⟩
    · rw [h1, h2]
    · rw [h1, h2]
      simp only [Except.map]
      rw [finalize_erase, finalize_erase _ t, h3]

/-! ### building `SameMeaning` -/

theorem plain_head {p : Str} (hp : Plain p) (hc : HasCommand p) :
    ∃ w rest, ∀ X, dropN (findall (lower p) ++ X) = some w :: (rest ++ X) := by
  obtain ⟨c, hcp, hcl⟩ := hc
  have hlow : c.toLower ∈ wordLetters ∧ c.toLower ≠ 'n' := by
    simp only [List.mem_cons, List.not_mem_nil, or_false] at hcl
    rcases hcl with rfl | rfl | rfl | rfl | rfl | rfl | rfl | rfl | rfl | rfl | rfl | rfl | rfl | rfl | rfl | rfl |
      rfl | rfl | rfl | rfl <;> decide
  have hmem : c.toLower ∈ (lower p).drop 0 := by
    rw [List.drop_zero]
    exact List.mem_map_of_mem hcp
  obtain ⟨v, hv⟩ := findallAux_plain_mem (lower p) (Plain.lower hp) true 0 c.toLower hlow.1 hmem
  have hall := findallAux_plain_words (lower p) (Plain.lower hp) true 0
  have hfd : findall (lower p) = findallAux true 0 (lower p) := rfl
  rw [hfd]
  cases hT : findallAux true 0 (lower p) with
  | nil => rw [hT] at hv; simp at hv
  | cons t ts =>
    rw [hT] at hv hall
    obtain ⟨⟨a, va⟩, rfl⟩ := hall t (by simp)
    by_cases ha : a = 'n'
    · subst ha
      have hts : some (c.toLower, v) ∈ ts := by
        rcases List.mem_cons.1 hv with h | h
        · simp only [Option.some.injEq, Prod.mk.injEq] at h
          exact absurd h.1 hlow.2
        · exact h
      cases ts with
      | nil => simp at hts
      | cons t2 ts2 =>
        obtain ⟨w, rfl⟩ := hall t2 (by simp)
        exact ⟨w, ts2, fun X => rfl⟩
    · refine ⟨(a, va), ts, fun X => ?_⟩
      simp [dropN, ha]

theorem HasCommand.ne_nil {p : Str} (h : HasCommand p) : p ≠ [] := by
  rintro rfl
  obtain ⟨c, hc, _⟩ := h
  simp at hc

theorem lower_ne_nil {p : Str} (h : p ≠ []) : lower p ≠ [] := by
  simpa [lower] using h

/-- Appending, after command-bearing plain text, anything that yields no word. -/
theorem sameMeaning_append {p r : Str} (hp : Plain p) (hc : HasCommand p) (hr : NotNumeric r)
    (h1 : (findallAux false 0 (lower r)).filterMap id = []) (h2 : findSpecificAux 'P' 0 r = []) :
    SameMeaning p (p ++ r) := by
  obtain ⟨w, rest, hw⟩ := plain_head hp hc
  refine ⟨⟨w, rest, rest ++ findallAux false 0 (lower r), ?_, ?_, ?_⟩, ?_⟩
  · simpa using hw []
  · rw [lower_append, findall_closed_append (Plain.closed (Plain.lower hp)) (lower_ne_nil (HasCommand.ne_nil hc)) (NotNumeric.lower hr)]
    exact hw _
  · exact .of_eq (by rw [List.filterMap_append, h1, List.append_nil])
  · have := findSpecificAux_closed 'P' (Plain.closed hp) r hr 0 (Nat.zero_le _)
    rw [this, h2, List.append_nil]

theorem findallAux_blank (s r : Str) (hs : ∀ c ∈ s, c ∈ blanks) :
    findallAux false 0 (s ++ r) = findallAux false 0 r := by
  induction s with
  | nil => rfl
  | cons c s ih =>
    have hc := hs c (by simp)
    have ih' := ih (fun d hd => hs d (by simp [hd]))
    have hm : ∀ u, matchTok false c u = none := by
      intro u
      simp only [blanks, List.mem_cons, List.not_mem_nil, or_false] at hc
      rcases hc with rfl | rfl | rfl | rfl | rfl | rfl <;> simp [matchTok, wordLetters]
    rw [List.cons_append]
    simp only [findallAux, hm]
    exact ih'

theorem findSpecific_blank (s r : Str) (hs : ∀ c ∈ s, c ∈ blanks) :
    findSpecificAux 'P' 0 (s ++ r) = findSpecificAux 'P' 0 r := by
  induction s with
  | nil => rfl
  | cons c s ih =>
    have hc := hs c (by simp)
    have ih' := ih (fun d hd => hs d (by simp [hd]))
    have hm : ∀ u, matchSpecific 'P' c u = none := by
      intro u
      simp only [blanks, List.mem_cons, List.not_mem_nil, or_false] at hc
      rcases hc with rfl | rfl | rfl | rfl | rfl | rfl <;> simp [matchSpecific]
    rw [List.cons_append]
    simp only [findSpecificAux, hm]
    exact ih'

theorem lower_blank (s : Str) (hs : ∀ c ∈ s, c ∈ blanks) : lower s = s := by
  unfold lower
  conv_rhs => rw [← List.map_id s]
  apply List.map_congr_left
  intro c hc
  exact (toLower_eq_iff c c (by
    have := hs c hc
    simp only [blanks, List.mem_cons, List.not_mem_nil, or_false] at this
    rcases this with rfl | rfl | rfl | rfl | rfl | rfl <;> decide)).2 rfl

theorem notNumeric_blank (s r : Str) (hs : ∀ c ∈ s, c ∈ blanks) (hr : NotNumeric r) : NotNumeric (s ++ r) := by
  cases s with
  | nil => exact hr
  | cons c s =>
    intro d hd
    simp only [List.cons_append, List.head?_cons, Option.some.injEq] at hd
    subst hd
    have := hs c (by simp)
    simp only [blanks, List.mem_cons, List.not_mem_nil, or_false] at this
    rcases this with rfl | rfl | rfl | rfl | rfl | rfl <;> decide

/-- A semicolon comment, with blanks before it. -/
theorem sameMeaning_semicolon {p sp t : Str} (hp : Plain p) (hc : HasCommand p) (hsp : ∀ c ∈ sp, c ∈ blanks)
    (ht : '\n' ∉ t) : SameMeaning p (p ++ (sp ++ ';' :: t)) := by
  have hnn : NotNumeric (';' :: t) := by
    intro c hc
    simp only [List.head?_cons, Option.some.injEq] at hc
    subst hc; decide
  refine sameMeaning_append hp hc (notNumeric_blank sp _ hsp hnn) ?_ ?_
  · have h1 : lower (sp ++ ';' :: t) = sp ++ ';' :: lower t := by
      rw [lower_append, lower_blank sp hsp]
      rfl
    rw [h1, findallAux_blank sp _ hsp, findallAux_semicolon]
    · rfl
    · intro hm
      unfold lower at hm
      rw [List.mem_map] at hm
      obtain ⟨d, hd, he⟩ := hm
      rw [toLower_eq_iff d '\n' (by decide)] at he
      subst he; exact ht hd
  · rw [findSpecific_blank sp _ hsp, findSpecificAux_semicolon 'P' t ht]

theorem findallAux_paren (t u : Str) (ht : ∀ c ∈ t, c ≠ '(' ∧ c ≠ ')') :
    findallAux false 0 (paren t ++ u) = none :: findallAux false 0 u := by
  have h := findallAux_skip (t ++ [')']) u
  simp only [List.length_append, List.length_cons, List.length_nil, List.append_assoc, List.cons_append,
    List.nil_append] at h
  simp only [paren, List.cons_append, List.append_assoc, List.nil_append, findallAux, matchTok, if_true,
    parenLen_closed t u ht]
  rw [h]

theorem lower_noParen {t : Str} (ht : ∀ c ∈ t, c ≠ '(' ∧ c ≠ ')') : ∀ c ∈ lower t, c ≠ '(' ∧ c ≠ ')' := by
  intro c hc
  unfold lower at hc
  rw [List.mem_map] at hc
  obtain ⟨d, hd, rfl⟩ := hc
  have := ht d hd
  constructor
  · intro h; rw [toLower_eq_iff d '(' (by decide)] at h; exact this.1 h
  · intro h; rw [toLower_eq_iff d ')' (by decide)] at h; exact this.2 h

/-- A parenthesised comment between complete tokens, after the command. -/
theorem sameMeaning_paren {p q t s : Str} (hp : Plain p) (hc : HasCommand p) (hq : Closed q) (hqn : NotNumeric q)
    (ht : ∀ c ∈ t, c ≠ '(' ∧ c ≠ ')') (hs : NotNumeric s) :
    SameMeaning (p ++ q ++ s) (p ++ q ++ (paren t ++ s)) := by
  obtain ⟨w, rest, hw⟩ := plain_head hp hc
  have hcl : Closed (p ++ q) := Closed.append (Plain.closed hp) hq
  have hne : lower (p ++ q) ≠ [] := by
    apply lower_ne_nil
    simp [HasCommand.ne_nil hc]
  have hpq : findall (lower (p ++ q)) = findall (lower p) ++ findallAux false 0 (lower q) := by
    rw [lower_append, findall_closed_append (Plain.closed (Plain.lower hp)) (lower_ne_nil (HasCommand.ne_nil hc))
      (NotNumeric.lower hqn)]
  refine ⟨⟨w, rest ++ (findallAux false 0 (lower q) ++ findallAux false 0 (lower s)),
    rest ++ (findallAux false 0 (lower q) ++ none :: findallAux false 0 (lower s)), ?_, ?_, ?_⟩, ?_⟩
  · rw [lower_append (p ++ q), findall_closed_append (Closed.lower hcl) hne (NotNumeric.lower hs), hpq,
      List.append_assoc, hw]
  · rw [lower_append (p ++ q), findall_closed_append (Closed.lower hcl) hne (NotNumeric.lower (notNumeric_paren t s)),
      hpq, List.append_assoc, hw, lower_append (paren t), lower_paren, findallAux_paren _ _ (lower_noParen ht)]
  · exact .of_eq (by simp [List.filterMap_append])
  · rw [findSpecificAux_closed 'P' hcl s hs 0 (Nat.zero_le _),
      findSpecificAux_closed 'P' hcl _ (notNumeric_paren t s) 0 (Nat.zero_le _), findSpecificAux_paren 'P' t s ht]

/-! ### letter case -/

/-- Any word letter other than `n` gives a token that `split` does not drop. -/
theorem findallAux_mem (s : Str) (st : Bool) (k : ℕ) (d : Char) (hd : d ∈ wordLetters) (hn : d ≠ 'n')
    (hmem : d ∈ s.drop k) : ∃ t ∈ findallAux st k s, ∀ v, t ≠ some ('n', v) := by
  induction s generalizing st k with
  | nil => simp at hmem
  | cons c s ih =>
    cases k with
    | succ k =>
      simp only [findallAux]
      exact ih false k (by simpa using hmem)
    | zero =>
      simp only [findallAux]
      simp only [List.drop_zero, List.mem_cons] at hmem
      cases hm : matchTok st c s with
      | none =>
        simp only
        have hdc : d ≠ c := by
          rintro rfl
          have hp : d ∉ c!"();/*\n" := by
            simp only [wordLetters, List.mem_cons, List.not_mem_nil, or_false] at hd
            rcases hd with rfl | rfl | rfl | rfl | rfl | rfl | rfl | rfl | rfl | rfl | rfl <;> decide
          rw [matchTok_plain st d s hp, if_pos hd] at hm
          simp at hm
        exact ih false 0 (by simpa using hmem.resolve_left hdc)
      | some p =>
        obtain ⟨t, n⟩ := p
        simp only
        by_cases ht : ∃ v, t = some ('n', v)
        · obtain ⟨v, rfl⟩ := ht
          have hcn : c = 'n' ∧ n = numLen s := by
            unfold matchTok at hm
            cases hpl : parenLen s <;> cases hop : outerParenLen s <;> cases hsl : slashLen s <;>
              rw [hpl] at hm <;> (try rw [hop] at hm) <;> rw [hsl] at hm <;>
              split_ifs at hm <;> simp at hm <;> exact ⟨hm.1.1, hm.2.symm⟩
          obtain ⟨rfl, rfl⟩ := hcn
          have hds : d ∈ s := hmem.resolve_left hn
          have hdrop : d ∈ s.drop (numLen s) := by
            rw [← List.take_append_drop (numLen s) s] at hds
            rcases List.mem_append.1 hds with hds | hds
            · exfalso
              have := numeric_of_lt_numLen s d hds
              simp only [wordLetters, List.mem_cons, List.not_mem_nil, or_false] at hd this
              rcases hd with rfl | rfl | rfl | rfl | rfl | rfl | rfl | rfl | rfl | rfl | rfl <;>
                revert this <;> decide
            · exact hds
          obtain ⟨t, ht, h⟩ := ih false _ hdrop
          exact ⟨t, List.mem_cons_of_mem _ ht, h⟩
        · exact ⟨t, List.mem_cons_self, fun v hv => ht ⟨v, hv⟩⟩

theorem HasCommand.lower_mem {s : Str} (h : HasCommand s) : ∃ d ∈ lower s, d ∈ wordLetters ∧ d ≠ 'n' := by
  obtain ⟨c, hcp, hcl⟩ := h
  refine ⟨c.toLower, List.mem_map_of_mem hcp, ?_⟩
  simp only [List.mem_cons, List.not_mem_nil, or_false] at hcl
  rcases hcl with rfl | rfl | rfl | rfl | rfl | rfl | rfl | rfl | rfl | rfl | rfl | rfl | rfl | rfl | rfl | rfl |
    rfl | rfl | rfl | rfl <;> decide

theorem dropN_ne_nil {s : Str} (h : HasCommand s) : dropN (findall (lower s)) ≠ [] := by
  obtain ⟨d, hd, h1, h2⟩ := HasCommand.lower_mem h
  obtain ⟨t, ht, hv⟩ := findallAux_mem (lower s) true 0 d h1 h2 (by simpa using hd)
  unfold findall
  intro he
  cases hf : findallAux true 0 (lower s) with
  | nil => rw [hf] at ht; simp at ht
  | cons a as =>
    rw [hf] at he ht
    rcases a with _ | ⟨c, v⟩
    · simp [dropN] at he
    · simp only [dropN] at he
      split_ifs at he with hc
      subst hc he
      simp only [List.mem_singleton] at ht
      exact hv v ht

theorem split_case {r r' : Str} (h : lower r = lower r') (hc : HasCommand r) :
    split ({ raw := r' } : PyLine α) = (withRaw r' (split ({ raw := r } : PyLine α)).1, (split ({ raw := r } : PyLine α)).2) := by
  have := dropN_ne_nil hc
  unfold split
  simp only
  rw [← h]
  cases hd : dropN (findall (lower r)) with
  | nil => exact absurd hd this
  | cons t ts =>
    rcases t with _ | ⟨c, v⟩ <;> rfl

theorem process_case {r r' : Str} (h : lower r = lower r') (hc : HasCommand r) (home : Home α) (m : Machine α) :
    processLine home m { raw := r' } = (processLine home m { raw := r }).map (withRaw2 r') := by
  rw [processLine_eq_core, processLine_eq_core, split_case h hc]
  exact processCore_withRaw home m _ r' _ _ (.of_eq rfl)

theorem findSpecificAux_absent (code : Char) (s : Str) (h : code ∉ s) (k : ℕ) : findSpecificAux code k s = [] := by
  induction s generalizing k with
  | nil => rfl
  | cons c s ih =>
    have ih' := ih (fun hm => h (by simp [hm]))
    cases k with
    | succ k => simp only [findSpecificAux]; exact ih' k
    | zero =>
      simp only [findSpecificAux]
      have hc : c ≠ code := fun hc => h (by simp [hc])
      cases hm : matchSpecific code c s with
      | none => exact ih' 0
      | some p =>
        obtain ⟨g, n⟩ := p
        cases g with
        | none => exact ih' n
        | some num =>
          exfalso
          unfold matchSpecific at hm
          split_ifs at hm
          · cases hx : parenLen s <;> rw [hx] at hm <;> simp at hm
          · simp at hm
          · cases hx : slashLen s <;> rw [hx] at hm <;> simp at hm

theorem sameMeaning_case {r r' : Str} (h : lower r = lower r') (hp : Plain r) (hc : HasCommand r)
    (h1 : 'P' ∉ r) (h2 : 'P' ∉ r') : SameMeaning r r' := by
  obtain ⟨w, rest, hw⟩ := plain_head hp hc
  refine ⟨⟨w, rest, rest, ?_, ?_, .of_eq rfl⟩, ?_⟩
  · simpa using hw []
  · rw [← h]; simpa using hw []
  · rw [findSpecificAux_absent 'P' r h1, findSpecificAux_absent 'P' r' h2]

end GCodeUtils
