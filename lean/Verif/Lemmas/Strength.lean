import Verif.Lemmas.ElsewhereStretch
import Verif.Lemmas.StretchWidth
import Verif.Spec.Strength

/-
  Stretching a program with two strengths.
-/

set_option linter.unusedSectionVars false

namespace GCodeUtils

open Spec

variable {α : Type} [Field α] [LinearOrder α] [IsStrictOrderedRing α] [FloorRing α]

/-! ### settings -/

/-- The settings with `c` times the strength. -/
def scaleRepo (c : α) (r : StretchRepo α) : StretchRepo α :=
  { r with loop := c * r.loop, inside := c * r.inside, outside := c * r.outside }

/-- The lengths with `c` times the strength. -/
def scaleDist (c : α) (d : StretchDist α) : StretchDist α :=
  { d with loopMax := c * d.loopMax, insideMax := c * d.insideMax, outsideMax := c * d.outsideMax }

theorem make_scale (c cross loop inside outside dist strength : α) :
    StretchRepo.make cross loop inside outside dist (c * strength) = scaleRepo c (StretchRepo.make cross loop inside outside dist strength) := by
  simp only [StretchRepo.make, scaleRepo, StretchRepo.mk.injEq]
  refine ⟨trivial, ?_, ?_, ?_, trivial⟩ <;> ring

theorem setEdgeWidth_scale (c : α) (r : StretchRepo α) (w : α) : setEdgeWidth (scaleRepo c r) w = scaleDist c (setEdgeWidth r w) := by
  simp only [setEdgeWidth, scaleRepo, scaleDist, StretchDist.mk.injEq]
  refine ⟨trivial, ?_, ?_, ?_, trivial, trivial, trivial⟩ <;> ring

/-- An annotation state with other lengths. -/
def mapAnn (f : StretchDist α → StretchDist α) (s : AnnSt α) : AnnSt α := { s with dist := s.dist.map f }

/-- The outcome of a pass with other lengths. -/
def mapEnd {β : Type} (f : StretchDist α → StretchDist α) (x : Except Err (AnnSt α × β)) : Except Err (AnnSt α × β) :=
  x.map fun p => (mapAnn f p.1, p.2)

/-- One line with other lengths. -/
def mapLine {β : Type} (f : StretchDist α → StretchDist α) (p : AnnSt α × β) : AnnSt α × β := (mapAnn f p.1, p.2)

section ann

variable (f : StretchDist α → StretchDist α)

theorem annotateExtrusion_map (s : AnnSt α) (l : PyLine α) : annotateExtrusion (mapAnn f s) l = mapLine f (annotateExtrusion s l) := by
  unfold annotateExtrusion mapLine mapAnn
  simp only
  split_ifs <;> rfl

theorem slic3rPerimeter_map (s : AnnSt α) (l : PyLine α) (b : Bool) : slic3rPerimeter (mapAnn f s) l b = mapLine f (slic3rPerimeter s l b) := by
  unfold slic3rPerimeter mapLine mapAnn
  simp only
  split_ifs <;> rfl

theorem slic3rPartMid_map (p : AnnSt α × PyLine α) (rest : List (PyLine α)) :
    slic3rPartMid (mapLine f p) rest = mapLine f (slic3rPartMid p rest) := by
  unfold slic3rPartMid
  show (if hasSub c!"; perimeter external" p.2.raw then _ else _) = _
  by_cases h1 : hasSub c!"; perimeter external" p.2.raw = true
  · rw [if_pos h1, if_pos h1]
    by_cases h2 : p.1.type ≠ .external
    · rw [if_pos h2, if_pos (show (mapLine f p).1.type ≠ .external from h2)]; exact slic3rPerimeter_map f _ _ _
    · rw [if_neg h2, if_neg (show ¬ (mapLine f p).1.type ≠ .external from h2)]
  · rw [if_neg h1, if_neg h1]
    show (if hasSub c!"; perimeter" p.2.raw then _ else _) = _
    by_cases h1 : hasSub c!"; perimeter" p.2.raw = true
    · rw [if_pos h1, if_pos h1]
      by_cases h2 : p.1.type ≠ .extra
      · rw [if_pos h2, if_pos (show (mapLine f p).1.type ≠ .extra from h2)]; exact slic3rPerimeter_map f _ _ _
      · rw [if_neg h2, if_neg (show ¬ (mapLine f p).1.type ≠ .extra from h2)]
    · rw [if_neg h1, if_neg h1]
      show (if hasSub c!"; move to first perimeter point" p.2.raw then _ else _) = _
      by_cases h1 : hasSub c!"; move to first perimeter point" p.2.raw = true
      · rw [if_pos h1, if_pos h1]
        cases nextPerimeter rest with
        | none => rfl
        | some b => exact slic3rPerimeter_map f _ _ _
      · rw [if_neg h1, if_neg h1]
        show (if !hasSub c!"unretract" p.2.raw then _ else _) = _
        by_cases h1 : (!hasSub c!"unretract" p.2.raw) = true
        · rw [if_pos h1, if_pos h1]; rfl
        · rw [if_neg h1, if_neg h1]

theorem curaPerimeter_map (s : AnnSt α) (l : PyLine α) (a b : Bool) : curaPerimeter (mapAnn f s) l a b = mapLine f (curaPerimeter s l a b) := rfl

theorem curaStop_map (s : AnnSt α) (l : PyLine α) : curaStop (mapAnn f s) l = mapLine f (curaStop s l) := rfl

theorem curaPartNext_map (p : AnnSt α × PyLine α) : curaPartNext (mapLine f p) = mapLine f (curaPartNext p) := by
  unfold curaPartNext
  show (match p.1.next with | some (ext, outer) => _ | none => _) = _
  cases p.1.next with
  | none => rfl
  | some q => rfl

theorem curaPartType_map (p : AnnSt α × PyLine α) : curaPartType (mapLine f p) = mapLine f (curaPartType p) := by
  obtain ⟨s, l⟩ := p
  unfold curaPartType mapLine
  simp only
  generalize hasSub c!"TYPE:WALL-OUTER" l.raw = b1
  generalize hasSub c!"TYPE:WALL-INNER" l.raw = b2
  generalize hasSub c!"TYPE:SKIN" l.raw = b3
  generalize hasSub c!"TYPE:FILL" l.raw = b4
  cases b1 <;> cases b2 <;> cases b3 <;> cases b4 <;> rfl

theorem curaPartEnd_map (b : Bool) (p : AnnSt α × PyLine α) : curaPartEnd b (mapLine f p) = mapLine f (curaPartEnd b p) := by
  cases b <;> rfl

end ann

theorem edgeFromText_scale (c : α) (r : StretchRepo α) (t : Str) : edgeFromText (scaleRepo c r) t = (edgeFromText r t).map (scaleDist c) := by
  unfold edgeFromText
  cases (parseFloat t : Option α) with
  | none => rfl
  | some w => simp only [setEdgeWidth_scale]; rfl

theorem slic3rLine_scale (c : α) (r : StretchRepo α) (s : AnnSt α) (l : PyLine α) (rest : List (PyLine α)) :
    slic3rLine (scaleRepo c r) (mapAnn (scaleDist c) s) l rest = mapEnd (scaleDist c) (slic3rLine r s l rest) := by
  rw [slic3rLine_parts, slic3rLine_parts, annotateExtrusion_map, slic3rPartMid_map]
  generalize slic3rPartMid (annotateExtrusion s l) rest = p
  unfold slic3rPartTail
  show (match slic3rEdgeWidth p.2.raw with | some t => _ | none => _) = _
  cases slic3rEdgeWidth p.2.raw with
  | none => rfl
  | some t =>
    simp only [edgeFromText_scale]
    cases edgeFromText r t <;> rfl

theorem curaLine_scale (c : α) (r : StretchRepo α) (profile : ProfileOracle α) (s : AnnSt α) (l : PyLine α) (b : Bool) :
    curaLine (scaleRepo c r) profile (mapAnn (scaleDist c) s) l b = mapEnd (scaleDist c) (curaLine r profile s l b) := by
  rw [curaLine_parts, curaLine_parts, annotateExtrusion_map, curaPartNext_map, curaPartType_map, curaPartEnd_map]
  generalize curaPartEnd b (curaPartType (curaPartNext (annotateExtrusion s l))) = p
  unfold curaPartTail
  show (match dropPrefix? c!";CURA_PROFILE_STRING:" p.2.raw with | some t => _ | none => _) = _
  cases dropPrefix? c!";CURA_PROFILE_STRING:" p.2.raw with
  | none => rfl
  | some t =>
    simp only [setEdgeWidth_scale]
    cases profile t with
    | error e => rfl
    | ok o => cases o <;> rfl

theorem skeinforgeLine_scale (c : α) (r : StretchRepo α) (s : AnnSt α) (l : PyLine α) :
    skeinforgeLine (scaleRepo c r) (mapAnn (scaleDist c) s) l = mapEnd (scaleDist c) (skeinforgeLine r s l) := by
  unfold skeinforgeLine
  simp only
  cases skeinforgeEdgeWidth l.raw with
  | none => rfl
  | some t =>
    simp only [edgeFromText_scale]
    cases edgeFromText r t <;> rfl

theorem annotateLayer_scale (c : α) (slicer : Slicer) (r : StretchRepo α) (profile : ProfileOracle α) (s : AnnSt α) (ls : List (PyLine α)) :
    annotateLayer slicer (scaleRepo c r) profile (mapAnn (scaleDist c) s) ls = mapEnd (scaleDist c) (annotateLayer slicer r profile s ls) := by
  have hs : ∀ s : AnnSt α, slic3rLines (scaleRepo c r) (mapAnn (scaleDist c) s) ls = mapEnd (scaleDist c) (slic3rLines r s ls) := by
    induction ls with
    | nil => intro s; rfl
    | cons l rest ih =>
      intro s
      rw [slic3rLines, slic3rLines, slic3rLine_scale]
      cases slic3rLine r s l rest with
      | error e => rfl
      | ok p =>
        simp only [mapEnd, Except.map]
        rw [ih]
        cases slic3rLines r p.1 rest <;> rfl
  have hc : ∀ s : AnnSt α, curaLines (scaleRepo c r) profile (mapAnn (scaleDist c) s) ls = mapEnd (scaleDist c) (curaLines r profile s ls) := by
    clear hs
    induction ls with
    | nil => intro s; rfl
    | cons l rest ih =>
      intro s
      rw [curaLines, curaLines, curaLine_scale]
      cases curaLine r profile s l rest.isEmpty with
      | error e => rfl
      | ok p =>
        simp only [mapEnd, Except.map]
        rw [ih]
        cases curaLines r profile p.1 rest <;> rfl
  have hk : ∀ s : AnnSt α, skeinforgeLines (scaleRepo c r) (mapAnn (scaleDist c) s) ls = mapEnd (scaleDist c) (skeinforgeLines r s ls) := by
    clear hs hc
    induction ls with
    | nil => intro s; rfl
    | cons l rest ih =>
      intro s
      rw [skeinforgeLines, skeinforgeLines, skeinforgeLine_scale]
      cases skeinforgeLine r s l with
      | error e => rfl
      | ok p =>
        simp only [mapEnd, Except.map]
        rw [ih]
        cases skeinforgeLines r p.1 rest <;> rfl
  cases slicer with
  | slic3r => exact hs { s with nextOuter := true, type := .unknown }
  | cura => exact hc { s with type := .unknown, next := none }
  | skeinforge => exact hk _

theorem annotateLayers_scale (c : α) (slicer : Slicer) (r : StretchRepo α) (profile : ProfileOracle α) (Ls : List (Layer α)) : ∀ s : AnnSt α,
    annotateLayers slicer (scaleRepo c r) profile (mapAnn (scaleDist c) s) Ls = mapEnd (scaleDist c) (annotateLayers slicer r profile s Ls) := by
  induction Ls with
  | nil => intro s; rfl
  | cons L rest ih =>
    intro s
    rw [annotateLayers, annotateLayers, annotateLayer_scale]
    cases annotateLayer slicer r profile s L.lines with
    | error e => rfl
    | ok p =>
      simp only [mapEnd, Except.map]
      rw [ih]
      cases annotateLayers slicer r profile p.1 rest <;> rfl

theorem setupFilter_scale (c : α) (slicer : Slicer) (r : StretchRepo α) (profile : ProfileOracle α) (Ls : List (Layer α)) :
    setupFilter slicer (scaleRepo c r) profile Ls = (setupFilter slicer r profile Ls).map (fun p => (p.1.map (scaleDist c), p.2)) := by
  unfold setupFilter
  have := annotateLayers_scale c slicer r profile Ls {}
  rw [show mapAnn (scaleDist c) ({} : AnnSt α) = {} from rfl] at this
  rw [this]
  cases annotateLayers slicer r profile {} Ls with
  | error e => rfl
  | ok p =>
    simp only [mapEnd, Except.map, setEdgeWidth_scale]
    cases slicer with
    | skeinforge => rfl
    | slic3r =>
      obtain ⟨⟨d, fnd, _⟩, Ls'⟩ := p
      cases fnd <;> rfl
    | cura =>
      obtain ⟨⟨d, fnd, _⟩, Ls'⟩ := p
      cases fnd <;> rfl

/-! ### displacements -/

section disp

variable (sqrt : α → α) (fuel : ℕ)

theorem crossLimited_scale (c : α) (d : StretchDist α) (old : Option (Vec3 α)) (kind : ItKind) (lines : List (PyLine α)) (start : ℤ) (loc s : Cx α) :
    crossLimited sqrt fuel (scaleDist c d) old kind lines start loc s = crossLimited sqrt fuel d old kind lines start loc s := rfl

theorem relStretchLoop_scale (c : α) (d : StretchDist α) (old : Option (Vec3 α)) (kind : ItKind) (lines : List (PyLine α)) (loc : Cx α) : ∀ (n : ℕ) (st : ItSt)
    (last : Cx α) (ot : α) (pt : Cx α) (tot : α),
    relStretchLoop sqrt fuel (scaleDist c d) old kind lines loc n st last ot pt tot = relStretchLoop sqrt fuel d old kind lines loc n st last ot pt tot := by
  intro n
  induction n with
  | zero => intros; rfl
  | succ n ih =>
    intro st last ot pt tot
    rw [relStretchLoop, relStretchLoop]
    simp only [ih]
    rfl

theorem displacement_scale (c : α) (d : StretchDist α) (old : Option (Vec3 α)) (kf kb : ItKind) (lines : List (PyLine α)) (n : ℕ) (tmax : α) (loc : Cx α) :
    displacement sqrt fuel (scaleDist c d) old kf kb lines n (c * tmax) loc =
      (displacement sqrt fuel d old kf kb lines n tmax loc).map (fun a => ⟨c * a.re, c * a.im⟩) := by
  unfold displacement relStretch
  simp only [bind, Except.bind, relStretchLoop_scale, crossLimited_scale]
  cases relStretchLoop sqrt fuel d old kf lines loc fuel { idx := (n : ℤ) + 1 } loc 0 loc 0 with
  | error e => rfl
  | ok a =>
    simp only
    cases relStretchLoop sqrt fuel d old kb lines loc fuel { idx := (n : ℤ) - 1 } loc 0 loc 0 with
    | error e => rfl
    | ok b =>
      simp only
      cases crossLimited sqrt fuel d old kf lines ((n : ℤ) + 1) loc (Cx.smul (8 / 10) (a.add b)) with
      | error e => rfl
      | ok s =>
        simp only
        cases crossLimited sqrt fuel d old kb lines ((n : ℤ) - 1) loc s with
        | error e => rfl
        | ok s =>
          simp only
          by_cases hl : 1 < s.abs sqrt
          · rw [if_pos hl, if_pos hl]
            cases s.div (s.abs sqrt) with
            | error e => rfl
            | ok s =>
              simp only [Except.map, Except.ok.injEq, Cx.smul, Cx.mk.injEq]
              constructor <;> ring
          · rw [if_neg hl, if_neg hl]
            simp only [Except.map, Except.ok.injEq, Cx.smul, Cx.mk.injEq]
            constructor <;> ring

/-- What a displacement makes of a line, once it has been read again. -/
theorem moved_line {hist : List (PyLine α)} {l : PyLine α} (hxy : XYMove l) {loc : Vec3 α} {feed : α}
    (hx : loc.x = lastOr 0 ((loopMoves none hist).filterMap (·.x))) (hy : loc.y = lastOr 0 ((loopMoves none hist).filterMap (·.y)))
    (hf : feed = lastOr 959 ((loopMoves none hist).filterMap (fun l => l.f.filter (· ≠ 0)))) (a : Cx α) (n : α) :
    ∃ l', reparse (unsplit ({ command := l.command, x := some (loc.x + a.re), y := some (loc.y + a.im), z := l.z, f := some feed, e := l.e.map (fun e => e * (1 - n)) } : PyLine α)) = .ok l' ∧
      MovedBy a.re a.im n hist l l' := by
  obtain ⟨nn, hcmd, hnn⟩ := linear_gcode hxy
  obtain ⟨m, hm⟩ : ∃ m : PyLine α, m = ({ command := l.command, x := some (loc.x + a.re), y := some (loc.y + a.im), z := l.z, f := some feed, e := l.e.map (fun e => e * (1 - n)) } : PyLine α) := ⟨_, rfl⟩
  rw [← hm]
  have hmc : m.command = some ('G' :: nn) := by rw [hm]; exact hcmd
  have e3' : (1 : α) / (2 * 10 ^ 3) = 5 / 10 ^ 4 := by norm_num
  have e5' : (1 : α) / (2 * 10 ^ 5) = 5 / 10 ^ 6 := by norm_num
  have mi : m.i = none := by rw [hm]
  have mj : m.j = none := by rw [hm]
  refine ⟨_, reparse_unsplit m nn hmc hnn, m, rfl, by rw [hm], by rw [hm, ← hx], by rw [hm, ← hy], by rw [hm], by rw [hm], by rw [hm, ← hf], mi, mj, hmc.symm, ?_, ?_, ?_, ?_, ?_, ?_, ?_⟩
  · rw [← e3']; exact within_reread 3 _
  · rw [← e3']; exact within_reread 3 _
  · rw [← e3']; exact within_reread 3 _
  · rw [← e5']; exact within_reread 5 _
  · rw [← e3']; exact within_reread 3 _
  · simp [reread, unsplit, mi]
  · simp [reread, unsplit, mj]

/-! ### lines -/

/-- The filter state with `c` times the strength. -/
def scaleSt (c : α) (s : StretchSt α) : StretchSt α := { s with dist := s.dist.map (scaleDist c), tmax := c * s.tmax }

theorem loopSwitch_scale (c : α) (s : StretchSt α) (l : PyLine α) : loopSwitch (scaleSt c s) l = (loopSwitch s l).map (scaleSt c) := by
  unfold loopSwitch
  simp only
  split_ifs
  · simp only [scaleSt]; cases s.dist <;> rfl
  · simp only [scaleSt]; cases s.dist <;> rfl
  · simp only [scaleSt]; cases s.dist <;> rfl
  · simp [scaleSt, Except.map]
  · rfl

variable {sqrt}

/-- The outcome of one line under both strengths. -/
structure ScaledOut (ε c : α) (most : LoopKind → α) (hist : List (PyLine α)) (l : PyLine α) (p q : StretchSt α × PyLine α × Bool) : Prop where
  state : q.1 = scaleSt c p.1
  flag : q.2.2 = p.2.2
  same : p.2.2 = true → p.2.1 = l ∧ q.2.1 = l ∧ ¬ (XYMove l ∧ ∃ k, loopAt hist = some k ∧ 0 < most k)
  moved : p.2.2 = false → ∃ r r', reparse p.2.1 = .ok r ∧ reparse q.2.1 = .ok r' ∧ LineScaled ε c most hist l r r'

theorem parseLine_scale {ε : α} (hs : IsSqrt ε sqrt) {c : α} (hc : 0 < c) (kf kb : ItKind) (cur : List (PyLine α)) (n : ℕ) {most : LoopKind → α}
    {d : Option (StretchDist α)} (hlim : Limits most d) {hist : List (PyLine α)} {st : StretchSt α} (hi : StInv most d hist st) (l : PyLine α) :
    SameEnd (ScaledOut ε c most (hist ++ [l]) l) (stretchParseLine sqrt fuel kf kb cur n st l) (stretchParseLine sqrt fuel kf kb cur n (scaleSt c st) l) := by
  unfold stretchParseLine
  rw [loopSwitch_scale]
  cases hsw : loopSwitch st l with
  | error er => exact rfl
  | ok s1 =>
    simp only [Except.map]
    obtain ⟨e1, e2, e3, e4, e5⟩ := loopSwitch_inv hlim hi hsw
    by_cases hb : (isXYMove l && s1.isLoop) = true
    · rw [if_pos hb, if_pos (show (isXYMove l && (scaleSt c s1).isLoop) = true from hb)]
      rw [Bool.and_eq_true] at hb
      have hxy := (isXYMove_iff l).1 hb.1
      obtain ⟨k, hk⟩ : ∃ k, loopAt (hist ++ [l]) = some k := Option.isSome_iff_exists.1 (by rw [← e2]; exact hb.2)
      have hsn := loopMoves_snoc hist l
      rw [if_pos ⟨by rw [hk]; simp, hxy⟩] at hsn
      have hfeed : (match l.f with | some f => if f ≠ 0 then f else s1.feed | none => s1.feed) =
          lastOr 959 ((loopMoves none (hist ++ [l])).filterMap (fun l => l.f.filter (· ≠ 0))) := by
        rw [hsn, filterMap_snoc, lastOr_snoc, e4, hi.feed]
        cases l.f with
        | none => rfl
        | some f =>
          by_cases hf : f ≠ 0
          · simp [Option.filter, hf]
          · simp [Option.filter, hf]
      have hx : (locationFromLine s1.old l).x = lastOr 0 ((loopMoves none (hist ++ [l])).filterMap (·.x)) := by
        rw [hsn, filterMap_snoc, lastOr_snoc, ← hi.oldx, e5]; rfl
      have hy : (locationFromLine s1.old l).y = lastOr 0 ((loopMoves none (hist ++ [l])).filterMap (·.y)) := by
        rw [hsn, filterMap_snoc, lastOr_snoc, ← hi.oldy, e5]; rfl
      have htm : s1.tmax = most k := by rw [e3, hk]
      obtain ⟨F, hF⟩ : ∃ F, F = (match l.f with | some f => if f ≠ 0 then f else s1.feed | none => s1.feed) := ⟨_, rfl⟩
      have key : ∀ s : StretchSt α, stretchLine sqrt fuel kf kb cur n s l = (if 0 < s.tmax then
          match s.dist with
          | none => .error .attributeError
          | some d =>
            match stretchedLine sqrt fuel d (some (locationFromLine s.old l)) kf kb cur n s.tmax (match l.f with | some f => if f ≠ 0 then f else s.feed | none => s.feed) (locationFromLine s.old l) l with
            | .error er => .error er
            | .ok r => .ok ({ s with feed := (match l.f with | some f => if f ≠ 0 then f else s.feed | none => s.feed), old := some (locationFromLine s.old l) }, r, false)
        else .ok ({ s with feed := (match l.f with | some f => if f ≠ 0 then f else s.feed | none => s.feed), old := some (locationFromLine s.old l) }, l, true)) := fun s => rfl
      rw [key, key]
      show SameEnd _ _ (if 0 < c * s1.tmax then
          match s1.dist.map (scaleDist c) with
          | none => .error .attributeError
          | some d =>
            match stretchedLine sqrt fuel d (some (locationFromLine s1.old l)) kf kb cur n (c * s1.tmax) (match l.f with | some f => if f ≠ 0 then f else s1.feed | none => s1.feed) (locationFromLine s1.old l) l with
            | .error er => .error er
            | .ok r => .ok ({ scaleSt c s1 with feed := (match l.f with | some f => if f ≠ 0 then f else s1.feed | none => s1.feed), old := some (locationFromLine s1.old l) }, r, false)
        else .ok ({ scaleSt c s1 with feed := (match l.f with | some f => if f ≠ 0 then f else s1.feed | none => s1.feed), old := some (locationFromLine s1.old l) }, l, true))
      rw [← hF] at hfeed ⊢
      by_cases ht : 0 < s1.tmax
      · rw [if_pos ht, if_pos (mul_pos hc ht)]
        cases hD : s1.dist with
        | none => exact rfl
        | some D =>
          simp only [Option.map_some]
          unfold stretchedLine
          simp only [bind, Except.bind, displacement_scale]
          cases displacement sqrt fuel D (some (locationFromLine s1.old l)) kf kb cur n s1.tmax ⟨(locationFromLine s1.old l).x, (locationFromLine s1.old l).y⟩ with
          | error er => exact rfl
          | ok a =>
            simp only [Except.map]
            refine ⟨by simp [scaleSt, hD], rfl, fun k => (by cases k), fun _ => ?_⟩
            obtain ⟨r, h1, h2⟩ := moved_line hxy hx hy hfeed a (a.abs sqrt)
            obtain ⟨r', h1', h2'⟩ := moved_line hxy hx hy hfeed ⟨c * a.re, c * a.im⟩ (Cx.abs sqrt ⟨c * a.re, c * a.im⟩)
            refine ⟨r, r', h1, h1', ?_⟩
            unfold LineScaled
            rw [if_pos ⟨hxy, k, hk, by rw [← htm]; exact ht⟩]
            exact ⟨a.re, a.im, _, _, Cx.abs_sqrt hs a, Cx.abs_sqrt hs ⟨c * a.re, c * a.im⟩, h2, h2'⟩
      · rw [if_neg ht, if_neg (fun h => ht (by rwa [mul_pos_iff_of_pos_left hc] at h))]
        refine ⟨rfl, rfl, fun _ => ⟨rfl, rfl, ?_⟩, fun k => by cases k⟩
        rintro ⟨_, k', hk', h0⟩
        rw [hk] at hk'
        cases hk'
        exact ht (by rwa [htm])
    · rw [if_neg hb, if_neg (show ¬ (isXYMove l && (scaleSt c s1).isLoop) = true from hb)]
      refine ⟨rfl, rfl, fun _ => ⟨rfl, rfl, ?_⟩, fun k => by cases k⟩
      rintro ⟨h4, k, hk, _⟩
      apply hb
      rw [Bool.and_eq_true]
      exact ⟨(isXYMove_iff l).2 h4, by rw [e2, hk]; rfl⟩

theorem stretchLayer_scale {ε : α} (hs : IsSqrt ε sqrt) {c : α} (hc : 0 < c) (kf kb : ItKind) {most : LoopKind → α}
    {d : Option (StretchDist α)} (hlim : Limits most d) (ls : List (PyLine α)) : ∀ (cur : List (PyLine α)) (n : ℕ) {hist : List (PyLine α)} {st : StretchSt α},
    StInv most d hist st →
    SameEnd (fun p q => q.1 = scaleSt c p.1 ∧ StInv most d (hist ++ ls) p.1 ∧ Scales ε c most hist ls p.2 q.2)
      (stretchLayer sqrt fuel kf kb st cur n ls) (stretchLayer sqrt fuel kf kb (scaleSt c st) cur n ls) := by
  induction ls with
  | nil =>
    intro cur n hist st hi
    exact ⟨rfl, by rwa [List.append_nil], .done⟩
  | cons l rest ih =>
    intro cur n hist st hi
    rw [stretchLayer, stretchLayer]
    rcases (parseLine_scale fuel hs hc kf kb cur n hlim hi l).outcomes with ⟨e, k1, k2⟩ | ⟨⟨t, r, b⟩, ⟨t', r', b'⟩, k1, k2, k3, k4, k5, k6⟩
    · rw [k1, k2]; exact rfl
    · rw [k1, k2]
      simp only at k3 k4 k5 k6 ⊢
      subst k3 k4
      have hre : SameEnd (fun p q => LineScaled ε c most (hist ++ [l]) l p q ∧ (b' = true → q = p) ∧ StInv most d (hist ++ [l]) t) (reparse r) (reparse r') := by
        cases b' with
        | true =>
          obtain ⟨h1, h2, hno⟩ := k5 rfl
          subst h1 h2
          cases hr : reparse r' with
          | error e => exact rfl
          | ok q =>
            refine ⟨?_, fun _ => rfl, (parseLine_spec hs hlim hi k1 hr).1⟩
            unfold LineScaled
            rw [if_neg hno]
            exact ⟨rfl, reparse_raw hr⟩
        | false =>
          obtain ⟨q, q', e1, e2, e3⟩ := k6 rfl
          rw [e1, e2]
          exact ⟨e3, fun k => (by cases k), (parseLine_spec hs hlim hi k1 e1).1⟩
      rcases hre.outcomes with ⟨e, j1, j2⟩ | ⟨q, q', j1, j2, j3, j4, j5⟩
      · rw [j1, j2]; exact rfl
      · rw [j1, j2]
        simp only
        have hcur : (if b' = true then cur.set n q' else cur) = (if b' = true then cur.set n q else cur) := by
          by_cases hb : b' = true
          · rw [if_pos hb, if_pos hb, j4 hb]
          · rw [if_neg hb, if_neg hb]
        rw [hcur]
        rcases (ih (if b' = true then cur.set n q else cur) (n + 1) j5).outcomes with ⟨e, i1, i2⟩ | ⟨⟨u, o⟩, ⟨u', o'⟩, i1, i2, i3, i4, i5⟩
        · rw [i1, i2]; exact rfl
        · rw [i1, i2]
          rw [List.append_assoc] at i4
          exact ⟨i3, i4, .step j3 i5⟩

theorem scales_append {ε c : α} {most : LoopKind → α} {hist a a₁ a₂ b b₁ b₂ : List (PyLine α)} (h1 : Scales ε c most hist a a₁ a₂)
    (h2 : Scales ε c most (hist ++ a) b b₁ b₂) : Scales ε c most hist (a ++ b) (a₁ ++ b₁) (a₂ ++ b₂) := by
  induction h1 with
  | done => simpa using h2
  | @step hist l l₁ l₂ a c₁ c₂ hl _ ih =>
    exact .step hl (ih (by rwa [List.append_assoc]))

theorem stretchLayers_scale {ε : α} (hs : IsSqrt ε sqrt) {c : α} (hc : 0 < c) (kf kb : ItKind) {most : LoopKind → α}
    {d : Option (StretchDist α)} (hlim : Limits most d) (Ls : List (Layer α)) : ∀ {hist : List (PyLine α)} {st : StretchSt α},
    StInv most d hist st →
    SameEnd (fun p q => Scales ε c most hist (linesOf Ls) (linesOf p.2) (linesOf q.2))
      (stretchLayers sqrt fuel kf kb st Ls) (stretchLayers sqrt fuel kf kb (scaleSt c st) Ls) := by
  induction Ls with
  | nil => intro hist st hi; exact .done
  | cons L rest ih =>
    intro hist st hi
    rw [stretchLayers, stretchLayers]
    rcases (stretchLayer_scale fuel hs hc kf kb hlim L.lines L.lines 0 hi).outcomes with ⟨e, k1, k2⟩ | ⟨⟨t, o⟩, ⟨t', o'⟩, k1, k2, k3, k4, k5⟩
    · rw [k1, k2]; exact rfl
    · rw [k1, k2]
      simp only at k3 k4 k5 ⊢
      subst k3
      rcases (ih k4).outcomes with ⟨e, i1, i2⟩ | ⟨⟨u, v⟩, ⟨u', v'⟩, i1, i2, i3⟩
      · rw [i1, i2]; exact rfl
      · rw [i1, i2]
        exact scales_append k5 i3

theorem stretch_scale {ε : α} (hs : IsSqrt ε sqrt) {c : α} (hc : 0 < c) (slicer : Slicer) (repo : StretchRepo α) (profile : ProfileOracle α) (g : GCode α) :
    SameEnd (fun p q => ∃ d ann w, setupFilter slicer repo profile g.allLayers = .ok (d, ann) ∧
        WidthUsed slicer profile (linesOf g.allLayers) (linesOf ann) w ∧
        Scales ε c (reach repo w) [] (linesOf ann) (linesOf p.allLayers) (linesOf q.allLayers))
      (g.stretch sqrt fuel slicer repo profile) (g.stretch sqrt fuel slicer (scaleRepo c repo) profile) := by
  unfold GCode.stretch
  rw [setupFilter_scale]
  cases h1 : setupFilter slicer repo profile g.allLayers with
  | error e => exact rfl
  | ok p =>
    obtain ⟨d, Ls⟩ := p
    simp only [Except.map]
    have h0 : ({ StretchSt.init with dist := d.map (scaleDist c) } : StretchSt α) = scaleSt c { StretchSt.init with dist := d } := by
      simp [scaleSt, StretchSt.init]
    rw [h0]
    rcases setupFilter_width h1 with ⟨w, rfl, hw⟩ | ⟨rfl, rfl, hn⟩
    · rcases (stretchLayers_scale fuel hs hc slicer.forward slicer.backward (limits_width repo w) Ls (stInv_init (reach repo w) _)).outcomes
        with ⟨e, i1, i2⟩ | ⟨⟨u, v⟩, ⟨u', v'⟩, i1, i2, i3⟩
      · rw [i1, i2]; exact rfl
      · rw [i1, i2]
        exact ⟨_, Ls, w, rfl, .inl hw, i3⟩
    · rcases (stretchLayers_scale fuel hs hc Slicer.skeinforge.forward Slicer.skeinforge.backward (most := reach repo 0)
        (fun D (hD : (none : Option (StretchDist α)) = some D) => by cases hD) Ls (stInv_init (reach repo 0) _)).outcomes
        with ⟨e, i1, i2⟩ | ⟨⟨u, v⟩, ⟨u', v'⟩, i1, i2, i3⟩
      · rw [i1, i2]; exact rfl
      · rw [i1, i2]
        exact ⟨none, Ls, 0, rfl, .inr ⟨rfl, hn, stretchLayers_noWidth rfl i1⟩, i3⟩

theorem scales_get {ε c : α} {most : LoopKind → α} {hist a b₁ b₂ : List (PyLine α)} (h : Scales ε c most hist a b₁ b₂) :
    ∀ (k : ℕ) (l l₁ l₂ : PyLine α), a[k]? = some l → b₁[k]? = some l₁ → b₂[k]? = some l₂ → LineScaled ε c most (hist ++ a.take (k + 1)) l l₁ l₂ := by
  induction h with
  | done => intro k l l₁ l₂ h1; simp at h1
  | @step hist x x₁ x₂ a b₁ b₂ hx _ ih =>
    intro k l l₁ l₂ h1 h2 h3
    cases k with
    | zero =>
      simp only [List.getElem?_cons_zero, Option.some.injEq] at h1 h2 h3
      subst h1 h2 h3
      simpa using hx
    | succ k =>
      simp only [List.getElem?_cons_succ] at h1 h2 h3
      have := ih k l l₁ l₂ h1 h2 h3
      simpa [List.append_assoc] using this

end disp

end GCodeUtils
