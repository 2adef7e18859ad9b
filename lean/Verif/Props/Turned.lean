import Verif.Lemmas.Turned
import Verif.Props.Inches

/-
  C132: turned and mirrored programs have the turned analysis.
-/

set_option linter.unusedSectionVars false

namespace GCodeUtils

open Spec

variable {α : Type} [Field α] [LinearOrder α] [IsStrictOrderedRing α] [FloorRing α]

theorem range_getD (neg : Bool) (r : Option α × Option α) :
    ((rangeOf neg r).1.getD 0, (rangeOf neg r).2.getD 0) = if neg then (-(r.2.getD 0), -(r.1.getD 0)) else (r.1.getD 0, r.2.getD 0) := by
  obtain ⟨a, b⟩ := r
  cases neg <;> cases a <;> cases b <;> simp [rangeOf]

theorem range_bounds (neg : Bool) (fl : α) (rE r : Option α × Option α) :
    (some (if 0 < fl then (rangeOf neg rE).1.getD 0 else (rangeOf neg r).1.getD 0),
     some (if 0 < fl then (rangeOf neg rE).2.getD 0 else (rangeOf neg r).2.getD 0)) =
    rangeOf neg (some (if 0 < fl then rE.1.getD 0 else r.1.getD 0), some (if 0 < fl then rE.2.getD 0 else r.2.getD 0)) := by
  have h1 := range_getD neg rE
  have h2 := range_getD neg r
  by_cases h : 0 < fl
  · simp only [if_pos h]
    cases neg
    · simp [rangeOf]
    · obtain ⟨e1, e2⟩ := Prod.ext_iff.1 h1
      simp only [if_true] at e1 e2
      rw [e1, e2]; rfl
  · simp only [if_neg h]
    cases neg
    · simp [rangeOf]
    · obtain ⟨e1, e2⟩ := Prod.ext_iff.1 h2
      simp only [if_true] at e1 e2
      rw [e1, e2]; rfl

theorem range_length (neg : Bool) {a b c d : α} (h : (some a, some b) = rangeOf neg (some c, some d)) : b - a = d - c := by
  cases neg
  · simp [rangeOf] at h; rw [h.1, h.2]
  · simp [rangeOf] at h; rw [h.1, h.2]; ring

theorem finalize_box (T : Turn) (g g' : GCode α) {s s' : BuildSt α} (hb : s'.bb = turnBB T s.bb) (hE : s'.m.maxE = s.m.maxE) :
    TurnedBox T (finalize g s) (finalize g' s') := by
  rcases T with ⟨sw, nx, ny⟩
  have hx : ∀ (b b' : BBox α) (fl : α), b' = turnBB ⟨sw, nx, ny⟩ b →
      (some (if 0 < fl then b'.xminE.getD 0 else b'.xmin.getD 0), some (if 0 < fl then b'.xmaxE.getD 0 else b'.xmax.getD 0)) =
        rangeOf nx (if sw then (some (if 0 < fl then b.yminE.getD 0 else b.ymin.getD 0), some (if 0 < fl then b.ymaxE.getD 0 else b.ymax.getD 0))
          else (some (if 0 < fl then b.xminE.getD 0 else b.xmin.getD 0), some (if 0 < fl then b.xmaxE.getD 0 else b.xmax.getD 0))) := by
    rintro b b' fl rfl
    cases sw
    · exact range_bounds nx fl (b.xminE, b.xmaxE) (b.xmin, b.xmax)
    · exact range_bounds nx fl (b.yminE, b.ymaxE) (b.ymin, b.ymax)
  have hy : ∀ (b b' : BBox α) (fl : α), b' = turnBB ⟨sw, nx, ny⟩ b →
      (some (if 0 < fl then b'.yminE.getD 0 else b'.ymin.getD 0), some (if 0 < fl then b'.ymaxE.getD 0 else b'.ymax.getD 0)) =
        rangeOf ny (if sw then (some (if 0 < fl then b.xminE.getD 0 else b.xmin.getD 0), some (if 0 < fl then b.xmaxE.getD 0 else b.xmax.getD 0))
          else (some (if 0 < fl then b.yminE.getD 0 else b.ymin.getD 0), some (if 0 < fl then b.ymaxE.getD 0 else b.ymax.getD 0))) := by
    rintro b b' fl rfl
    cases sw
    · exact range_bounds ny fl (b.yminE, b.ymaxE) (b.ymin, b.ymax)
    · exact range_bounds ny fl (b.xminE, b.xmaxE) (b.xmin, b.xmax)
  have kx := hx s.bb s'.bb s.m.maxE hb
  have ky := hy s.bb s'.bb s.m.maxE hb
  constructor
  · simp only [finalize, hE]; exact kx
  · simp only [finalize, hE]; exact ky
  · simp only [finalize, hE]
    cases sw
    · exact congrArg some (range_length nx kx)
    · exact congrArg some (range_length nx kx)
  · simp only [finalize, hE]
    cases sw
    · exact congrArg some (range_length ny ky)
    · exact congrArg some (range_length ny ky)

/-- **C132**.  A program and the same program turned by a multiple of a right angle or mirrored (all X, Y, I and J words turned, and
clockwise arcs exchanged with counter-clockwise ones in a mirror image) either fail with the same exception or have the same
filament, heights, layers and durations; the bounding box is turned, and so is every recorded position of the head. -/
theorem C132_turned (T : Turn) (env : Env α) (hh : EvenHypot env.hypot) (light : Bool) (home : Home α) {rs ss : List Str}
    (h : List.Forall₂ (TurnText T α) rs ss) :
    (∃ er, GCode.load env rs light home = .error er ∧ GCode.load env ss light (T.home home) = .error er) ∨
    ∃ g g', GCode.load env rs light home = .ok g ∧ GCode.load env ss light (T.home home) = .ok g' ∧
      g'.filamentLength = g.filamentLength ∧ g'.allZs = g.allZs ∧ (g'.zmin, g'.zmax, g'.height) = (g.zmin, g.zmax, g.height) ∧
      g'.est = g.est ∧ g'.layerIdxs = g.layerIdxs ∧ g'.lineIdxs = g.lineIdxs ∧ SameDuration g g' ∧
      (rs ≠ [] → TurnedBox T g g') ∧
      List.Forall₂ (TurnedLine T) g.lines g'.lines ∧
      List.Forall₂ (fun L L' => L'.z = L.z ∧ List.Forall₂ (TurnedLine T) L.lines L'.lines) g.allLayers g'.allLayers ∧
      (g'.m.currentX, g'.m.currentY, g'.m.currentZ) = (T.x g.m.currentX g.m.currentY, T.y g.m.currentX g.m.currentY, g.m.currentZ) := by
  cases h with
  | nil =>
    refine .inr ⟨_, _, rfl, rfl, rfl, rfl, rfl, rfl, rfl, rfl, ⟨rfl, rfl⟩, fun h => absurd rfl h, .nil, .cons ⟨rfl, .nil⟩ .nil, ?_⟩
    rcases T with ⟨sw, nx, ny⟩
    cases sw <;> simp [GCode.blank, Machine.init, Turn.x, Turn.y]
  | @cons r s rs ss h0 h1 =>
  have h : List.Forall₂ (TurnText T α) (r :: rs) (s :: ss) := .cons h0 h1
  clear h0 h1
  obtain ⟨ps, qs, r1, r2, h3⟩ := readLines_turn T h
  unfold GCode.load prepare preprocessAll
  rw [r1, r2]
  simp only [List.isEmpty_cons, Bool.false_eq_true, if_false]
  have hs : TurnRel T (BuildSt.start (GCode.blank light home)) (BuildSt.start (GCode.blank light (T.home home))) := by
    rcases T with ⟨sw, nx, ny⟩
    refine ⟨?_, ?_, ?_, ⟨rfl, .nil, .nil⟩, .nil⟩
    · cases sw <;> simp [BuildSt.start, GCode.blank, Machine.init, turnM, Turn.x, Turn.y]
    · cases sw <;> cases nx <;> cases ny <;> rfl
    · cases sw <;> simp [BuildSt.start, DurSt.init, turnD, Turn.x, Turn.y]
  have b1 : ∀ h : Home α, (GCode.blank light h : GCode α).light = light := fun _ => rfl
  have b2 : ∀ h : Home α, (GCode.blank light h : GCode α).home = h := fun _ => rfl
  simp only [b1, b2]
  rcases build_turn T hh (light := light) (home := home) h3 hs with ⟨er, f1, f2⟩ | ⟨u, u', f1, f2, hu⟩
  · rw [f1, f2]
    exact .inl ⟨er, rfl, rfl⟩
  · rw [f1, f2]
    have ht : u'.ds.total = u.ds.total := by rw [hu.ds]; rfl
    have hl : u'.ds.layerBegin = u.ds.layerBegin := by rw [hu.ds]; rfl
    obtain ⟨q1, q2, q3⟩ := closeLast_with hu.ls u.ds.total u.ds.layerBegin
    have hz : (closeLast u'.ls u.ds.total u.ds.layerBegin).allZs = (closeLast u.ls u.ds.total u.ds.layerBegin).allZs := by rw [q1]
    have hE : u'.m.maxE = u.m.maxE := by rw [hu.m]; rfl
    refine .inr ⟨_, _, rfl, rfl, ?_, ?_, ?_, ?_, ?_, ?_, ⟨?_, ?_⟩, fun _ => finalize_box T _ _ hu.bb hE, hu.done, ?_, ?_⟩
    · simp only [finalize, hE]
    · simp only [finalize, ht, hl, hz]
    · simp only [finalize, ht, hl, hz]
    · simp only [finalize, ht, hl]; rw [q1]
    · simp only [finalize, ht, hl]; rw [q1]
    · simp only [finalize, ht, hl]; rw [q1]
    · simp only [finalize, ht]
    · simp only [finalize, ht, hl, List.map_append]
      congr 1
      exact forall₂_inch_map (fun a b hab => hab.2.1) q2
    · simp only [finalize, ht, hl]
      exact forall₂_snoc (q2.imp fun a b hab => ⟨hab.1, hab.2.2⟩) ⟨rfl, .nil⟩
    · simp only [finalize, hu.m]; rfl

/-- A length computed from the sum of the squares, such as the hypotenuse, does not depend on the direction. -/
theorem even_of_squares (f : α → α) : EvenHypot (fun a b => f (a * a + b * b)) :=
  fun a b => ⟨by show f (b * b + a * a) = _; rw [add_comm], by show f (-a * -a + b * b) = _; rw [neg_mul_neg]⟩

/-- The length used in examples. -/
theorem qEnv_even : EvenHypot qEnv.hypot := fun a b => ⟨by show |b| + |a| = |a| + |b|; ring, by show |(-a)| + |b| = |a| + |b|; rw [abs_neg]⟩

/-- A turn by a quarter to the left: `(x, y)` goes to `(-y, x)`; and the mirror image in the X axis. -/
def quarter : Turn := ⟨true, true, false⟩
def mirrorY : Turn := ⟨false, false, true⟩

def turnText0 : List Str := [c!"G28", c!"G1 Z.3 F600", c!"G1 X10 Y5 E1 ; out", c!"", c!"G2 X20 Y-5 I3 J-4 E2", c!"G4 P250", c!"g92 x1", c!"G91", c!"G1 X-2 Z0.3 E3", c!"G1 Y4"]
def turnText1 : List Str := [c!"G28", c!"G1 Z.3 F600", c!"G1 Y10 X-5 E1 ; out", c!" ", c!"G2 Y20 X5 J3 I4 E2", c!"G4 P250", c!"g92 y1", c!"G91", c!"G1 Y-2 Z0.3 E3", c!"G1 X-4"]
def turnText2 : List Str := [c!"G28", c!"G1 Z.3 F600", c!"G1 X10 Y-5.0 E1 ; out", c!" ", c!"G3 X20 Y5 I3 J4 E2", c!"G4 P250", c!"g92 x1", c!"G91", c!"G1 X-2 Z0.3 E3", c!"G1 Y-4"]

/-- A test for `TurnWord`, for examples. -/
def turnWordB (T : Turn) : Tok → Tok → Bool
  | none, none => true
  | some (k, n), some (k', n') => (decide (k ∉ c!"xyij") && k == k' && n == n') ||
      (T.flips && k == 'g' && k' == 'g' && ((n == c!"2" && n' == c!"3") || (n == c!"3" && n' == c!"2"))) ||
      (decide (k ∈ c!"xyij") && k' == T.letter k && n == [] && n' == []) ||
      (decide (k ∈ c!"xyij") && k' == T.letter k && match (parseFloat n : Option ℚ), (parseFloat n' : Option ℚ) with
        | some v, some v' => v' == T.signOf ℚ (T.letter k) * v
        | _, _ => false)
  | _, _ => false

theorem turnWordB_sound {T : Turn} {t t' : Tok} (h : turnWordB T t t' = true) : TurnWord T ℚ t t' := by
  rcases t with _ | ⟨k, n⟩ <;> rcases t' with _ | ⟨k', n'⟩
  · exact .comment
  · simp [turnWordB] at h
  · simp [turnWordB] at h
  · unfold turnWordB at h
    simp only [Bool.and_eq_true, Bool.or_eq_true, beq_iff_eq, decide_eq_true_eq] at h
    rcases h with ((⟨⟨h1, rfl⟩, rfl⟩ | ⟨⟨⟨h1, rfl⟩, rfl⟩, ⟨rfl, rfl⟩ | ⟨rfl, rfl⟩⟩) | ⟨⟨⟨h1, rfl⟩, rfl⟩, rfl⟩) | ⟨⟨h1, rfl⟩, h2⟩
    · exact .same _ _ h1
    · exact .clockwise h1
    · exact .counter h1
    · exact .bare _ h1
    · split at h2
      · rename_i v v' e1 e2
        rw [beq_iff_eq] at h2
        subst h2
        exact .moved _ _ _ v h1 ((parseFloat_iff _ _).1 e1) ((parseFloat_iff _ _).1 e2)
      · simp at h2

/-- A test for `TurnText`, for examples. -/
def turnTextB (T : Turn) (t u : Str) : Bool :=
  let ws := findall (lower (strip t)); let vs := findall (lower (strip u))
  (strip t == [] && strip u == []) || (strip t != [] && strip u != [] && ws.length == vs.length && (ws.zip vs).all (fun p => turnWordB T p.1 p.2) &&
    commandOf (strip u) vs == (commandOf (strip t) ws).map T.cmd && (commandOf (strip t) ws != some c!"G4" || strip t == strip u))

theorem turnTextB_sound {T : Turn} {t u : Str} (h : turnTextB T t u = true) : TurnText T ℚ t u := by
  unfold turnTextB at h
  simp only [Bool.and_eq_true, Bool.or_eq_true, beq_iff_eq, bne_iff_ne] at h
  rcases h with h | ⟨⟨⟨⟨⟨h1, h2⟩, h3⟩, h4⟩, h5⟩, h8⟩
  · exact .inl h
  · refine .inr ⟨h1, h2, _, _, (findall_reads _ _).1 rfl, (findall_reads _ _).1 rfl, ?_, h5, fun e => h8.resolve_left (fun n => n e)⟩
    refine List.forall₂_iff_zip.2 ⟨h3, fun {a b} hab => turnWordB_sound ?_⟩
    rw [List.all_eq_true] at h4
    exact h4 _ hab

theorem turnTexts_sound {T : Turn} {a b : List Str} (h1 : a.length = b.length) (h : ∀ p ∈ a.zip b, turnTextB T p.1 p.2 = true) :
    List.Forall₂ (TurnText T ℚ) a b := List.forall₂_iff_zip.2 ⟨h1, fun {x y} hab => turnTextB_sound (h (x, y) hab)⟩

theorem turnText_quarter : List.Forall₂ (TurnText quarter ℚ) turnText0 turnText1 := turnTexts_sound rfl (by decide +kernel)
theorem turnText_mirror : List.Forall₂ (TurnText mirrorY ℚ) turnText0 turnText2 := turnTexts_sound rfl (by decide +kernel)

example : GCode.load qEnv turnText0 = .ok (loadQ turnText0) ∧
    ((loadQ turnText0).xmin, (loadQ turnText0).xmax, (loadQ turnText0).ymin, (loadQ turnText0).ymax) = (some 10, some 20, some (-5), some 5) ∧
    ((loadQ turnText1).xmin, (loadQ turnText1).xmax, (loadQ turnText1).ymin, (loadQ turnText1).ymax) = (some (-5), some 5, some 10, some 20) := by
  decide +kernel

end GCodeUtils
