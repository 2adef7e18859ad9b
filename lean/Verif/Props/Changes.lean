import Verif.Lemmas.Changes
import Verif.Props.Spiral

/-
  C123: the layers of a program depend only on the heights it goes to.
-/

set_option linter.unusedSectionVars false

namespace GCodeUtils

open Spec

variable {α : Type} [Field α] [LinearOrder α] [IsStrictOrderedRing α] [FloorRing α]

/-- C123, for any two programs that go to the same heights in the same order (whatever else they contain, and from whatever home position):
same layer height, same number of layers, the same heights recorded for them, and the changes of height in the same layers. -/
theorem C123_heights {env : Env α} {data data' : List Str} {home home' : Home α} {g g' : GCode α} (h : GCode.load env data false home = .ok g)
    (h' : GCode.load env data' false home' = .ok g') (hc : changes none g.lines = changes none g'.lines) :
    g.est = g'.est ∧
    (g.lines ≠ [] → g'.lines ≠ [] → g.allLayers.map (·.z) = g'.allLayers.map (·.z) ∧
      changesIn none (g.allLayers.map (·.lines)) = changesIn none (g'.allLayers.map (·.lines))) := by
  have key : ∀ {data : List Str} {home : Home α} {g : GCode α}, GCode.load env data false home = .ok g →
      let V := (changes none g.lines).foldl (viewStep env.mode) {}
      g.est = V.est ∧ (g.lines ≠ [] → g.allLayers.map (·.z) = V.zs ++ [V.h, none] ∧ changesIn none (g.allLayers.map (·.lines)) = V.cls ++ [V.cur, []]) := by
    intro data home g h
    rcases load_ok h with ⟨_, rfl⟩ | ⟨_, s, hs, rfl⟩
    · exact ⟨rfl, fun hne => by simp [GCode.blank] at hne⟩
    · obtain ⟨hh, hv⟩ := load_view hs
      have he : (finalize (GCode.blank false home) s).est = s.ls.est := by
        simp only [finalize, closeLast]; split_ifs <;> rfl
      have hl : (finalize (GCode.blank false home) s).lines = s.done := rfl
      simp only [hl]
      rw [he, ← hv]
      refine ⟨rfl, fun hne => ?_⟩
      have hfl : (closedLines s.ls).flatten ++ s.ls.curLines = s.done := hh.inv.1.flat.symm
      have hcur : s.ls.curLines ≠ [] := by
        by_cases h0 : s.ls.allLayers = []
        · intro h1
          apply hne
          rw [← hfl, h1]
          simp [closedLines, h0]
        · exact hh.inv.2 h0
      have hall : (finalize (GCode.blank false home) s).allLayers = s.ls.allLayers ++ [{ lines := s.ls.curLines, z := s.ls.curZ, duration := some (s.ds.total - s.ds.layerBegin) },
          { lines := [], z := none, duration := some 0 }] := by
        change (closeLast s.ls s.ds.total s.ds.layerBegin).allLayers ++ _ = _
        unfold closeLast
        rw [if_neg (by simpa using hcur), ← hh.prev]
        simp
      rw [hall]
      constructor
      · simp [viewOf]
      · rw [List.map_append, changesIn_append]
        rfl
  obtain ⟨k1, k2⟩ := key h
  obtain ⟨k1', k2'⟩ := key h'
  rw [hc] at k1 k2
  refine ⟨k1.trans k1'.symm, fun hne hne' => ?_⟩
  obtain ⟨a1, a2⟩ := k2 hne
  obtain ⟨b1, b2⟩ := k2' hne'
  exact ⟨a1.trans b1.symm, a2.trans b2.symm⟩

/-- C123, lines that do not change the height can be put anywhere: the program goes to the same heights. -/
theorem C123_insert {a b : List (PyLine α)} {l : PyLine α} (hl : heightStep (heightAfter a) l = heightAfter a) :
    changes none (a ++ l :: b) = changes none (a ++ b) := by
  rw [changes_append, changes_append]
  change _ ++ ((if heightStep (heightAfter a) l ≠ heightAfter a then _ else _) ++ changes (heightStep (heightAfter a) l) b) = _
  rw [hl, if_neg (by simp)]
  rfl

/-- The spiral of `vase` at another place, with a pause and a comment in it, in relative extrusion. -/
def vase' : List Str :=
  [c!"M83", c!"; begin", c!"G1 Z0.3", c!"G1 X11 E1", c!"G1 Z0.5 F900", c!"G1 X12 E1", c!"G1 Z0.7", c!"G1 X11 E1", c!"@pause", c!"G1 Z0.705 X12 E1", c!"M104 S200", c!"G1 Z0.75 X11 E1",
   c!"G1 Z0.79 X12 E1", c!"G1 Z0.82 X11 E1", c!"G1 Z0.9 X12 E1", c!"G1 Z1.01 X11 E1"]

/-- The hypotheses are met by two spirals, whose layers have different lines. -/
example : GCode.load qEnv vase = .ok (loadQ vase) ∧ GCode.load qEnv vase' = .ok (loadQ vase') ∧
    changes none (loadQ vase).lines = changes none (loadQ vase').lines ∧
    changes none (loadQ vase).lines = [some (3 / 10), some (5 / 10), some (7 / 10), some (705 / 1000), some (75 / 100), some (79 / 100), some (82 / 100), some (9 / 10), some (101 / 100)] ∧
    (loadQ vase').allLayers.map (fun L => (L.lines.length, L.z)) =
      [(2, none), (2, some (3 / 10)), (2, some (5 / 10)), (3, some (7 / 10)), (2, some (6 / 10)), (3, some (82 / 100)), (1, some (8 / 10)),
       (1, some (101 / 100)), (0, none)] :=
  ⟨by decide +kernel, by decide +kernel, by decide +kernel, by decide +kernel, by decide +kernel⟩

end GCodeUtils
