import Verif.Model.Callback

/-
  What the callbacks of a load should report.
-/

namespace GCodeUtils.Spec

variable {α β : Type}

/-- A report seen through `view`, which says what is looked at in a line. -/
def seen (view : PyLine α → β) : Callback α → β ⊕ (ℕ × List (Layer α))
  | .line l => .inl (view l)
  | .layer k layers => .inr (k, layers)

/-- The lines of every layer, each layer followed by its announcement: its number, and the layers up to it. -/
def announcedFrom (view : PyLine α → β) (before : List (Layer α)) :
    List (Layer α) → List (β ⊕ (ℕ × List (Layer α)))
  | [] => []
  | L :: rest =>
    L.lines.map (fun l => .inl (view l)) ++ [.inr (before.length, before ++ [L])] ++
      announcedFrom view (before ++ [L]) rest

/-- Reports for the layers `layers` with announcements, then lines `last` without. -/
def reports (view : PyLine α → β) (layers : List (Layer α)) (last : List (PyLine α)) :
    List (β ⊕ (ℕ × List (Layer α))) :=
  announcedFrom view [] layers ++ last.map (fun l => .inl (view l))

/-- The texts of the lines reported. -/
def reportedTexts (calls : List (Callback α)) : List Str :=
  calls.filterMap fun | .line l => some l.raw | .layer _ _ => none

/-- The layers announced. -/
def announcedLayers (calls : List (Callback α)) : List ℕ :=
  calls.filterMap fun | .layer k _ => some k | .line _ => none

end GCodeUtils.Spec
