import Verif.Lemmas.Changes
import Verif.Lemmas.Duration
import Verif.Lemmas.SavedFilters
import Verif.Lemmas.Runs
import Verif.Lemmas.ArcCount
import Verif.Lemmas.Placed

/-
  Heights read from commands and Z words alone.
-/

set_option linter.unusedSectionVars false

namespace GCodeUtils

open Spec

variable {α : Type} [Field α] [LinearOrder α] [IsStrictOrderedRing α] [FloorRing α]

/-- Distance mode and height after a line, from its command and its Z word. -/
def zStep (s : Bool × Option α) (l : PyLine α) : Bool × Option α :=
  (if HasCmd l c!"G90" then false else if HasCmd l c!"G91" then true else s.1,
   if HasCmd l c!"G92" ∨ (IsMove l ∧ (s.1 = false ∨ s.2 = none)) then l.z.or s.2 else if IsMove l then s.2.map (· + l.z.getD 0) else s.2)

def zChanges : Bool × Option α → List (PyLine α) → List (Option α)
  | _, [] => []
  | s, l :: r => (if (zStep s l).2 ≠ s.2 then [(zStep s l).2] else []) ++ zChanges (zStep s l) r

theorem zStep_congr {l l' : PyLine α} (h1 : l'.command = l.command) (h2 : l'.z = l.z) (s : Bool × Option α) : zStep s l' = zStep s l := by
  unfold zStep
  simp only [hasCmd_congr h1, isMove_congr h1, h2]

theorem zChanges_append (s : Bool × Option α) (a b : List (PyLine α)) : zChanges s (a ++ b) = zChanges s a ++ zChanges (a.foldl zStep s) b := by
  induction a generalizing s with
  | nil => rfl
  | cons l a ih => simp only [List.cons_append, zChanges, ih, List.foldl_cons, List.append_assoc]

theorem process_relative {home : Home α} {m m' : Machine α} {r : Str} {l : PyLine α} (hp : processLine home m { raw := r } = .ok (m', l)) :
    m'.relative = (if HasCmd l c!"G90" then false else if HasCmd l c!"G91" then true else m.relative) ∧ (IsMove l → l.relative = some m.relative) := by
  obtain ⟨h1, _, h3⟩ := process_modes hp ⟨0, 0, 0⟩ { (Printer.start : Printer α) with rel := m.relative, relE := m.relativeE } rfl rfl
  refine ⟨?_, fun h => (h3 h).1⟩
  rw [h1]
  by_cases hm : IsMove l
  · rw [exec_moves hm]
    obtain ⟨c, hc, e⟩ := hm
    have n1 : ¬ HasCmd l c!"G90" := by
      intro h; rw [HasCmd, e] at h; obtain rfl := Option.some.inj h; revert hc; decide
    have n2 : ¬ HasCmd l c!"G91" := by
      intro h; rw [HasCmd, e] at h; obtain rfl := Option.some.inj h; revert hc; decide
    rw [if_neg n1, if_neg n2]
    rfl
  · cases hc : l.command with
    | none =>
      simp only [Printer.exec, hc]
      rw [if_neg (by rw [HasCmd, hc]; simp), if_neg (by rw [HasCmd, hc]; simp)]
    | some c =>
      rw [(exec_modes _ _ hc hm).1]
      simp only [HasCmd, hc, Option.some.injEq]

theorem zStep_height {home : Home α} {m m' : Machine α} {r : Str} {l : PyLine α} (hp : processLine home m { raw := r } = .ok (m', l)) (z : Option α) :
    zStep (m.relative, z) l = (m'.relative, heightStep z l) := by
  obtain ⟨h1, h2⟩ := process_relative hp
  have h3 : l.isMove = true ↔ IsMove l := isMove_iff hp
  unfold zStep heightStep
  rw [h1]
  refine Prod.ext rfl ?_
  simp only [h3, HasCmd]
  by_cases hm : IsMove l
  · simp only [hm, true_and, if_true, h2 hm]
    cases m.relative <;> simp
  · simp [hm]

theorem run_zChanges {home : Home α} (rs : List Str) : ∀ {m m' : Machine α} {out : List (PyLine α)}, Run home m (bare rs) m' out → ∀ z,
    changes z out = zChanges (m.relative, z) out ∧ out.foldl zStep (m.relative, z) = (m'.relative, out.foldl heightStep z) := by
  induction rs with
  | nil => intro m m' out h z; cases h; exact ⟨rfl, rfl⟩
  | cons r rs ih =>
    intro m m' out h z
    simp only [bare, List.map_cons] at h
    cases h with
    | cons hp hr =>
      have e := zStep_height hp z
      obtain ⟨i1, i2⟩ := ih hr (heightStep z _)
      constructor
      · simp only [changes, zChanges, e]
        rw [i1]
      · simp only [List.foldl_cons, e]
        exact i2

theorem load_zChanges {env : Env α} {data : List Str} {home : Home α} {g : GCode α} (h : GCode.load env data false home = .ok g) :
    changes none g.lines = zChanges (false, none) g.lines ∧
      ∀ a b, g.lines = a ++ b → (a.foldl zStep (false, none)).2 = heightAfter a := by
  obtain ⟨out, hr, ho⟩ := load_run' h
  obtain rfl := ho rfl
  refine ⟨(run_zChanges _ hr none).1, ?_⟩
  intro a b e
  rw [e] at hr
  have hb : (bare ((a ++ b).map (·.raw)) : List (PyLine α)) = bare (a.map (·.raw)) ++ bare (b.map (·.raw)) := by
    unfold bare; rw [← List.map_append, List.map_append]
  rw [hb] at hr
  obtain ⟨m1, oa, ob, e, ra, rb⟩ := hr.split
  have hl : a.length = oa.length := by
    have := ra.length; simpa [bare] using this.symm
  obtain ⟨rfl, rfl⟩ := List.append_inj e hl
  have := (run_zChanges _ ra none).2
  exact congrArg Prod.snd this

/-- Lines with the same commands and Z words go to the same heights. -/
theorem zChanges_congr {a b : List (PyLine α)} (h : List.Forall₂ (fun l l' => l'.command = l.command ∧ l'.z = l.z) a b) : ∀ s, zChanges s b = zChanges s a := by
  induction h with
  | nil => intro s; rfl
  | cons h _ ih =>
    intro s
    obtain ⟨h1, h2⟩ := h
    rename_i l l' _ _ _
    have e : zStep s l' = zStep s l := zStep_congr h1 h2 s
    simp only [zChanges, e, ih]

/-- A line without Z word that is no change of the distance mode. -/
theorem zStep_plain {s : Bool × Option α} {l : PyLine α} (hz : l.z = none) (h1 : ¬ HasCmd l c!"G90") (h2 : ¬ HasCmd l c!"G91") : zStep s l = s := by
  unfold zStep
  rw [hz, if_neg h1, if_neg h2]
  refine Prod.ext rfl ?_
  simp only [Option.none_or, Option.getD_none]
  split_ifs
  · rfl
  · cases s.2 <;> simp
  · rfl

theorem zChanges_still {ls : List (PyLine α)} {s : Bool × Option α} (h : ∀ l ∈ ls, zStep s l = s) : zChanges s ls = [] ∧ ls.foldl zStep s = s := by
  induction ls with
  | nil => exact ⟨rfl, rfl⟩
  | cons l ls ih =>
    obtain ⟨i1, i2⟩ := ih (fun k hk => h k (by simp [hk]))
    have e := h l (by simp)
    refine ⟨?_, ?_⟩
    · simp only [zChanges, e, ne_eq, not_true_eq_false, if_false, List.nil_append, i1]
    · rw [List.foldl_cons, e, i2]

/-- Windows of lines that stay at one height can be replaced by lines without Z words. -/
theorem rewrites_zChanges {W : List (PyLine α) → Prop} {x y : List (PyLine α)} (h : Rewrites (fun _ w gen => (∀ l ∈ w, IsMove l ∧ l.e ≠ none) ∧ W w ∧
      ∀ l ∈ gen, l.z = none ∧ ¬ HasCmd l c!"G90" ∧ ¬ HasCmd l c!"G91") x y) :
    ∀ s, (∀ l ∈ x, l.command = none → l.e = none) → (∀ a w b u l v, x = a ++ (w ++ b) → (∀ l ∈ w, IsMove l ∧ l.e ≠ none) → W w → w = u ++ l :: v →
      zStep ((a ++ u).foldl zStep s) l = (a ++ u).foldl zStep s) → zChanges s y = zChanges s x := by
  have kept : ∀ {l l' : PyLine α} (s : Bool × Option α), Kept l l' → zStep s l' = zStep s l := by
    intro l l' s hk
    have hz := (kept_z hk).1
    have hc : l'.command = l.command := by rcases hk with rfl | ⟨_, _, _, _, _, _, rfl⟩ <;> rfl
    exact zStep_congr hc hz s
  induction h with
  | done => intro s _ _; rfl
  | keep hk _ ih =>
    intro s hx hs
    rename_i l l' a b _
    simp only [zChanges, kept s hk]
    rw [ih (zStep s l) (fun k hk => hx k (by simp [hk])) (fun a' w b' u k v e hm hW ew => by
      have := hs (l :: a') w b' u k v (by rw [e]; rfl) hm hW ew
      simpa using this)]
  | arc hk hw hR _ ih =>
    intro s hx hs
    rename_i l l' w w' gen a b _
    obtain ⟨hm, hW, hg⟩ := hR
    have key := window_same (x := l :: (w ++ a)) hx (fun k hk => by simp [hk]) hw (fun k hk => .inl (hm k hk).1) (fun k hk => (hm k hk).2)
    obtain ⟨rfl, -⟩ := key
    have hst : ∀ k ∈ w', zStep (zStep s l) k = zStep s l := by
      have : ∀ (n : ℕ), n ≤ w'.length → (w'.take n).foldl zStep (zStep s l) = zStep s l := by
        intro n
        induction n with
        | zero => intro _; rfl
        | succ n ihn =>
          intro hn
          obtain ⟨k, hk⟩ : ∃ k, w'[n]? = some k := by rw [List.getElem?_eq_getElem (by omega)]; exact ⟨_, rfl⟩
          have i := ihn (by omega)
          rw [List.take_add_one, hk, List.foldl_append, i]
          have hd : w'.drop n = k :: w'.drop (n + 1) := by
            rw [List.getElem?_eq_some_iff] at hk
            obtain ⟨hlt, rfl⟩ := hk
            exact List.drop_eq_getElem_cons hlt
          have := hs [l] w' a (w'.take n) k (w'.drop (n + 1)) rfl hm hW (by rw [← hd, List.take_append_drop])
          simpa [i] using this
      intro k hk
      obtain ⟨n, hn, e⟩ := List.mem_iff_getElem.1 hk
      have h1 := this n (by omega)
      have h2 := this (n + 1) (by omega)
      rw [List.take_add_one, List.getElem?_eq_getElem hn, List.foldl_append, h1, e] at h2
      simpa using h2
    obtain ⟨w1, w2⟩ := zChanges_still hst
    obtain ⟨g1, g2⟩ := zChanges_still (ls := gen) (s := zStep s l) (fun k hk => zStep_plain (hg k hk).1 (hg k hk).2.1 (hg k hk).2.2)
    simp only [zChanges, kept s hk]
    rw [zChanges_append, zChanges_append, w1, w2, g1, g2]
    rw [ih (zStep s l) (fun k hk => hx k (by simp [hk])) (fun a' u' b' u k v e hm hW ew => by
      have := hs (l :: (w' ++ a')) u' b' u k v (by rw [e]; simp) hm hW ew
      simpa [List.foldl_append, w2] using this)]

end GCodeUtils
