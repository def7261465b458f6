import Mathlib.Tactic.Linarith
import Mathlib.Tactic.NormNum
import Mathlib.Tactic.Ring
import Mathlib.Tactic.CasesM
import Verif.Lemma.Dedup
import Verif.Props.TileGeometry3D

/-!
C77: tiles of neighbouring cells meet, i.e. the faces on the common side have the same control points in the same order.
-/

set_option linter.unusedSimpArgs false

namespace Splinepy.Tiles

open Spec

/-- The faces of a tile on the plane `axis = v` are those of the list, with the given control points. -/
def Spec.SideIs {K : Type} [Field K] (t : List (Patch K)) (axis : ℕ) (v : K) (l : List (List (List K))) : Prop :=
  ∀ f, f ∈ faces t ∧ OnPlane f axis v ↔ f ∈ l

/-- Closures of two neighbours in direction `axis`, in a microstructure that is closed in at most one direction: in this direction the first tile is an ordinary one or
closes the lower side and the second one is an ordinary one or closes the upper side; in the others both tiles close the same side or none. -/
def Spec.Neighbours (axis : ℕ) (c c' : Option String) : Prop :=
  ((c = none ∨ c = some (["x_min", "y_min", "z_min"].getD axis "")) ∧ (c' = none ∨ c' = some (["x_max", "y_max", "z_max"].getD axis ""))) ∨
  (c = c' ∧ c ≠ some (["x_min", "y_min", "z_min"].getD axis "") ∧ c ≠ some (["x_max", "y_max", "z_max"].getD axis ""))

section
variable {K : Type} [Field K]

theorem joins_of_sides {t u : List (Patch K)} {axis : ℕ} {l m : List (List (List K))} (ht : SideIs t axis 1 l) (hu : SideIs u axis 0 m)
    (h1 : ∀ f ∈ l, ∃ g ∈ m, g.map (fun x => x.set axis 1) = f) (h2 : ∀ g ∈ m, ∃ f ∈ l, f.map (fun x => x.set axis 0) = g) : Joins t u axis := by
  constructor
  · intro f hf hp
    obtain ⟨g, hg, e⟩ := h1 f ((ht f).1 ⟨hf, hp⟩)
    exact ⟨g, ((hu g).2 hg).1, ((hu g).2 hg).2, e⟩
  · intro g hg hp
    obtain ⟨f, hf, e⟩ := h2 g ((hu g).1 ⟨hg, hp⟩)
    exact ⟨f, ((ht f).2 hf).1, ((ht f).2 hf).2, e⟩

theorem side_of {t : List (Patch K)} {axis : ℕ} {v : K} {l : List (List (List K))} (h1 : ∀ f ∈ faces t, OnPlane f axis v → f ∈ l)
    (h2 : ∀ f ∈ l, f ∈ faces t ∧ OnPlane f axis v) : SideIs t axis v l := fun f => ⟨fun h => h1 f h.1 h.2, fun h => h2 f h⟩

/-- the faces of one patch -/
def patchFaces (P : Patch K) : List (List (List K)) := (List.range P.degrees.length).flatMap fun d => [face P d false, face P d true]

theorem faces_cons (P : Patch K) (t : List (Patch K)) : faces (P :: t) = patchFaces P ++ faces t := rfl

theorem faces_nil : faces ([] : List (Patch K)) = [] := rfl

theorem faces_11 (a b c d : List K) : patchFaces ⟨[1, 1], [a, b, c, d]⟩ = [[a, c], [b, d], [a, b], [c, d]] := rfl

theorem faces_21 (a b c d e f : List K) : patchFaces ⟨[2, 1], [a, b, c, d, e, f]⟩ = [[a, d], [c, f], [a, b, c], [d, e, f]] := rfl

theorem faces_12 (a b c d e f : List K) : patchFaces ⟨[1, 2], [a, b, c, d, e, f]⟩ = [[a, c, e], [b, d, f], [a, b], [e, f]] := rfl

theorem faces_31 (a b c d e f g h : List K) : patchFaces ⟨[3, 1], [a, b, c, d, e, f, g, h]⟩ = [[a, e], [d, h], [a, b, c, d], [e, f, g, h]] := rfl

theorem faces_111 (a b c d e f g h : List K) : patchFaces ⟨[1, 1, 1], [a, b, c, d, e, f, g, h]⟩ =
    [[a, c, e, g], [b, d, f, h], [a, b, e, f], [c, d, g, h], [a, b, c, d], [e, f, g, h]] := rfl

theorem faces_211 (a b c d e f g h i j k l : List K) : patchFaces ⟨[2, 1, 1], [a, b, c, d, e, f, g, h, i, j, k, l]⟩ =
    [[a, d, g, j], [c, f, i, l], [a, b, c, g, h, i], [d, e, f, j, k, l], [a, b, c, d, e, f], [g, h, i, j, k, l]] := rfl

theorem faces_121 (a b c d e f g h i j k l : List K) : patchFaces ⟨[1, 2, 1], [a, b, c, d, e, f, g, h, i, j, k, l]⟩ =
    [[a, c, e, g, i, k], [b, d, f, h, j, l], [a, b, g, h], [e, f, k, l], [a, b, c, d, e, f], [g, h, i, j, k, l]] := rfl

theorem faces_112 (a b c d e f g h i j k l : List K) : patchFaces ⟨[1, 1, 2], [a, b, c, d, e, f, g, h, i, j, k, l]⟩ =
    [[a, c, e, g, i, k], [b, d, f, h, j, l], [a, b, e, f, i, j], [c, d, g, h, k, l], [a, b, c, d], [i, j, k, l]] := rfl

/-- equality of points, up to `ring` -/
syntax "pt_eq" : tactic
macro_rules
  | `(tactic| pt_eq) => `(tactic| first
    | with_reducible rfl
    | (refine congrArg₂ List.cons ?_ ?_
       · first
         | with_reducible rfl
         | ring1
       · pt_eq))

/-- equality of lists of points, up to `ring` -/
syntax "pts_eq" : tactic
macro_rules
  | `(tactic| pts_eq) => `(tactic| first
    | with_reducible rfl
    | (refine congrArg₂ List.cons ?_ ?_
       · pt_eq
       · pts_eq))

/-- a list of points is among the given ones, up to `ring` -/
syntax "in_list" : tactic
macro_rules
  | `(tactic| in_list) => `(tactic| first
    | (refine List.mem_cons.2 (Or.inl ?_); pts_eq)
    | (refine List.mem_cons_of_mem _ ?_; in_list))

/-- write down all faces of a tile -/
macro "expand_faces" : tactic => `(tactic|
  simp only [shift, unshift, clampLow, clampHigh, row, List.map_cons, List.map_nil, List.zipWith_cons_cons, List.zipWith_nil_left, List.getD_cons_zero,
    List.getD_cons_succ, faces_cons, faces_nil, faces_11, faces_21, faces_12, faces_31, faces_111, faces_211, faces_121, faces_112, List.cons_append, List.nil_append,
    List.append_nil])

end

section
variable {K : Type} [Field K] [LinearOrder K] [IsStrictOrderedRing K]

theorem half_add : (1 / 2 + 1 / 2 : K) = 1 := by norm_num

theorem neg_half_add : (-(1 / 2) + 1 / 2 : K) = 0 := by norm_num

theorem onPlane_cons (x : List K) (f : List (List K)) (i : ℕ) (v : K) : OnPlane (x :: f) i v ↔ x.getD i 0 = v ∧ OnPlane f i v := by simp [OnPlane]

theorem onPlane_nil (i : ℕ) (v : K) : OnPlane ([] : List (List K)) i v ↔ True := by simp [OnPlane]

/-- The faces on a plane: first those that are not there, with the given facts. -/
syntax "side" "[" Lean.Parser.Tactic.simpLemma,* "]" : tactic
macro_rules
  | `(tactic| side [$ls,*]) => `(tactic| (
  refine side_of ?_ ?_
  · expand_faces
    simp only [List.forall_mem_cons, List.forall_mem_nil, List.not_mem_nil, IsEmpty.forall_iff, implies_true, and_true, onPlane_nil, onPlane_cons, List.getD_cons_zero, List.getD_cons_succ,
      false_and, and_false, true_and, forall_const, half_add, neg_half_add, zero_ne_one, one_ne_zero, $ls,*]
    all_goals and_intros
    all_goals
      first
        | in_list
        | (intro h; first
          | in_list
          | (exfalso; casesm* _ ∧ _; linarith))
  · simp only [List.forall_mem_cons, List.forall_mem_nil, List.not_mem_nil, IsEmpty.forall_iff, implies_true, and_true, onPlane_nil, onPlane_cons, List.getD_cons_zero, List.getD_cons_succ,
      true_and]
    all_goals expand_faces
    all_goals and_intros
    all_goals first
      | in_list
      | linarith))

/-- a value that is on neither side -/
theorem inside {x : K} (h : 0 < x) (h' : x < 1 / 2) : ¬(-x + 1 / 2 = 1) ∧ ¬(x + 1 / 2 = 1) ∧ ¬(-x + 1 / 2 = 0) ∧ ¬(x + 1 / 2 = 0) := by
  refine ⟨fun e => ?_, fun e => ?_, fun e => ?_, fun e => ?_⟩ <;> linarith

/-- the sides of an ordinary `Cross2D` tile -/
theorem cross2D_sides (c m a b d e : K) (hc : 0 < c ∧ c < 1 / 2) (hm : 0 < m ∧ m < 1 / 2)
    (ha : 0 < a ∧ a < 1 / 2) (hb : 0 < b ∧ b < 1 / 2) (hd : 0 < d ∧ d < 1 / 2) (he : 0 < e ∧ e < 1 / 2) :
    SideIs (cross2D (1 / 2) c m a b d e) 0 0 [[[0, 1 / 2 - a], [0, 1 / 2 + a]]] ∧ SideIs (cross2D (1 / 2) c m a b d e) 0 1 [[[1, 1 / 2 - b], [1, 1 / 2 + b]]] ∧
    SideIs (cross2D (1 / 2) c m a b d e) 1 0 [[[1 / 2 - d, 0], [1 / 2 + d, 0]]] ∧ SideIs (cross2D (1 / 2) c m a b d e) 1 1 [[[1 / 2 - e, 1], [1 / 2 + e, 1]]] := by
  unfold cross2D
  refine ⟨?_, ?_, ?_, ?_⟩ <;>
    side [inside hc.1 hc.2, inside hm.1 hm.2, inside ha.1 ha.2, inside hb.1 hb.2, inside hd.1 hd.2, inside he.1 he.2]

/-- a value that is on neither side -/
theorem inside' {x : K} (h : 0 < x) (h' : x < 1) : ¬(x = 1) ∧ ¬(x = 0) ∧ ¬(1 - x = 1) ∧ ¬(1 - x = 0) := by
  refine ⟨fun e => ?_, fun e => ?_, fun e => ?_, fun e => ?_⟩ <;> linarith

theorem half_ne : ¬((1 / 2 : K) = 1) ∧ ¬((1 / 2 : K) = 0) := by constructor <;> norm_num

set_option maxHeartbeats 1000000 in
/-- the sides of the closing tiles of `Cross2D` in direction `x` -/
theorem cross2D_close_x_sides (f w r m n : K) (hf : 0 < f ∧ f < 1) (hw : 0 < w ∧ w < 1 / 2) (hm : 0 < m ∧ m < 1) (hn : 0 < n ∧ n < 1) :
    (SideIs (cross2DCloseXMin 0 (1 / 2) 1 f w (1 - w) (1 - f) m n r) 0 0 [[[0, 0], [0, w]], [[0, w], [0, 1 - w]], [[0, 1 - w], [0, 1]]] ∧
    SideIs (cross2DCloseXMin 0 (1 / 2) 1 f w (1 - w) (1 - f) m n r) 0 1 [[[1, 1 / 2 - r], [1, 1 / 2 + r]]] ∧
    SideIs (cross2DCloseXMin 0 (1 / 2) 1 f w (1 - w) (1 - f) m n r) 1 0 [[[0, 0], [f, 0]]] ∧
    SideIs (cross2DCloseXMin 0 (1 / 2) 1 f w (1 - w) (1 - f) m n r) 1 1 [[[0, 1], [f, 1]]]) ∧
    (SideIs (cross2DCloseXMax 0 (1 / 2) 1 f w (1 - w) (1 - f) m n r) 0 0 [[[0, 1 / 2 - r], [0, 1 / 2 + r]]] ∧
    SideIs (cross2DCloseXMax 0 (1 / 2) 1 f w (1 - w) (1 - f) m n r) 0 1 [[[1, 0], [1, w]], [[1, w], [1, 1 - w]], [[1, 1 - w], [1, 1]]] ∧
    SideIs (cross2DCloseXMax 0 (1 / 2) 1 f w (1 - w) (1 - f) m n r) 1 0 [[[1 - f, 0], [1, 0]]] ∧
    SideIs (cross2DCloseXMax 0 (1 / 2) 1 f w (1 - w) (1 - f) m n r) 1 1 [[[1 - f, 1], [1, 1]]]) := by
  have hw' : w < 1 := by linarith
  unfold cross2DCloseXMin cross2DCloseXMax
  refine ⟨⟨?_, ?_, ?_, ?_⟩, ?_, ?_, ?_, ?_⟩ <;>
    side [inside' hf.1 hf.2, inside' hw.1 hw', inside' hm.1 hm.2, inside' hn.1 hn.2]

set_option maxHeartbeats 1000000 in
/-- the sides of the closing tiles of `Cross2D` in direction `y` -/
theorem cross2D_close_y_sides (f w r m n : K) (hf : 0 < f ∧ f < 1) (hw : 0 < w ∧ w < 1 / 2) (hm : 0 < m ∧ m < 1) (hn : 0 < n ∧ n < 1) :
    (SideIs (cross2DCloseYMin 0 (1 / 2) 1 f w (1 - w) (1 - f) m n r) 1 0 [[[0, 0], [w, 0]], [[w, 0], [1 - w, 0]], [[1 - w, 0], [1, 0]]] ∧
    SideIs (cross2DCloseYMin 0 (1 / 2) 1 f w (1 - w) (1 - f) m n r) 1 1 [[[1 / 2 - r, 1], [1 / 2 + r, 1]]] ∧
    SideIs (cross2DCloseYMin 0 (1 / 2) 1 f w (1 - w) (1 - f) m n r) 0 0 [[[0, 0], [0, f]]] ∧
    SideIs (cross2DCloseYMin 0 (1 / 2) 1 f w (1 - w) (1 - f) m n r) 0 1 [[[1, 0], [1, f]]]) ∧
    (SideIs (cross2DCloseYMax 0 (1 / 2) 1 f w (1 - w) (1 - f) m n r) 1 0 [[[1 / 2 - r, 0], [1 / 2 + r, 0]]] ∧
    SideIs (cross2DCloseYMax 0 (1 / 2) 1 f w (1 - w) (1 - f) m n r) 1 1 [[[0, 1], [w, 1]], [[w, 1], [1 - w, 1]], [[1 - w, 1], [1, 1]]] ∧
    SideIs (cross2DCloseYMax 0 (1 / 2) 1 f w (1 - w) (1 - f) m n r) 0 0 [[[0, 1 - f], [0, 1]]] ∧
    SideIs (cross2DCloseYMax 0 (1 / 2) 1 f w (1 - w) (1 - f) m n r) 0 1 [[[1, 1 - f], [1, 1]]]) := by
  have hw' : w < 1 := by linarith
  unfold cross2DCloseYMin cross2DCloseYMax
  refine ⟨⟨?_, ?_, ?_, ?_⟩, ?_, ?_, ?_, ?_⟩ <;>
    side [inside' hf.1 hf.2, inside' hw.1 hw', inside' hm.1 hm.2, inside' hn.1 hn.2]

/-- the sides of all tiles of `Cross2D` -/
theorem cross2D_create_sides (expansion bound fill : K) (closure : Option String) (p : Mat K) (s : Option (List (Mat K))) (T : Tile K)
    (h : createCross2D expansion bound fill closure (some p) s = some T) :
    (closure = none ∧ SideIs T.splines 0 0 [[[0, 1 / 2 - entry p 0 0], [0, 1 / 2 + entry p 0 0]]] ∧ SideIs T.splines 0 1 [[[1, 1 / 2 - entry p 1 0], [1, 1 / 2 + entry p 1 0]]] ∧
      SideIs T.splines 1 0 [[[1 / 2 - entry p 2 0, 0], [1 / 2 + entry p 2 0, 0]]] ∧ SideIs T.splines 1 1 [[[1 / 2 - entry p 3 0, 1], [1 / 2 + entry p 3 0, 1]]]) ∨
    (closure = some "x_min" ∧ SideIs T.splines 0 0 [[[0, 0], [0, bound]], [[0, bound], [0, 1 - bound]], [[0, 1 - bound], [0, 1]]] ∧
      SideIs T.splines 0 1 [[[1, 1 / 2 - entry p 1 0], [1, 1 / 2 + entry p 1 0]]] ∧
      SideIs T.splines 1 0 [[[0, 0], [fill, 0]]] ∧ SideIs T.splines 1 1 [[[0, 1], [fill, 1]]]) ∨
    (closure = some "x_max" ∧ SideIs T.splines 0 0 [[[0, 1 / 2 - entry p 0 0], [0, 1 / 2 + entry p 0 0]]] ∧
      SideIs T.splines 0 1 [[[1, 0], [1, bound]], [[1, bound], [1, 1 - bound]], [[1, 1 - bound], [1, 1]]] ∧
      SideIs T.splines 1 0 [[[1 - fill, 0], [1, 0]]] ∧ SideIs T.splines 1 1 [[[1 - fill, 1], [1, 1]]]) ∨
    (closure = some "y_min" ∧ SideIs T.splines 1 0 [[[0, 0], [bound, 0]], [[bound, 0], [1 - bound, 0]], [[1 - bound, 0], [1, 0]]] ∧
      SideIs T.splines 1 1 [[[1 / 2 - entry p 3 0, 1], [1 / 2 + entry p 3 0, 1]]] ∧
      SideIs T.splines 0 0 [[[0, 0], [0, fill]]] ∧ SideIs T.splines 0 1 [[[1, 0], [1, fill]]]) ∨
    (closure = some "y_max" ∧ SideIs T.splines 1 0 [[[1 / 2 - entry p 2 0, 0], [1 / 2 + entry p 2 0, 0]]] ∧
      SideIs T.splines 1 1 [[[0, 1], [bound, 1]], [[bound, 1], [1 - bound, 1]], [[1 - bound, 1], [1, 1]]] ∧
      SideIs T.splines 0 0 [[[0, 1 - fill], [0, 1]]] ∧ SideIs T.splines 0 1 [[[1, 1 - fill], [1, 1]]]) := by
  simp only [createCross2D, Option.getD_some, Option.ite_none_right_eq_some, Bool.and_eq_true, decide_eq_true_eq] at h
  obtain ⟨⟨⟨⟨⟨h1, h2⟩, h3⟩, h4⟩, h5⟩, h⟩ := h
  obtain ⟨a, b, c, d, rfl⟩ := params_four h3
  rw [within_iff] at h4
  have ha := h4 [a] (by simp) a (by simp)
  have hb := h4 [b] (by simp) b (by simp)
  have hc := h4 [c] (by simp) c (by simp)
  have hd := h4 [d] (by simp) d (by simp)
  have ha' := max_radius h1 ha.2
  have hb' := max_radius h1 hb.2
  have hc' := max_radius h1 hc.2
  have hd' := max_radius h1 hd.2
  cases closure with
  | none =>
    simp only [Option.some.injEq] at h
    subst h
    have hce : cross2DCenter expansion [[a], [b], [c], [d]] = (a * expansion + b * expansion + c * expansion + d * expansion) / 4 := by
      simp [cross2DCenter, entry]; ring
    have pa := mul_pos ha.1 (show (0 : K) < expansion by linarith)
    have pb := mul_pos hb.1 (show (0 : K) < expansion by linarith)
    have pc := mul_pos hc.1 (show (0 : K) < expansion by linarith)
    have pd := mul_pos hd.1 (show (0 : K) < expansion by linarith)
    refine Or.inl ⟨rfl, ?_⟩
    simp only [assemble, cross2DTile, hce, entry, List.getD_cons_zero, List.getD_cons_succ]
    exact cross2D_sides _ _ _ _ _ _ ⟨by linarith, by linarith⟩ ⟨by linarith, by linarith⟩ ⟨ha.1, ha'.1⟩ ⟨hb.1, hb'.1⟩ ⟨hc.1, hc'.1⟩ ⟨hd.1, hd'.1⟩
  | some cl =>
    simp only [cross2DClosing, Option.ite_none_right_eq_some, Bool.and_eq_true, decide_eq_true_eq] at h
    obtain ⟨⟨⟨⟨_, g1, g2⟩, g3, g4⟩, _⟩, h⟩ := h
    have hX := fun r : K => cross2D_close_x_sides fill bound r ((1 + fill) * (1 / 2)) (1 - (1 + fill) * (1 / 2)) ⟨g3, g4⟩ ⟨g1, g2⟩ ⟨by linarith, by linarith⟩ ⟨by linarith, by linarith⟩
    have hY := fun r : K => cross2D_close_y_sides fill bound r ((1 + fill) * (1 / 2)) (1 - (1 + fill) * (1 / 2)) ⟨g3, g4⟩ ⟨g1, g2⟩ ⟨by linarith, by linarith⟩ ⟨by linarith, by linarith⟩
    cases ht : cross2DCloseTile cl bound fill [[a], [b], [c], [d]] with
    | none => simp [ht] at h
    | some t =>
      simp only [ht, Option.some.injEq] at h
      subst h
      simp only [cross2DCloseTile, cross2DCloseBranch] at ht
      split_ifs at ht with e1 e2 e3 e4 <;> rw [Option.some.injEq] at ht <;> subst ht
      · exact Or.inr (Or.inl ⟨by rw [e1], (hX _).1⟩)
      · exact Or.inr (Or.inr (Or.inl ⟨by rw [e2], (hX _).2⟩))
      · exact Or.inr (Or.inr (Or.inr (Or.inl ⟨by rw [e3], (hY _).1⟩)))
      · exact Or.inr (Or.inr (Or.inr (Or.inr ⟨by rw [e4], (hY _).2⟩)))

set_option maxHeartbeats 1000000 in
/-- Neighbouring tiles of `Cross2D`, ordinary or closing, meet if their radii on the common side agree. -/
theorem cross2D_joins (expansion bound fill : K) (axis : ℕ) (ha : axis < 2) (c c' : Option String) (hn : Neighbours axis c c') (p q : Mat K)
    (s s' : Option (List (Mat K))) (T U : Tile K) (hT : createCross2D expansion bound fill c (some p) s = some T)
    (hU : createCross2D expansion bound fill c' (some q) s' = some U) (hpq : entry p (2 * axis + 1) 0 = entry q (2 * axis) 0) : Joins T.splines U.splines axis := by
  rcases cross2D_create_sides _ _ _ _ _ _ _ hT with ⟨rfl, a1, a2, a3, a4⟩ | ⟨rfl, a1, a2, a3, a4⟩ | ⟨rfl, a1, a2, a3, a4⟩ | ⟨rfl, a1, a2, a3, a4⟩ | ⟨rfl, a1, a2, a3, a4⟩ <;>
  rcases cross2D_create_sides _ _ _ _ _ _ _ hU with ⟨rfl, b1, b2, b3, b4⟩ | ⟨rfl, b1, b2, b3, b4⟩ | ⟨rfl, b1, b2, b3, b4⟩ | ⟨rfl, b1, b2, b3, b4⟩ | ⟨rfl, b1, b2, b3, b4⟩ <;>
  obtain rfl | rfl : axis = 0 ∨ axis = 1 := by omega
  all_goals first
    | (exfalso; simp [Neighbours] at hn; done)
    | skip
  all_goals simp only [Nat.mul_zero, Nat.mul_one, Nat.zero_add] at hpq
  all_goals first
    | refine joins_of_sides a2 b1 ?_ ?_
    | refine joins_of_sides a4 b3 ?_ ?_
    | refine joins_of_sides a4 b1 ?_ ?_
    | refine joins_of_sides a2 b3 ?_ ?_
  all_goals simp [hpq]

example : (createCross2D (1 : ℚ) (1 / 10) (1 / 2) (some "x_min") (some [[1 / 5], [1 / 10], [1 / 4], [2 / 5]]) none).isSome = true ∧
    (createCross2D (1 : ℚ) (1 / 10) (1 / 2) none (some [[1 / 10], [1 / 7], [2 / 5], [1 / 5]]) none).isSome = true ∧ Neighbours 0 (some "x_min") none ∧
    entry [[1 / 5], [1 / 10], [1 / 4], [2 / 5]] (2 * 0 + 1) 0 = entry [[1 / 10], [1 / 7], [2 / 5], [(1 / 5 : ℚ)]] (2 * 0) 0 := by
  refine ⟨by decide +kernel, by decide +kernel, ?_, by decide +kernel⟩
  left
  simp

end
end Splinepy.Tiles
