import Verif.Spec.TileValue
import Verif.Lemma.Spline
import Verif.Props.TileJoinsClosing3D
import Verif.Props.TileJoins2D
import Mathlib.Tactic.FieldSimp

/-!
C78: a closing tile covers the whole face it is asked to close.
-/

namespace Splinepy.Tiles

open Spec Splinepy.Spec

set_option linter.unusedSectionVars false

section
variable {K : Type} [Field K] [LinearOrder K] [IsStrictOrderedRing K]

theorem point_11 (a b c d : List K) (u v : K) (j : ℕ) : point (bezier ⟨[1, 1], [a, b, c, d]⟩) [u, v] j =
    (1 - u) * (1 - v) * a.getD j 0 + u * (1 - v) * b.getD j 0 + (1 - u) * v * c.getD j 0 + u * v * d.getD j 0 := by
  simp [point, value, bezier, netSize, directions, Direction.size, basisValues, Direction.basis, tensorEval, basisProduct, digits, bernstein, List.range_succ]
  ring

theorem point_111 (a b c d e f g h : List K) (u v w : K) (j : ℕ) : point (bezier ⟨[1, 1, 1], [a, b, c, d, e, f, g, h]⟩) [u, v, w] j =
    (1 - w) * ((1 - u) * (1 - v) * a.getD j 0 + u * (1 - v) * b.getD j 0 + (1 - u) * v * c.getD j 0 + u * v * d.getD j 0) +
    w * ((1 - u) * (1 - v) * e.getD j 0 + u * (1 - v) * f.getD j 0 + (1 - u) * v * g.getD j 0 + u * v * h.getD j 0) := by
  simp [point, value, bezier, netSize, directions, Direction.size, basisValues, Direction.basis, tensorEval, basisProduct, digits, bernstein, List.range_succ]
  ring

theorem inDomain_bezier (P : Patch K) (u : List K) : InDomain (bezier P) u ↔ u.length = P.degrees.length ∧ ∀ a ∈ u, 0 ≤ a ∧ a ≤ 1 := by
  obtain ⟨n, l⟩ := P
  simp only [InDomain, bezier, directions]
  constructor
  · intro h
    refine ⟨by simpa using h.length_eq.symm, fun a ha => ?_⟩
    obtain ⟨i, hi, rfl⟩ := List.getElem_of_mem ha
    have := List.forall₂_iff_get.1 h
    have := this.2 i (by rw [this.1]; exact hi) hi
    simpa [Direction.Contains, Direction.lower, Direction.upper] using this
  · rintro ⟨h, h'⟩
    refine List.forall₂_iff_get.2 ⟨by simpa using h.symm, fun i hi hi' => ?_⟩
    have := h' _ (List.getElem_mem hi')
    simpa [Direction.Contains, Direction.lower, Direction.upper] using this

/-- a bilinear patch has the values of the bilinear formula -/
theorem hit_11 {t : List (Patch K)} {a b c d x : List K} (h : (⟨[1, 1], [a, b, c, d]⟩ : Patch K) ∈ t) (u v : K) (hu : 0 ≤ u ∧ u ≤ 1) (hv : 0 ≤ v ∧ v ≤ 1)
    (e : ∀ j < x.length, (1 - u) * (1 - v) * a.getD j 0 + u * (1 - v) * b.getD j 0 + (1 - u) * v * c.getD j 0 + u * v * d.getD j 0 = x.getD j 0) : Hit t x :=
  ⟨_, h, [u, v], (inDomain_bezier _ _).2 ⟨rfl, by simpa using ⟨hu, hv⟩⟩, fun j hj => by rw [point_11]; exact e j hj⟩

theorem ratio {x x0 x1 : K} (h : x0 < x1) (hx : x0 ≤ x ∧ x ≤ x1) : (0 ≤ (x - x0) / (x1 - x0) ∧ (x - x0) / (x1 - x0) ≤ 1) ∧
    (1 - (x - x0) / (x1 - x0)) * x0 + (x - x0) / (x1 - x0) * x1 = x := by
  have hp : 0 < x1 - x0 := by linarith
  refine ⟨⟨div_nonneg (by linarith [hx.1]) hp.le, (div_le_one hp).2 (by linarith [hx.2])⟩, ?_⟩
  field_simp
  ring

/-- a rectangle contains all of its points -/
theorem hit_rect {t : List (Patch K)} {x0 x1 y0 y1 : K} (h : (⟨[1, 1], [[x0, y0], [x1, y0], [x0, y1], [x1, y1]]⟩ : Patch K) ∈ t) (hx : x0 < x1) (hy : y0 < y1) {x y : K}
    (hxx : x0 ≤ x ∧ x ≤ x1) (hyy : y0 ≤ y ∧ y ≤ y1) : Hit t [x, y] := by
  obtain ⟨u1, u2⟩ := ratio hx hxx
  obtain ⟨v1, v2⟩ := ratio hy hyy
  refine hit_11 h _ _ u1 v1 fun j hj => ?_
  simp only [List.length_cons, List.length_nil] at hj
  generalize (x - x0) / (x1 - x0) = u at *
  generalize (y - y0) / (y1 - y0) = v at *
  obtain rfl | rfl : j = 0 ∨ j = 1 := by omega
  · simp only [List.getD_cons_zero]
    linear_combination u2
  · simp only [List.getD_cons_zero, List.getD_cons_succ]
    linear_combination v2

/-- a block contains all of its points -/
theorem hit_block {t : List (Patch K)} {x0 x1 y0 y1 z0 z1 : K} (h : block x0 x1 y0 y1 z0 z1 ∈ t) (hx : x0 < x1) (hy : y0 < y1) (hz : z0 < z1) {x y z : K}
    (hxx : x0 ≤ x ∧ x ≤ x1) (hyy : y0 ≤ y ∧ y ≤ y1) (hzz : z0 ≤ z ∧ z ≤ z1) : Hit t [x, y, z] := by
  obtain ⟨u1, u2⟩ := ratio hx hxx
  obtain ⟨v1, v2⟩ := ratio hy hyy
  obtain ⟨w1, w2⟩ := ratio hz hzz
  refine ⟨_, h, [_, _, _], (inDomain_bezier _ _).2 ⟨rfl, by simpa using ⟨u1, v1, w1⟩⟩, fun j hj => ?_⟩
  unfold block
  rw [point_111]
  simp only [List.length_cons, List.length_nil] at hj
  generalize (x - x0) / (x1 - x0) = u at *
  generalize (y - y0) / (y1 - y0) = v at *
  generalize (z - z0) / (z1 - z0) = w at *
  obtain rfl | rfl | rfl : j = 0 ∨ j = 1 ∨ j = 2 := by omega
  · simp only [List.getD_cons_zero]
    linear_combination u2
  · simp only [List.getD_cons_zero, List.getD_cons_succ]
    linear_combination v2
  · simp only [List.getD_cons_zero, List.getD_cons_succ]
    linear_combination w2

/-- one of three intervals -/
theorem thirds {w y : K} (hy : 0 ≤ y ∧ y ≤ 1) : (0 ≤ y ∧ y ≤ w) ∨ (w ≤ y ∧ y ≤ 1 - w) ∨ (1 - w ≤ y ∧ y ≤ 1) := by
  rcases le_total y w with h | h
  · exact Or.inl ⟨hy.1, h⟩
  · rcases le_total y (1 - w) with h' | h'
    · exact Or.inr (Or.inl ⟨h, h'⟩)
    · exact Or.inr (Or.inr ⟨h', hy.2⟩)

theorem closes_two {t : List (Patch K)} {axis : ℕ} {v : K} (h : ∀ x y, (0 ≤ x ∧ x ≤ 1) → (0 ≤ y ∧ y ≤ 1) → [x, y].getD axis 0 = v → Hit t [x, y]) : Closes t 2 axis v := by
  intro x hx hr e
  obtain ⟨a, b, rfl⟩ := List.length_eq_two.1 hx
  exact h a b (hr a (by simp)) (hr b (by simp)) e

theorem closes_three {t : List (Patch K)} {axis : ℕ} {v : K}
    (h : ∀ x y z, (0 ≤ x ∧ x ≤ 1) → (0 ≤ y ∧ y ≤ 1) → (0 ≤ z ∧ z ≤ 1) → [x, y, z].getD axis 0 = v → Hit t [x, y, z]) : Closes t 3 axis v := by
  intro x hx hr e
  obtain ⟨a, b, c, rfl⟩ := List.length_eq_three.1 hx
  exact h a b c (hr a (by simp)) (hr b (by simp)) (hr c (by simp)) e

/-- Whenever `Cross2D.create_tile` returns a tile for a closure, the tile closes the face named by it. -/
theorem cross2D_closes (expansion bound fill : K) (closure : String) (p : Option (Mat K)) (s : Option (List (Mat K))) (T : Tile K)
    (h : createCross2D expansion bound fill (some closure) p s = some T) : ClosesNamed T.splines 2 closure := by
  simp only [createCross2D, Option.ite_none_right_eq_some] at h
  replace h := h.2
  simp only [cross2DClosing, Option.ite_none_right_eq_some, Bool.and_eq_true, decide_eq_true_eq] at h
  obtain ⟨⟨⟨⟨_, g1, g2⟩, g3, g4⟩, _⟩, h⟩ := h
  generalize p.getD (constant 4 1 (1 / 5)) = p at h
  have hw : bound < 1 - bound := by linarith
  cases ht : cross2DCloseTile closure bound fill p with
  | none => simp [ht] at h
  | some t =>
    simp only [ht, Option.some.injEq] at h
    subst h
    simp only [cross2DCloseTile, cross2DCloseBranch] at ht
    split_ifs at ht with e1 e2 e3 e4 <;> rw [Option.some.injEq] at ht <;> subst ht
    · subst e1
      refine ⟨(0, 0), rfl, by norm_num, closes_two fun x y hx hy e => ?_⟩
      simp only [List.getD_cons_zero] at e
      subst e
      simp only [assemble, cross2DCloseXMin]
      rcases thirds (w := bound) hy with h | h | h
      · exact hit_rect (x0 := 0) (x1 := fill) (y0 := 0) (y1 := bound) (by simp) g3 g1 ⟨le_rfl, g3.le⟩ h
      · exact hit_rect (x0 := 0) (x1 := fill) (y0 := bound) (y1 := 1 - bound) (by simp) g3 hw ⟨le_rfl, g3.le⟩ h
      · exact hit_rect (x0 := 0) (x1 := fill) (y0 := 1 - bound) (y1 := 1) (by simp) g3 (by linarith) ⟨le_rfl, g3.le⟩ h
    · subst e2
      refine ⟨(0, 1), rfl, by norm_num, closes_two fun x y hx hy e => ?_⟩
      simp only [List.getD_cons_zero] at e
      subst e
      simp only [assemble, cross2DCloseXMax]
      have g : 1 - fill < 1 := by linarith
      rcases thirds (w := bound) hy with h | h | h
      · exact hit_rect (x0 := 1 - fill) (x1 := 1) (y0 := 0) (y1 := bound) (by simp) g g1 ⟨g.le, le_rfl⟩ h
      · exact hit_rect (x0 := 1 - fill) (x1 := 1) (y0 := bound) (y1 := 1 - bound) (by simp) g hw ⟨g.le, le_rfl⟩ h
      · exact hit_rect (x0 := 1 - fill) (x1 := 1) (y0 := 1 - bound) (y1 := 1) (by simp) g (by linarith) ⟨g.le, le_rfl⟩ h
    · subst e3
      refine ⟨(1, 0), rfl, by norm_num, closes_two fun x y hx hy e => ?_⟩
      simp only [List.getD_cons_zero, List.getD_cons_succ] at e
      subst e
      simp only [assemble, cross2DCloseYMin]
      rcases thirds (w := bound) hx with h | h | h
      · exact hit_rect (x0 := 0) (x1 := bound) (y0 := 0) (y1 := fill) (by simp) g1 g3 h ⟨le_rfl, g3.le⟩
      · exact hit_rect (x0 := bound) (x1 := 1 - bound) (y0 := 0) (y1 := fill) (by simp) hw g3 h ⟨le_rfl, g3.le⟩
      · exact hit_rect (x0 := 1 - bound) (x1 := 1) (y0 := 0) (y1 := fill) (by simp) (by linarith) g3 h ⟨le_rfl, g3.le⟩
    · subst e4
      refine ⟨(1, 1), rfl, by norm_num, closes_two fun x y hx hy e => ?_⟩
      simp only [List.getD_cons_zero, List.getD_cons_succ] at e
      subst e
      simp only [assemble, cross2DCloseYMax]
      have g : 1 - fill < 1 := by linarith
      rcases thirds (w := bound) hx with h | h | h
      · exact hit_rect (x0 := 0) (x1 := bound) (y0 := 1 - fill) (y1 := 1) (by simp) g1 g h ⟨g.le, le_rfl⟩
      · exact hit_rect (x0 := bound) (x1 := 1 - bound) (y0 := 1 - fill) (y1 := 1) (by simp) hw g h ⟨g.le, le_rfl⟩
      · exact hit_rect (x0 := 1 - bound) (x1 := 1) (y0 := 1 - fill) (y1 := 1) (by simp) (by linarith) g h ⟨g.le, le_rfl⟩

example : (createCross2D 1 (1 / 10) (1 / 4) (some "y_max") (some [[1 / 5], [1 / 4], [3 / 10], [1 / 3]]) none : Option (Tile ℚ)).isSome := by decide +kernel

/-- Whenever `HollowOctagon.create_tile` returns a tile for a closure, the tile closes the face named by it. -/
theorem hollow_octagon_closes (contact : K) (closure : String) (p : Option (Mat K)) (s : Option (List (Mat K))) (T : Tile K)
    (h : createHollowOctagon contact (some closure) p s = some T) : ClosesNamed T.splines 2 closure := by
  simp only [createHollowOctagon, Option.ite_none_right_eq_some] at h
  replace h := h.2
  generalize p.getD (constant 1 1 (1 / 5)) = p at h
  cases ht : hollowOctagonClosing closure contact p with
  | none => simp [ht] at h
  | some t =>
    simp only [ht, Option.map_some, Option.some.injEq] at h
    subst h
    simp only [hollowOctagonClosing, Option.ite_none_right_eq_some] at ht
    obtain ⟨-, ht⟩ := ht
    generalize entry p 0 0 = a at ht
    generalize contact * a = i at ht
    generalize contact * (1 / 2) = o at ht
    split_ifs at ht with e1 e2 e3 e4 <;> rw [Option.some.injEq] at ht <;> subst ht
    · subst e1
      refine ⟨(0, 0), rfl, by norm_num, closes_two fun x y hx hy e => ?_⟩
      simp only [List.getD_cons_zero] at e
      subst e
      refine hit_11 (a := [0, 0]) (b := [-a + 1 / 2, -i + 1 / 2]) (c := [0, 1]) (d := [-a + 1 / 2, i + 1 / 2]) (by simp [hollowOctagonCloseXMin]) 0 y ⟨le_rfl, zero_le_one⟩ hy fun j hj => ?_
      obtain rfl | rfl : j = 0 ∨ j = 1 := by simp at hj; omega
      all_goals simp
    · subst e2
      refine ⟨(0, 1), rfl, by norm_num, closes_two fun x y hx hy e => ?_⟩
      simp only [List.getD_cons_zero] at e
      subst e
      refine hit_11 (a := [a + 1 / 2, -i + 1 / 2]) (b := [1, 0]) (c := [a + 1 / 2, i + 1 / 2]) (d := [1, 1]) (by simp [hollowOctagonCloseXMax]) 1 y ⟨zero_le_one, le_rfl⟩ hy fun j hj => ?_
      obtain rfl | rfl : j = 0 ∨ j = 1 := by simp at hj; omega
      all_goals simp
    · subst e3
      refine ⟨(1, 0), rfl, by norm_num, closes_two fun x y hx hy e => ?_⟩
      simp only [List.getD_cons_zero, List.getD_cons_succ] at e
      subst e
      refine hit_11 (a := [1, 0]) (b := [i + 1 / 2, -a + 1 / 2]) (c := [0, 0]) (d := [-i + 1 / 2, -a + 1 / 2]) (by simp [hollowOctagonCloseYMin]) 0 (1 - x) ⟨le_rfl, zero_le_one⟩
        ⟨by linarith [hx.2], by linarith [hx.1]⟩ fun j hj => ?_
      obtain rfl | rfl : j = 0 ∨ j = 1 := by simp at hj; omega
      all_goals simp
    · subst e4
      refine ⟨(1, 1), rfl, by norm_num, closes_two fun x y hx hy e => ?_⟩
      simp only [List.getD_cons_zero, List.getD_cons_succ] at e
      subst e
      refine hit_11 (a := [i + 1 / 2, a + 1 / 2]) (b := [1, 1]) (c := [-i + 1 / 2, a + 1 / 2]) (d := [0, 1]) (by simp [hollowOctagonCloseYMax]) 1 (1 - x) ⟨zero_le_one, le_rfl⟩
        ⟨by linarith [hx.2], by linarith [hx.1]⟩ fun j hj => ?_
      obtain rfl | rfl : j = 0 ∨ j = 1 := by simp at hj; omega
      all_goals simp

example : (createHollowOctagon (1 / 5) (some "x_max") (some [[1 / 3]]) none : Option (Tile ℚ)).isSome := by decide +kernel

/-- the blocks of a closing tile fill a layer of the cell, if they are not wider than a third -/
theorem blocks_fill {w z0 z1 : K} (hw : 0 < w ∧ w < 1 / 2) (hz : z0 < z1) {x y z : K} (hx : 0 ≤ x ∧ x ≤ 1) (hy : 0 ≤ y ∧ y ≤ 1) (hzz : z0 ≤ z ∧ z ≤ z1)
    (t : List (Patch K)) : Hit (blocks w 0 1 z0 z1 ++ t) [x, y, z] := by
  have hm : w < 1 - w := by linarith
  have h1 : 1 - w < 1 := by linarith
  rcases thirds (w := w) hx with a | a | a <;> rcases thirds (w := w) hy with b | b | b
  · exact hit_block (x0 := 0) (x1 := w) (y0 := 0) (y1 := w) (by simp [blocks]) hw.1 hw.1 hz a b hzz
  · exact hit_block (x0 := 0) (x1 := w) (y0 := w) (y1 := 1 - w) (by simp [blocks]) hw.1 hm hz a b hzz
  · exact hit_block (x0 := 0) (x1 := w) (y0 := 1 - w) (y1 := 1) (by simp [blocks]) hw.1 h1 hz a b hzz
  · exact hit_block (x0 := w) (x1 := 1 - w) (y0 := 0) (y1 := w) (by simp [blocks]) hm hw.1 hz a b hzz
  · exact hit_block (x0 := w) (x1 := 1 - w) (y0 := w) (y1 := 1 - w) (by simp [blocks]) hm hm hz a b hzz
  · exact hit_block (x0 := w) (x1 := 1 - w) (y0 := 1 - w) (y1 := 1) (by simp [blocks]) hm h1 hz a b hzz
  · exact hit_block (x0 := 1 - w) (x1 := 1) (y0 := 0) (y1 := w) (by simp [blocks]) h1 hw.1 hz a b hzz
  · exact hit_block (x0 := 1 - w) (x1 := 1) (y0 := w) (y1 := 1 - w) (by simp [blocks]) h1 hm hz a b hzz
  · exact hit_block (x0 := 1 - w) (x1 := 1) (y0 := 1 - w) (y1 := 1) (by simp [blocks]) h1 h1 hz a b hzz

/-- Whenever `Cross3D.create_tile` returns a tile for a closure, the tile closes the face named by it, provided that `boundary_width` is at most one third (the full
claim, for all accepted widths, is false: `cross3D_closes_violates`). -/
theorem cross3D_closes_partial (expansion bound fill : K) (hb : bound ≤ 1 / 3) (closure : String) (p : Option (Mat K)) (s : Option (List (Mat K))) (T : Tile K)
    (h : createCross3D expansion bound fill (some closure) p s = some T) : ClosesNamed T.splines 3 closure := by
  simp only [createCross3D, Option.ite_none_right_eq_some] at h
  replace h := h.2
  simp only [cross3DClosing, Option.ite_none_right_eq_some, Bool.and_eq_true, decide_eq_true_eq] at h
  obtain ⟨⟨⟨_, g1, g2⟩, g3, g4⟩, h⟩ := h
  generalize p.getD (constant 6 1 (1 / 5)) = p at h
  have lo : max (bound - (1 - 2 * bound)) 0 = 0 := max_eq_right (by linarith)
  have hi : min (1 - bound + (1 - 2 * bound)) 1 = 1 := min_eq_right (by linarith)
  cases ht : cross3DCloseBranch closure (closeValues cross3DCloseZMin bound fill) (closeValues cross3DCloseZMax bound fill) p with
  | none => simp [ht] at h
  | some t =>
    simp only [ht, Option.some.injEq] at h
    subst h
    simp only [cross3DCloseBranch] at ht
    split_ifs at ht with e1 e2 <;> rw [Option.some.injEq] at ht <;> subst ht
    · subst e1
      refine ⟨(2, 0), rfl, by norm_num, closes_three fun x y z hx hy hz e => ?_⟩
      simp only [List.getD_cons_zero, List.getD_cons_succ] at e
      subst e
      simp only [assemble, (close_z_min_eq bound fill _ ⟨g1, g2⟩ ⟨g3, g4⟩).1, lo, hi]
      exact blocks_fill ⟨g1, g2⟩ g3 hx hy ⟨le_rfl, g3.le⟩ _
    · subst e2
      refine ⟨(2, 1), rfl, by norm_num, closes_three fun x y z hx hy hz e => ?_⟩
      simp only [List.getD_cons_zero, List.getD_cons_succ] at e
      subst e
      simp only [assemble, (close_z_max_eq bound fill _ ⟨g1, g2⟩ ⟨g3, g4⟩).1, lo, hi]
      exact blocks_fill ⟨g1, g2⟩ (by linarith) hx hy ⟨by linarith, le_rfl⟩ _

example : (createCross3D 1 (1 / 10) (1 / 4) (some "z_min") (some [[1 / 5], [1 / 4], [3 / 10], [1 / 3], [1 / 5], [1 / 6]]) none : Option (Tile ℚ)).isSome := by decide +kernel

/-- The same for `Cross3DLinear`. -/
theorem cross3DLinear_closes_partial (expansion bound fill : K) (hb : bound ≤ 1 / 3) (closure : String) (p : Option (Mat K)) (s : Option (List (Mat K))) (T : Tile K)
    (h : createCross3DLinear expansion bound fill (some closure) p s = some T) : ClosesNamed T.splines 3 closure := by
  simp only [createCross3DLinear, Option.ite_none_right_eq_some] at h
  replace h := h.2
  simp only [cross3DLinearClosing, Option.ite_none_right_eq_some, Bool.and_eq_true, decide_eq_true_eq] at h
  obtain ⟨⟨⟨_, g1, g2⟩, g3, g4⟩, h⟩ := h
  generalize p.getD (constant 6 1 (1 / 5)) = p at h
  have lo : max (bound - (1 - 2 * bound)) 0 = 0 := max_eq_right (by linarith)
  have hi : min (1 - bound + (1 - 2 * bound)) 1 = 1 := min_eq_right (by linarith)
  cases ht : cross3DCloseBranch closure (closeValues cross3DLinearCloseZMin bound fill) (closeValues cross3DLinearCloseZMax bound fill) p with
  | none => simp [ht] at h
  | some t =>
    simp only [ht, Option.some.injEq] at h
    subst h
    simp only [cross3DCloseBranch] at ht
    split_ifs at ht with e1 e2 <;> rw [Option.some.injEq] at ht <;> subst ht
    · subst e1
      refine ⟨(2, 0), rfl, by norm_num, closes_three fun x y z hx hy hz e => ?_⟩
      simp only [List.getD_cons_zero, List.getD_cons_succ] at e
      subst e
      simp only [assemble, (close_z_min_eq bound fill _ ⟨g1, g2⟩ ⟨g3, g4⟩).2, lo, hi]
      exact blocks_fill ⟨g1, g2⟩ g3 hx hy ⟨le_rfl, g3.le⟩ _
    · subst e2
      refine ⟨(2, 1), rfl, by norm_num, closes_three fun x y z hx hy hz e => ?_⟩
      simp only [List.getD_cons_zero, List.getD_cons_succ] at e
      subst e
      simp only [assemble, (close_z_max_eq bound fill _ ⟨g1, g2⟩ ⟨g3, g4⟩).2, lo, hi]
      exact blocks_fill ⟨g1, g2⟩ (by linarith) hx hy ⟨by linarith, le_rfl⟩ _

example : (createCross3DLinear 1 (1 / 10) (1 / 4) (some "z_max") (some [[1 / 5], [1 / 4], [3 / 10], [1 / 3], [1 / 5], [1 / 6]]) none : Option (Tile ℚ)).isSome := by decide +kernel

/-! ### Points which are not covered -/

theorem bezier_valid (P : Patch K) : ∀ d ∈ directions (bezier P), d.Valid := by
  intro d hd
  simp only [bezier, directions, List.mem_map] at hd
  obtain ⟨n, _, rfl⟩ := hd
  intro kv h
  simp at h

/-- A linear function which is larger on all control points of a patch than at `x`: `x` is not a value of the patch. -/
theorem not_hit {t : List (Patch K)} {x : List K} (ws : List (List K))
    (h : ∀ P ∈ t, P.cps.length = (P.degrees.map (· + 1)).prod ∧
      ∃ w ∈ ws, ∀ c ∈ P.cps, 0 < ((List.range x.length).map fun j => w.getD j 0 * (c.getD j 0 - x.getD j 0)).sum) : ¬ Hit t x := by
  rintro ⟨P, hP, u, hu, e⟩
  obtain ⟨hl, w, -, hw⟩ := h P hP
  have hn : netSize (bezier P) = P.degrees.map (· + 1) := by simp [netSize, bezier, directions, Direction.size, Function.comp_def]
  have hpos := tensorEval_pos (bezier_valid P) hu (P.cps.map fun c => ((List.range x.length).map fun j => w.getD j 0 * (c.getD j 0 - x.getD j 0)).sum)
    (by rw [List.length_map, hl, hn]) (by simpa using hw)
  rw [tensorEval_eq_sum] at hpos
  refine hpos.ne' ?_
  have hp : ∀ j < x.length, ∑ i ∈ Finset.range (netSize (bezier P)).prod, basisProduct (basisValues (bezier P) u) (digits (netSize (bezier P)) i) * ((P.cps.getD i []).getD j 0 - x.getD j 0) = 0 := by
    intro j hj
    have := e j hj
    simp only [point, value, bezier] at this
    rw [tensorEval_eq_sum] at this
    simp only [mul_sub, Finset.sum_sub_distrib, ← Finset.sum_mul, basisValues_sum (bezier_valid P) hu, one_mul, ← this, sub_eq_zero]
    refine Finset.sum_congr rfl fun i hi => ?_
    have hi' := Finset.mem_range.1 hi
    rw [List.getD_eq_getElem ((List.range _).map _) _ (by simpa using hi'), List.getElem_map, List.getElem_range]
    rfl
  have : ∀ i ∈ Finset.range (netSize (bezier P)).prod, basisProduct (basisValues (bezier P) u) (digits (netSize (bezier P)) i) *
      (P.cps.map fun c => ((List.range x.length).map fun j => w.getD j 0 * (c.getD j 0 - x.getD j 0)).sum).getD i 0 =
      ∑ j ∈ Finset.range x.length, w.getD j 0 * (basisProduct (basisValues (bezier P) u) (digits (netSize (bezier P)) i) * ((P.cps.getD i []).getD j 0 - x.getD j 0)) := by
    intro i hi
    have hi' : i < P.cps.length := by rw [hl, ← hn]; exact Finset.mem_range.1 hi
    rw [List.getD_eq_getElem _ _ (by simpa using hi'), List.getElem_map, list_sum_range, Finset.mul_sum, List.getD_eq_getElem _ _ hi']
    exact Finset.sum_congr rfl fun j _ => by ring
  rw [Finset.sum_congr rfl this, Finset.sum_comm]
  refine Finset.sum_eq_zero fun j hj => ?_
  rw [← Finset.mul_sum, hp j (Finset.mem_range.1 hj), mul_zero]

end

/-- the directions of the axes, both ways -/
def Spec.axes : List (List ℚ) := [[1, 0, 0], [-1, 0, 0], [0, 1, 0], [0, -1, 0], [0, 0, 1], [0, 0, -1]]

/-- A closing tile of `Cross3D` with a width of 2/5, which is accepted: the point (1/10, 1/2, 0) of the face `z_min` is missing. -/
theorem cross3D_closes_violates : ∃ T : Tile ℚ, createCross3D 1 (2 / 5) (1 / 5) (some "z_min") none none = some T ∧ ¬ ClosesNamed T.splines 3 "z_min" := by
  rw [createCross3D, if_pos (by decide +kernel)]
  rw [cross3DClosing, if_pos (by decide +kernel)]
  simp only [cross3DCloseBranch, if_true]
  refine ⟨_, rfl, ?_⟩
  rintro ⟨f, hf, -, h⟩
  cases hf
  refine not_hit (x := [1 / 10, 1 / 2, 0]) axes ?_ (h _ rfl (by decide +kernel) rfl)
  decide +kernel

/-- The same for `Cross3DLinear`. -/
theorem cross3DLinear_closes_violates : ∃ T : Tile ℚ, createCross3DLinear 1 (2 / 5) (1 / 5) (some "z_min") none none = some T ∧ ¬ ClosesNamed T.splines 3 "z_min" := by
  rw [createCross3DLinear, if_pos (by decide +kernel)]
  rw [cross3DLinearClosing, if_pos (by decide +kernel)]
  simp only [cross3DCloseBranch, if_true]
  refine ⟨_, rfl, ?_⟩
  rintro ⟨f, hf, -, h⟩
  cases hf
  refine not_hit (x := [1 / 10, 1 / 2, 0]) axes ?_ (h _ rfl (by decide +kernel) rfl)
  decide +kernel

/-- `HollowCube.create_tile` accepts a closure and returns a tile with a hole in that face. -/
theorem hollow_cube_closes_violates : ∃ T : Tile ℚ, createHollowCube (some "x_min") none none = some T ∧ ¬ ClosesNamed T.splines 3 "x_min" := by
  rw [createHollowCube, if_pos (by decide +kernel)]
  refine ⟨_, rfl, ?_⟩
  rintro ⟨f, hf, -, h⟩
  cases hf
  refine not_hit (x := [0, 1 / 2, 1 / 2]) axes ?_ (h _ rfl (by decide +kernel) rfl)
  decide +kernel

/-- A parameter for which `HollowOctagon` creates the ordinary tile, but no closing tile. -/
theorem hollow_octagon_closing_violates : (createHollowOctagon (1 / 5 : ℚ) none (some [[1 / 200]]) none).isSome ∧
    ∀ c, createHollowOctagon (1 / 5 : ℚ) (some c) (some [[1 / 200]]) none = none := by
  refine ⟨by decide +kernel, fun c => ?_⟩
  rw [createHollowOctagon, if_pos (by decide +kernel)]
  simp only [hollowOctagonClosing, Option.getD_some]
  rw [if_neg (by decide +kernel)]
  rfl

end Splinepy.Tiles
