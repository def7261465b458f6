import Mathlib.Tactic.NormNum.RealSqrt
import Verif.Props.TileGeometry
import Verif.Props.TileAngles

/-!
C76, tiles with angles: Chi, CubeVoid, EllipsVoid.
-/

set_option linter.unusedSimpArgs false

namespace Splinepy.Tiles

open Spec

set_option maxHeartbeats 4000000 in
/-- Chi. -/
theorem chi_in_unit_square (closure : Option String) (p : Mat ℝ) (s : Option (List (Mat ℝ))) (T : Tile ℝ) (h : createChi closure (some p) s = some T) :
    InUnitCube T.splines := by
  simp only [createChi, Option.ite_none_right_eq_some, Option.some.injEq] at h
  obtain ⟨-, rfl⟩ := h
  simp only [assemble, chiTile]
  have hr : √(1 / 8 : ℝ) ≤ 1 / 2 := by
    rw [Real.sqrt_le_left (by norm_num)]
    norm_num
  have h0 : (0 : ℝ) ≤ √(1 / 8 : ℝ) := Real.sqrt_nonneg _
  generalize √(1 / 8 : ℝ) = r at *
  have hs := Real.abs_sin_le_one (entry (Option.getD (some p) [[Real.pi / 8]]) 0 0 + Real.pi / 4)
  have hc := Real.abs_cos_le_one (entry (Option.getD (some p) [[Real.pi / 8]]) 0 0 + Real.pi / 4)
  have b : ∀ x : ℝ, |x| ≤ 1 → -(1 / 2) ≤ r * x ∧ r * x ≤ 1 / 2 := fun x hx => by
    rw [abs_le] at hx
    constructor <;> nlinarith
  obtain ⟨s1, s2⟩ := b _ hs
  obtain ⟨c1, c2⟩ := b _ hc
  generalize r * Real.sin (entry (Option.getD (some p) [[Real.pi / 8]]) 0 0 + Real.pi / 4) = S at *
  generalize r * Real.cos (entry (Option.getD (some p) [[Real.pi / 8]]) 0 0 + Real.pi / 4) = C at *
  clear hs hc b
  unfold chi
  entries

example : (createChi none (some [[1 / 2]]) none).isSome = true := by
  have := Real.two_le_pi
  rw [createChi, if_pos]
  · rfl
  · simp [checkParams, checkDerivatives]
    constructor <;> linarith

/-! ### Voids -/

/-- the rotations do not change the length of a vector -/
theorem rotations_norm (a b : ℝ) (v : Fin 3 → ℝ) (i : Fin 3) : (∑ l, (rotY a * rotX b) i l * v l) ^ 2 ≤ v 0 ^ 2 + v 1 ^ 2 + v 2 ^ 2 := by
  have h1 := Real.sin_sq_add_cos_sq a
  have h2 := Real.sin_sq_add_cos_sq b
  have key : (∑ l, (rotY a * rotX b) 0 l * v l) ^ 2 + (∑ l, (rotY a * rotX b) 1 l * v l) ^ 2 + (∑ l, (rotY a * rotX b) 2 l * v l) ^ 2 = v 0 ^ 2 + v 1 ^ 2 + v 2 ^ 2 := by
    simp only [Matrix.mul_apply, Fin.sum_univ_three, rotY, rotX, Matrix.of_apply, Matrix.cons_val', Matrix.cons_val_zero, Matrix.cons_val_one, Matrix.cons_val,
      Fin.isValue, Matrix.cons_val_fin_one]
    generalize Real.sin a = sa at *
    generalize Real.cos a = ca at *
    generalize Real.sin b = sb at *
    generalize Real.cos b = cb at *
    linear_combination (v 0 ^ 2 + (-(sb * v 1) + cb * v 2) ^ 2) * h1 + (v 1 ^ 2 + v 2 ^ 2) * h2
  fin_cases i <;> simp only [Fin.zero_eta, Fin.mk_one, Fin.reduceFinMk] <;>
    nlinarith [sq_nonneg (∑ l, (rotY a * rotX b) 0 l * v l), sq_nonneg (∑ l, (rotY a * rotX b) 1 l * v l), sq_nonneg (∑ l, (rotY a * rotX b) 2 l * v l)]

/-- coordinates of the control points of a void -/
theorem voidPoints_mem (S : List (List ℝ)) (p : Mat ℝ) {r : List ℝ} (hr : r ∈ voidPoints S p)
    (hS : ∀ q ∈ S, (flatEntry p 0 * q.getD 0 0) ^ 2 + (flatEntry p 1 * q.getD 1 0) ^ 2 + (flatEntry p 1 * q.getD 2 0) ^ 2 ≤ 1 / 4) : ∀ x ∈ r, 0 ≤ x ∧ x ≤ 1 := by
  simp only [voidPoints, shift, applyRows, List.map_map, List.mem_map, Function.comp_apply] at hr
  obtain ⟨q, hq, rfl⟩ := hr
  have h := hS q hq
  have e : ∀ i : Fin 3, ∑ l : Fin 3, (rotY (flatEntry p 3) * rotX (flatEntry p 2) * diag3 (flatEntry p 0) (flatEntry p 1)) i l * q.getD l 0
      = ∑ l, (rotY (flatEntry p 3) * rotX (flatEntry p 2)) i l * (![flatEntry p 0 * q.getD 0 0, flatEntry p 1 * q.getD 1 0, flatEntry p 1 * q.getD 2 0] : Fin 3 → ℝ) l := by
    intro i
    generalize rotY (flatEntry p 3) * rotX (flatEntry p 2) = M
    simp only [Matrix.mul_apply, Fin.sum_univ_three, diag3, Matrix.of_apply, Matrix.cons_val', Matrix.cons_val_zero, Matrix.cons_val_one, Matrix.cons_val,
      Fin.isValue, Matrix.cons_val_fin_one, Fin.val_zero, Fin.val_one, Fin.val_two]
    ring
  have b : ∀ i : Fin 3, 0 ≤ (∑ l : Fin 3, (rotY (flatEntry p 3) * rotX (flatEntry p 2) * diag3 (flatEntry p 0) (flatEntry p 1)) i l * q.getD l 0) + 1 / 2 ∧
      (∑ l : Fin 3, (rotY (flatEntry p 3) * rotX (flatEntry p 2) * diag3 (flatEntry p 0) (flatEntry p 1)) i l * q.getD l 0) + 1 / 2 ≤ 1 := by
    intro i
    have h1 := rotations_norm (flatEntry p 3) (flatEntry p 2) ![flatEntry p 0 * q.getD 0 0, flatEntry p 1 * q.getD 1 0, flatEntry p 1 * q.getD 2 0] i
    rw [← e] at h1
    simp only [Matrix.cons_val_zero, Matrix.cons_val_one, Matrix.cons_val, Fin.isValue] at h1
    constructor <;> nlinarith
  intro x hx
  simp only [List.finRange_succ, List.finRange_zero, List.map_cons, List.map_nil, List.zipWith_cons_cons, List.zipWith_nil_left, List.mem_cons, List.not_mem_nil, or_false] at hx
  rcases hx with rfl | rfl | rfl
  · exact b 0
  · exact b 1
  · exact b 2

theorem cubeVoid_in (c : List (List ℝ)) (hc : ∀ r ∈ c, ∀ x ∈ r, 0 ≤ x ∧ x ≤ 1) : InUnitCube (cubeVoid 0 1 c) := by
  have h : ∀ i : ℕ, ∀ x ∈ row c i, 0 ≤ x ∧ x ≤ 1 := fun i x hx => by
    unfold row at hx
    by_cases hi : i < c.length
    · rw [List.getD_eq_getElem _ _ hi] at hx
      exact hc _ (List.getElem_mem hi) x hx
    · rw [List.getD_eq_default _ _ (by omega)] at hx
      simp at hx
  unfold cubeVoid
  simp only [InUnitCube, List.forall_mem_cons, List.forall_mem_nil, List.not_mem_nil, IsEmpty.forall_iff, implies_true, and_true]
  and_intros
  dedup_goals
  all_goals first | exact h _ | norm_num

set_option maxHeartbeats 1000000 in
theorem ellipsVoid_in (c : List (List ℝ)) (hc : ∀ r ∈ c, ∀ x ∈ r, 0 ≤ x ∧ x ≤ 1) : InUnitCube (ellipsVoid 0 (1 / 2) 1 c) := by
  have h : ∀ i : ℕ, ∀ x ∈ row c i, 0 ≤ x ∧ x ≤ 1 := fun i x hx => by
    unfold row at hx
    by_cases hi : i < c.length
    · rw [List.getD_eq_getElem _ _ hi] at hx
      exact hc _ (List.getElem_mem hi) x hx
    · rw [List.getD_eq_default _ _ (by omega)] at hx
      simp at hx
  unfold ellipsVoid
  simp only [InUnitCube, List.forall_mem_cons, List.forall_mem_nil, List.not_mem_nil, IsEmpty.forall_iff, implies_true, and_true]
  and_intros
  dedup_goals
  all_goals first | exact h _ | norm_num

/-- CubeVoid, if the diagonal of the void is at most one. -/
theorem cube_void_in_unit_cube_partial (closure : Option String) (p : Mat ℝ) (s : Option (List (Mat ℝ))) (T : Tile ℝ)
    (hp : flatEntry p 0 ^ 2 + 2 * flatEntry p 1 ^ 2 ≤ 1) (h : createCubeVoid closure (some p) s = some T) : InUnitCube T.splines := by
  simp only [createCubeVoid, Option.getD_some, Option.ite_none_right_eq_some, Option.some.injEq] at h
  obtain ⟨-, rfl⟩ := h
  refine cubeVoid_in _ fun r hr => voidPoints_mem cubeSphere p hr ?_
  intro q hq
  simp only [cubeSphere, List.mem_cons, List.not_mem_nil, or_false] at hq
  rcases hq with rfl | rfl | rfl | rfl | rfl | rfl | rfl | rfl <;> simp <;> nlinarith

/-- Radii are not checked: this void sticks out of the unit cube. -/
theorem cube_void_in_unit_cube_violates (closure : Option String) : ∃ T, createCubeVoid closure (some [[2, 1 / 2, 0, 0]]) none = some T ∧ ¬ InUnitCube T.splines := by
  refine ⟨_, by simp [createCubeVoid, checkDerivatives]; rfl, ?_⟩
  intro h
  have := h _ (List.mem_cons_self) ((voidPoints cubeSphere [[2, 1 / 2, 0, 0]]).getD 0 []) (by simp [row]) (((voidPoints cubeSphere [[2, 1 / 2, 0, 0]]).getD 0 []).getD 0 0)
    (by simp [voidPoints, shift, applyRows, cubeSphere, List.finRange_succ])
  rw [voidPoints_getD, dif_pos ⟨by simp [cubeSphere], by norm_num⟩] at this
  simp [flatEntry, cubeSphere, Matrix.mul_apply, Fin.sum_univ_three, rotY, rotX, diag3] at this
  norm_num at this

/-- EllipsVoid, for radii up to `1 / √3`. -/
theorem ellips_void_in_unit_cube_partial (closure : Option String) (p : Mat ℝ) (s : Option (List (Mat ℝ))) (T : Tile ℝ)
    (h0 : flatEntry p 0 ^ 2 ≤ 1 / 3) (h1 : flatEntry p 1 ^ 2 ≤ 1 / 3) (h : createEllipsVoid closure (some p) s = some T) : InUnitCube T.splines := by
  simp only [createEllipsVoid, Option.getD_some, Option.ite_none_right_eq_some, Option.some.injEq] at h
  obtain ⟨-, rfl⟩ := h
  refine ellipsVoid_in _ fun r hr => voidPoints_mem ellipsSphere p hr ?_
  have sq : (√3 : ℝ) ^ 2 = 3 := Real.sq_sqrt (by norm_num)
  have sp : (0 : ℝ) < √3 := Real.sqrt_pos.mpr (by norm_num)
  have c0 : (1 / 2 / √3 : ℝ) ^ 2 = 1 / 12 := by rw [div_pow, sq]; norm_num
  have a1 : (√3 / 2 * (1 / 2) : ℝ) ^ 2 = 3 / 16 := by rw [mul_pow, div_pow, sq]; norm_num
  have a0 : (√3 / 2 * (1 / 2) * 2 : ℝ) ^ 2 = 3 / 4 := by rw [mul_pow, mul_pow, div_pow, sq]; norm_num
  have main : ∀ x y z : ℝ, x ^ 2 + y ^ 2 + z ^ 2 ≤ 3 / 4 → (flatEntry p 0 * x) ^ 2 + (flatEntry p 1 * y) ^ 2 + (flatEntry p 1 * z) ^ 2 ≤ 1 / 4 := by
    intro x y z hxyz
    rw [mul_pow, mul_pow, mul_pow]
    nlinarith [mul_le_mul_of_nonneg_right h0 (sq_nonneg x), mul_le_mul_of_nonneg_right h1 (sq_nonneg y), mul_le_mul_of_nonneg_right h1 (sq_nonneg z)]
  intro q hq
  refine main _ _ _ ?_
  simp only [ellipsSphere, List.mem_cons, List.not_mem_nil, or_false] at hq
  generalize (1 / 2 / √3 : ℝ) = C at *
  generalize (√3 / 2 * (1 / 2) * 2 : ℝ) = A at *
  generalize (√3 / 2 * (1 / 2) : ℝ) = B at *
  rcases hq with rfl | rfl | rfl | rfl | rfl | rfl | rfl | rfl | rfl | rfl | rfl | rfl | rfl | rfl | rfl | rfl | rfl | rfl | rfl | rfl | rfl | rfl | rfl | rfl | rfl | rfl | rfl <;>
    simp <;> nlinarith

/-- Radii are not checked: this void sticks out of the unit cube. -/
theorem ellips_void_in_unit_cube_violates (closure : Option String) : ∃ T, createEllipsVoid closure (some [[4, 1 / 2, 0, 0]]) none = some T ∧ ¬ InUnitCube T.splines := by
  refine ⟨_, by simp [createEllipsVoid, checkDerivatives]; rfl, ?_⟩
  intro h
  have := h _ (List.mem_cons_self) ((voidPoints ellipsSphere [[4, 1 / 2, 0, 0]]).getD 0 []) (by simp [row]) (((voidPoints ellipsSphere [[4, 1 / 2, 0, 0]]).getD 0 []).getD 0 0)
    (by simp [voidPoints, shift, applyRows, ellipsSphere, List.finRange_succ])
  rw [voidPoints_getD, dif_pos ⟨by simp [ellipsSphere], by norm_num⟩] at this
  simp [flatEntry, ellipsSphere, Matrix.mul_apply, Fin.sum_univ_three, rotY, rotX, diag3] at this
  have sq : (√3 : ℝ) ^ 2 = 3 := Real.sq_sqrt (by norm_num)
  have sp : (0 : ℝ) < √3 := Real.sqrt_pos.mpr (by norm_num)
  have e : 4 * (2⁻¹ / √3) = 2 / (√3 : ℝ) := by ring
  rw [e, div_le_iff₀ sp] at this
  nlinarith [this.1]

example : (createCubeVoid none (some [[1 / 2, 1 / 2, 1, 2]]) none).isSome = true ∧ flatEntry [[1 / 2, 1 / 2, 1, 2]] 0 ^ 2 + 2 * flatEntry [[1 / 2, 1 / 2, 1, 2]] 1 ^ 2 ≤ 1 := by
  norm_num [createCubeVoid, checkDerivatives, flatEntry]

example : (createEllipsVoid none (some [[1 / 2, 1 / 2, 1, 2]]) none).isSome = true ∧ flatEntry [[1 / 2, 1 / 2, 1, 2]] 0 ^ 2 ≤ 1 / 3 ∧ flatEntry [[1 / 2, 1 / 2, 1, 2]] 1 ^ 2 ≤ 1 / 3 := by
  norm_num [createEllipsVoid, checkDerivatives, flatEntry]

end Splinepy.Tiles
