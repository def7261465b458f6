import Mathlib.Analysis.SpecialFunctions.Trigonometric.Deriv
import Mathlib.Tactic.FinCases
import Mathlib.Tactic.IntervalCases
import Verif.Props.TileDerivatives

/-!
C75, tiles whose control points depend on angles: `CubeVoid`, `EllipsVoid`, `Chi`.
-/

set_option linter.unusedSimpArgs false

namespace Splinepy.Tiles

open Spec

theorem hasDerivAt_line (a a' : ℝ) : HasDerivAt (fun h : ℝ => a + h * a') a' 0 := by
  simpa using ((hasDerivAt_id (0 : ℝ)).mul_const a').const_add a

theorem hasDerivAt_cos_line (a a' : ℝ) : HasDerivAt (fun h : ℝ => Real.cos (a + h * a')) (a' * -Real.sin a) 0 := by
  have := (hasDerivAt_line a a').cos
  simpa [mul_comm] using this

theorem hasDerivAt_sin_line (a a' : ℝ) : HasDerivAt (fun h : ℝ => Real.sin (a + h * a')) (a' * Real.cos a) 0 := by
  have := (hasDerivAt_line a a').sin
  simpa [mul_comm] using this

/-- the derivative of `rotY` -/
noncomputable def rotYTrue (angle : ℝ) : Mat3 := !![-Real.sin angle, 0, -Real.cos angle; 0, 0, 0; Real.cos angle, 0, -Real.sin angle]

theorem rotX_deriv (a a' : ℝ) (i j : Fin 3) : HasDerivAt (fun h => rotX (a + h * a') i j) (a' * rotXDeriv a i j) 0 := by
  fin_cases i <;> fin_cases j <;> simp [rotX, rotXDeriv] <;>
    first
    | exact hasDerivAt_const _ _
    | exact hasDerivAt_cos_line a a'
    | exact hasDerivAt_sin_line a a'
    | (simpa using hasDerivAt_cos_line a a')
    | exact (hasDerivAt_sin_line a a').fun_neg

theorem rotY_deriv (a a' : ℝ) (i j : Fin 3) : HasDerivAt (fun h => rotY (a + h * a') i j) (a' * rotYTrue a i j) 0 := by
  fin_cases i <;> fin_cases j <;> simp [rotY, rotYTrue] <;>
    first
    | exact hasDerivAt_const _ _
    | exact hasDerivAt_cos_line a a'
    | exact hasDerivAt_sin_line a a'
    | (simpa using hasDerivAt_cos_line a a')
    | exact (hasDerivAt_sin_line a a').fun_neg

theorem diag3_deriv (x x' y y' : ℝ) (i j : Fin 3) : HasDerivAt (fun h => diag3 (x + h * x') (y + h * y') i j) (diag3 x' y' i j) 0 := by
  fin_cases i <;> fin_cases j <;> simp only [diag3, Matrix.of_apply, Matrix.cons_val', Matrix.cons_val_zero, Matrix.cons_val_one, Matrix.cons_val, Fin.zero_eta, Fin.mk_one, Fin.reduceFinMk, Fin.isValue, Matrix.cons_val_fin_one] <;> first | exact hasDerivAt_const _ _ | exact hasDerivAt_line x x' | exact hasDerivAt_line y y'

/-- derivative of `RotY * RotX * diag` along a sensitivity -/
noncomputable def trueMatrix (a b x y a' b' x' y' : ℝ) : Mat3 :=
  a' • (rotYTrue a * rotX b * diag3 x y) + b' • (rotY a * rotXDeriv b * diag3 x y) + rotY a * rotX b * diag3 x' y'

theorem matrix_deriv (a b x y a' b' x' y' : ℝ) (i l : Fin 3) :
    HasDerivAt (fun h => (rotY (a + h * a') * rotX (b + h * b') * diag3 (x + h * x') (y + h * y')) i l) (trueMatrix a b x y a' b' x' y' i l) 0 := by
  have key : HasDerivAt (fun h => ∑ j, (∑ k, rotY (a + h * a') i k * rotX (b + h * b') k j) * diag3 (x + h * x') (y + h * y') j l)
      (∑ j, ((∑ k, (a' * rotYTrue a i k * rotX b k j + rotY a i k * (b' * rotXDeriv b k j))) * diag3 x y j l
        + (∑ k, rotY a i k * rotX b k j) * diag3 x' y' j l)) 0 := by
    refine HasDerivAt.fun_sum fun j _ => ?_
    have h1 : HasDerivAt (fun h => ∑ k, rotY (a + h * a') i k * rotX (b + h * b') k j)
        (∑ k, (a' * rotYTrue a i k * rotX b k j + rotY a i k * (b' * rotXDeriv b k j))) 0 := by
      refine HasDerivAt.fun_sum fun k _ => ?_
      simpa using (rotY_deriv a a' i k).fun_mul (rotX_deriv b b' k j)
    simpa using h1.fun_mul (diag3_deriv x x' y y' j l)
  refine key.congr_deriv ?_
  simp only [trueMatrix, Matrix.add_apply, Matrix.smul_apply, Matrix.mul_apply, Fin.sum_univ_three, smul_eq_mul]
  ring

theorem shift_apply_getD (v : ℝ) (M : Mat3) (S : List (List ℝ)) (r j : ℕ) :
    ((shift [v, v, v] (applyRows M S)).getD r []).getD j 0 = if h : r < S.length ∧ j < 3 then ∑ l : Fin 3, M ⟨j, h.2⟩ l * (S.getD r []).getD l 0 + v else 0 := by
  unfold shift applyRows
  rw [List.map_map]
  by_cases hr : r < S.length
  · have e : (List.map ((fun r => List.zipWith (fun x1 x2 => x1 + x2) r [v, v, v]) ∘ fun r => List.map (fun i => ∑ l : Fin 3, M i l * r.getD l 0) (List.finRange 3)) S).getD r []
        = [∑ l : Fin 3, M 0 l * (S.getD r []).getD l 0 + v, ∑ l : Fin 3, M 1 l * (S.getD r []).getD l 0 + v, ∑ l : Fin 3, M 2 l * (S.getD r []).getD l 0 + v] := by
      rw [List.getD_eq_getElem _ [] (show r < (List.map _ S).length by rw [List.length_map]; exact hr), List.getElem_map, List.getD_eq_getElem S [] hr]
      simp [List.finRange_succ]
    rw [e]
    by_cases hj : j < 3
    · rw [dif_pos ⟨hr, hj⟩]
      interval_cases j <;> simp
    · rw [dif_neg (fun h => hj h.2), List.getD_eq_default]
      simp; omega
  · rw [dif_neg (fun h => hr h.1), List.getD_eq_default _ [] (show (List.map _ S).length ≤ r by rw [List.length_map]; omega)]
    simp

/-- control point `r`, coordinate `j` of the void -/
theorem voidPoints_getD (S : List (List ℝ)) (p : Mat ℝ) (r j : ℕ) :
    ((voidPoints S p).getD r []).getD j 0 = if h : r < S.length ∧ j < 3 then
      ∑ l : Fin 3, (rotY (flatEntry p 3) * rotX (flatEntry p 2) * diag3 (flatEntry p 0) (flatEntry p 1)) ⟨j, h.2⟩ l * (S.getD r []).getD l 0 + 1 / 2 else 0 :=
  shift_apply_getD _ _ S r j

theorem voidDerivatives_getD (S : List (List ℝ)) (p d : Mat ℝ) (r j : ℕ) :
    ((voidDerivatives S p d).getD r []).getD j 0 = if h : r < S.length ∧ j < 3 then
      ∑ l : Fin 3, (flatEntry d 3 • (rotYDeriv (flatEntry p 3) * rotX (flatEntry p 2) * diag3 (flatEntry p 0) (flatEntry p 1))
        + flatEntry d 2 • (rotY (flatEntry p 3) * rotXDeriv (flatEntry p 2) * diag3 (flatEntry p 0) (flatEntry p 1))
        + rotY (flatEntry p 3) * rotX (flatEntry p 2) * diag3 (flatEntry d 0) (flatEntry d 1)) ⟨j, h.2⟩ l * (S.getD r []).getD l 0 + 0 else 0 :=
  shift_apply_getD _ _ S r j

theorem params_one_four {K : Type} {p : Mat K} (h : checkParams 1 4 p = true) : ∃ a b c d : K, p = [[a, b, c, d]] := by
  rw [checkParams_iff] at h
  obtain ⟨r, rfl⟩ := List.length_eq_one_iff.1 h.1
  have := h.2 r (by simp)
  match r, this with
  | [a, b, c, d], _ => exact ⟨a, b, c, d, rfl⟩

/-- The derivative of the control points of the void. -/
theorem voidPoints_deriv (S : List (List ℝ)) {p d : Mat ℝ} (hp : checkParams 1 4 p = true) (hd : checkParams 1 4 d = true) (r j : ℕ) :
    HasDerivAt (fun h => ((voidPoints S (move p d h)).getD r []).getD j 0)
      (if h : r < S.length ∧ j < 3 then
        ∑ l : Fin 3, trueMatrix (flatEntry p 3) (flatEntry p 2) (flatEntry p 0) (flatEntry p 1) (flatEntry d 3) (flatEntry d 2) (flatEntry d 0) (flatEntry d 1) ⟨j, h.2⟩ l
          * (S.getD r []).getD l 0 else 0) 0 := by
  obtain ⟨x, y, b, a, rfl⟩ := params_one_four hp
  obtain ⟨x', y', b', a', rfl⟩ := params_one_four hd
  simp only [voidPoints_getD]
  by_cases h : r < S.length ∧ j < 3
  · simp only [dif_pos h]
    have key : HasDerivAt (fun h' => ∑ l : Fin 3, (rotY (a + h' * a') * rotX (b + h' * b') * diag3 (x + h' * x') (y + h' * y')) ⟨j, h.2⟩ l * (S.getD r []).getD l 0 + 1 / 2)
        (∑ l : Fin 3, trueMatrix a b x y a' b' x' y' ⟨j, h.2⟩ l * (S.getD r []).getD l 0) 0 :=
      (HasDerivAt.fun_sum fun l _ => (matrix_deriv a b x y a' b' x' y' ⟨j, h.2⟩ l).mul_const _).add_const _
    refine key.congr_of_eventuallyEq (Filter.Eventually.of_forall fun h' => ?_)
    simp [flatEntry, move]
  · simp only [dif_neg h]
    exact hasDerivAt_const _ _

/-- Without a sensitivity of the rotation around `y`, the returned control points are the derivative. -/
theorem voidPoints_deriv_of_zero (S : List (List ℝ)) {p d : Mat ℝ} (hp : checkParams 1 4 p = true) (hd : checkParams 1 4 d = true) (h0 : flatEntry d 3 = 0) (r j : ℕ) :
    HasDerivAt (fun h => ((voidPoints S (move p d h)).getD r []).getD j 0) (((voidDerivatives S p d).getD r []).getD j 0) 0 := by
  refine (voidPoints_deriv S hp hd r j).congr_deriv ?_
  rw [voidDerivatives_getD]
  by_cases h : r < S.length ∧ j < 3
  · simp only [dif_pos h]
    simp [trueMatrix, h0]
  · simp only [dif_neg h]

/-- control point `i` of patch `k` -/
def point (t : List (Patch ℝ)) (k i : ℕ) : List ℝ := ((t.map Patch.cps).getD k []).getD i []

theorem cubeVoid_point (k i : ℕ) : (∃ v : List ℝ, ∀ c, point (cubeVoid 0 1 c) k i = v) ∧ (∀ c (j : ℕ), (point (cubeVoid 0 0 c) k i).getD j 0 = 0) ∨
    ∃ r : ℕ, ∀ o c, point (cubeVoid 0 o c) k i = c.getD r [] := by
  by_cases hk : k < 6
  · by_cases hi : i < 8
    · have out : ∀ j : ℕ, ([0, 0, 0] : List ℝ).getD j 0 = 0 := fun j => by
        rcases j with _ | _ | _ | j <;> simp
      interval_cases k <;> interval_cases i <;> first
        | exact Or.inl ⟨⟨_, fun _ => rfl⟩, fun _ j => out j⟩
        | exact Or.inr ⟨0, fun _ _ => rfl⟩
        | exact Or.inr ⟨1, fun _ _ => rfl⟩
        | exact Or.inr ⟨2, fun _ _ => rfl⟩
        | exact Or.inr ⟨3, fun _ _ => rfl⟩
        | exact Or.inr ⟨4, fun _ _ => rfl⟩
        | exact Or.inr ⟨5, fun _ _ => rfl⟩
        | exact Or.inr ⟨6, fun _ _ => rfl⟩
        | exact Or.inr ⟨7, fun _ _ => rfl⟩
    · have e : ∀ o c, point (cubeVoid 0 o c) k i = [] := fun o c => by
        unfold point
        refine List.getD_eq_default _ _ ?_
        interval_cases k <;> simpa [cubeVoid] using by omega
      exact Or.inl ⟨⟨[], e 1⟩, fun c j => by rw [e]; simp⟩
  · have e : ∀ o c, point (cubeVoid 0 o c) k i = [] := fun o c => by
      unfold point
      rw [List.getD_eq_default _ [] (show (List.map Patch.cps (cubeVoid 0 o c)).length ≤ k by simpa [cubeVoid] using by omega)]
      simp
    exact Or.inl ⟨⟨[], e 1⟩, fun c j => by rw [e]; simp⟩

theorem coord_eq_point (t : List (Patch ℝ)) (k i j : ℕ) : coord t k i j = (point t k i).getD j 0 := rfl

theorem flatten_length_move {p d : Mat ℝ} (hp : checkParams 1 4 p = true) (hd : checkParams 1 4 d = true) (h : ℝ) : (move p d h).flatten.length = 4 := by
  obtain ⟨x, y, b, a, rfl⟩ := params_one_four hp
  obtain ⟨x', y', b', a', rfl⟩ := params_one_four hd
  simp [move]

theorem createCubeVoid_move {p d : Mat ℝ} (hp : checkParams 1 4 p = true) (hd : checkParams 1 4 d = true) (closure : Option String) (h : ℝ) :
    createCubeVoid closure (some (move p d h)) none = some ⟨cubeVoid 0 1 (voidPoints cubeSphere (move p d h)), none⟩ := by
  simp [createCubeVoid, flatten_length_move hp hd h, checkDerivatives, assemble]

/-- CubeVoid: derivatives along parameters which do not rotate around `y`. -/
theorem cube_void_derivatives_partial (closure : Option String) (p : Mat ℝ) (hp : checkParams 1 4 p = true) (sens : List (Mat ℝ)) (h0 : ∀ s ∈ sens, flatEntry s 3 = 0) :
    DerivativesCorrect (createCubeVoid closure) p sens := by
  intro T hT
  simp only [createCubeVoid, Option.getD_some, Option.ite_none_right_eq_some, Bool.and_eq_true, Option.some.injEq] at hT
  obtain ⟨⟨_, h2⟩, rfl⟩ := hT
  refine ⟨_, rfl, by simp, fun i s d hi hd => ?_⟩
  rw [List.getElem?_map, hi, Option.map_some, Option.some.injEq] at hd
  subst hd
  have hs : checkParams 1 4 s = true := List.all_eq_true.1 h2 s (by simpa using List.mem_of_getElem? hi)
  have hm : ∀ h, createCubeVoid closure (some (move p s h)) none = some ⟨cubeVoid 0 1 (voidPoints cubeSphere (move p s h)), none⟩ := createCubeVoid_move hp hs closure
  have hshape : ∀ p q : Mat ℝ, shape (cubeVoid 0 1 (voidPoints cubeSphere p)) = shape (cubeVoid 0 0 (voidDerivatives cubeSphere q s)) := fun p q => by
    simp [shape, cubeVoid, voidPoints, voidDerivatives, cubeSphere, applyRows, shift, row]
  refine ⟨_, hm 0, hshape _ _, fun k i j => ?_⟩
  refine HasDerivAt.hasDerivWithinAt ?_
  simp only [hm, Option.elim_some, coord_eq_point]
  rcases cubeVoid_point k i with ⟨⟨v, hv⟩, hz⟩ | ⟨r, hr⟩
  · simp only [hv, hz]
    exact hasDerivAt_const _ _
  · simp only [hr]
    exact voidPoints_deriv_of_zero cubeSphere hp hs (h0 s (List.mem_of_getElem? hi)) r j

/-- If the returned derivative of a control point of the void is right in the second coordinate, then the rotation around `y` does not matter or the point lies in the
plane of rotation. -/
theorem void_row_wrong (S : List (List ℝ)) {p d : Mat ℝ} (hp : checkParams 1 4 p = true) (hd : checkParams 1 4 d = true) {r : ℕ} (hr : r < S.length)
    (h : HasDerivAt (fun h => ((voidPoints S (move p d h)).getD r []).getD 1 0) (((voidDerivatives S p d).getD r []).getD 1 0) 0) :
    flatEntry d 3 * (flatEntry p 1 * (Real.cos (flatEntry p 2) * (S.getD r []).getD 1 0 + Real.sin (flatEntry p 2) * (S.getD r []).getD 2 0)) = 0 := by
  have e := h.unique (voidPoints_deriv S hp hd r 1)
  rw [voidDerivatives_getD, dif_pos ⟨hr, by norm_num⟩, dif_pos ⟨hr, by norm_num⟩] at e
  simp only [trueMatrix, Matrix.add_apply, Matrix.smul_apply, Matrix.mul_apply, Fin.sum_univ_three, smul_eq_mul, rotY, rotYDeriv, rotYTrue, rotX, rotXDeriv, diag3,
    Matrix.of_apply, Matrix.cons_val', Matrix.cons_val_zero, Matrix.cons_val_one, Matrix.cons_val, Fin.mk_one, Fin.isValue, Matrix.cons_val_fin_one,
    Fin.val_zero, Fin.val_one, Fin.val_two] at e
  linear_combination e

/-- CubeVoid: every derivative along a rotation around `y` is wrong, unless the void is degenerate. -/
theorem cube_void_derivatives_violates (closure : Option String) {p s : Mat ℝ} (hp : checkParams 1 4 p = true) (hs : checkParams 1 4 s = true)
    (hy : flatEntry p 1 ≠ 0) (h3 : flatEntry s 3 ≠ 0) : ¬ DerivativesCorrect (createCubeVoid closure) p [s] := by
  intro hc
  have hf : p.flatten.length = 4 := by
    obtain ⟨x, y, b, a, rfl⟩ := params_one_four hp
    rfl
  obtain ⟨ds, e1, _, h⟩ := hc _ (by simp [createCubeVoid, hf, checkDerivatives, hs]; rfl)
  simp only [assemble, Option.map_some, Option.some.injEq, List.map_cons, List.map_nil] at e1
  subst e1
  obtain ⟨_, _, _, hd⟩ := h 0 s _ rfl rfl
  simp only [createCubeVoid_move hp hs, Option.elim_some, Option.isSome_some, Set.ofPred_true, hasDerivWithinAt_univ] at hd
  have a1 := void_row_wrong cubeSphere hp hs (r := 3) (by simp [cubeSphere]) (hd 0 7 1)
  have a2 := void_row_wrong cubeSphere hp hs (r := 7) (by simp [cubeSphere]) (hd 1 3 1)
  simp only [cubeSphere, List.getD_cons_succ, List.getD_cons_zero, mul_eq_zero, hy, h3, false_or] at a1 a2
  have := Real.sin_sq_add_cos_sq (flatEntry p 2)
  have c0 : Real.cos (flatEntry p 2) = 0 := by linarith
  have s0 : Real.sin (flatEntry p 2) = 0 := by linarith
  rw [c0, s0] at this
  norm_num at this

set_option maxHeartbeats 1000000 in
theorem ellipsVoid_point (k i : ℕ) : (∃ v : List ℝ, ∀ c, point (ellipsVoid 0 (1 / 2) 1 c) k i = v) ∧ (∀ c (j : ℕ), (point (ellipsVoid 0 0 0 c) k i).getD j 0 = 0) ∨
    ∃ r : ℕ, ∀ o o' c, point (ellipsVoid 0 o o' c) k i = c.getD r [] := by
  by_cases hk : k < 6
  · by_cases hi : i < 18
    · have out : ∀ j : ℕ, ([0, 0, 0] : List ℝ).getD j 0 = 0 := fun j => by
        rcases j with _ | _ | _ | j <;> simp
      interval_cases k
      · interval_cases i
        · exact Or.inl ⟨⟨_, fun _ => rfl⟩, fun _ j => out j⟩
        · exact Or.inl ⟨⟨_, fun _ => rfl⟩, fun _ j => out j⟩
        · exact Or.inl ⟨⟨_, fun _ => rfl⟩, fun _ j => out j⟩
        · exact Or.inl ⟨⟨_, fun _ => rfl⟩, fun _ j => out j⟩
        · exact Or.inl ⟨⟨_, fun _ => rfl⟩, fun _ j => out j⟩
        · exact Or.inl ⟨⟨_, fun _ => rfl⟩, fun _ j => out j⟩
        · exact Or.inl ⟨⟨_, fun _ => rfl⟩, fun _ j => out j⟩
        · exact Or.inl ⟨⟨_, fun _ => rfl⟩, fun _ j => out j⟩
        · exact Or.inl ⟨⟨_, fun _ => rfl⟩, fun _ j => out j⟩
        · exact Or.inr ⟨0, fun _ _ _ => rfl⟩
        · exact Or.inr ⟨1, fun _ _ _ => rfl⟩
        · exact Or.inr ⟨2, fun _ _ _ => rfl⟩
        · exact Or.inr ⟨3, fun _ _ _ => rfl⟩
        · exact Or.inr ⟨4, fun _ _ _ => rfl⟩
        · exact Or.inr ⟨5, fun _ _ _ => rfl⟩
        · exact Or.inr ⟨6, fun _ _ _ => rfl⟩
        · exact Or.inr ⟨7, fun _ _ _ => rfl⟩
        · exact Or.inr ⟨8, fun _ _ _ => rfl⟩
      · interval_cases i
        · exact Or.inr ⟨18, fun _ _ _ => rfl⟩
        · exact Or.inr ⟨19, fun _ _ _ => rfl⟩
        · exact Or.inr ⟨20, fun _ _ _ => rfl⟩
        · exact Or.inr ⟨21, fun _ _ _ => rfl⟩
        · exact Or.inr ⟨22, fun _ _ _ => rfl⟩
        · exact Or.inr ⟨23, fun _ _ _ => rfl⟩
        · exact Or.inr ⟨24, fun _ _ _ => rfl⟩
        · exact Or.inr ⟨25, fun _ _ _ => rfl⟩
        · exact Or.inr ⟨26, fun _ _ _ => rfl⟩
        · exact Or.inl ⟨⟨_, fun _ => rfl⟩, fun _ j => out j⟩
        · exact Or.inl ⟨⟨_, fun _ => rfl⟩, fun _ j => out j⟩
        · exact Or.inl ⟨⟨_, fun _ => rfl⟩, fun _ j => out j⟩
        · exact Or.inl ⟨⟨_, fun _ => rfl⟩, fun _ j => out j⟩
        · exact Or.inl ⟨⟨_, fun _ => rfl⟩, fun _ j => out j⟩
        · exact Or.inl ⟨⟨_, fun _ => rfl⟩, fun _ j => out j⟩
        · exact Or.inl ⟨⟨_, fun _ => rfl⟩, fun _ j => out j⟩
        · exact Or.inl ⟨⟨_, fun _ => rfl⟩, fun _ j => out j⟩
        · exact Or.inl ⟨⟨_, fun _ => rfl⟩, fun _ j => out j⟩
      · interval_cases i
        · exact Or.inl ⟨⟨_, fun _ => rfl⟩, fun _ j => out j⟩
        · exact Or.inl ⟨⟨_, fun _ => rfl⟩, fun _ j => out j⟩
        · exact Or.inl ⟨⟨_, fun _ => rfl⟩, fun _ j => out j⟩
        · exact Or.inr ⟨0, fun _ _ _ => rfl⟩
        · exact Or.inr ⟨1, fun _ _ _ => rfl⟩
        · exact Or.inr ⟨2, fun _ _ _ => rfl⟩
        · exact Or.inl ⟨⟨_, fun _ => rfl⟩, fun _ j => out j⟩
        · exact Or.inl ⟨⟨_, fun _ => rfl⟩, fun _ j => out j⟩
        · exact Or.inl ⟨⟨_, fun _ => rfl⟩, fun _ j => out j⟩
        · exact Or.inr ⟨9, fun _ _ _ => rfl⟩
        · exact Or.inr ⟨10, fun _ _ _ => rfl⟩
        · exact Or.inr ⟨11, fun _ _ _ => rfl⟩
        · exact Or.inl ⟨⟨_, fun _ => rfl⟩, fun _ j => out j⟩
        · exact Or.inl ⟨⟨_, fun _ => rfl⟩, fun _ j => out j⟩
        · exact Or.inl ⟨⟨_, fun _ => rfl⟩, fun _ j => out j⟩
        · exact Or.inr ⟨18, fun _ _ _ => rfl⟩
        · exact Or.inr ⟨19, fun _ _ _ => rfl⟩
        · exact Or.inr ⟨20, fun _ _ _ => rfl⟩
      · interval_cases i
        · exact Or.inr ⟨6, fun _ _ _ => rfl⟩
        · exact Or.inr ⟨7, fun _ _ _ => rfl⟩
        · exact Or.inr ⟨8, fun _ _ _ => rfl⟩
        · exact Or.inl ⟨⟨_, fun _ => rfl⟩, fun _ j => out j⟩
        · exact Or.inl ⟨⟨_, fun _ => rfl⟩, fun _ j => out j⟩
        · exact Or.inl ⟨⟨_, fun _ => rfl⟩, fun _ j => out j⟩
        · exact Or.inr ⟨15, fun _ _ _ => rfl⟩
        · exact Or.inr ⟨16, fun _ _ _ => rfl⟩
        · exact Or.inr ⟨17, fun _ _ _ => rfl⟩
        · exact Or.inl ⟨⟨_, fun _ => rfl⟩, fun _ j => out j⟩
        · exact Or.inl ⟨⟨_, fun _ => rfl⟩, fun _ j => out j⟩
        · exact Or.inl ⟨⟨_, fun _ => rfl⟩, fun _ j => out j⟩
        · exact Or.inr ⟨24, fun _ _ _ => rfl⟩
        · exact Or.inr ⟨25, fun _ _ _ => rfl⟩
        · exact Or.inr ⟨26, fun _ _ _ => rfl⟩
        · exact Or.inl ⟨⟨_, fun _ => rfl⟩, fun _ j => out j⟩
        · exact Or.inl ⟨⟨_, fun _ => rfl⟩, fun _ j => out j⟩
        · exact Or.inl ⟨⟨_, fun _ => rfl⟩, fun _ j => out j⟩
      · interval_cases i
        · exact Or.inl ⟨⟨_, fun _ => rfl⟩, fun _ j => out j⟩
        · exact Or.inr ⟨0, fun _ _ _ => rfl⟩
        · exact Or.inl ⟨⟨_, fun _ => rfl⟩, fun _ j => out j⟩
        · exact Or.inr ⟨3, fun _ _ _ => rfl⟩
        · exact Or.inl ⟨⟨_, fun _ => rfl⟩, fun _ j => out j⟩
        · exact Or.inr ⟨6, fun _ _ _ => rfl⟩
        · exact Or.inl ⟨⟨_, fun _ => rfl⟩, fun _ j => out j⟩
        · exact Or.inr ⟨9, fun _ _ _ => rfl⟩
        · exact Or.inl ⟨⟨_, fun _ => rfl⟩, fun _ j => out j⟩
        · exact Or.inr ⟨12, fun _ _ _ => rfl⟩
        · exact Or.inl ⟨⟨_, fun _ => rfl⟩, fun _ j => out j⟩
        · exact Or.inr ⟨15, fun _ _ _ => rfl⟩
        · exact Or.inl ⟨⟨_, fun _ => rfl⟩, fun _ j => out j⟩
        · exact Or.inr ⟨18, fun _ _ _ => rfl⟩
        · exact Or.inl ⟨⟨_, fun _ => rfl⟩, fun _ j => out j⟩
        · exact Or.inr ⟨21, fun _ _ _ => rfl⟩
        · exact Or.inl ⟨⟨_, fun _ => rfl⟩, fun _ j => out j⟩
        · exact Or.inr ⟨24, fun _ _ _ => rfl⟩
      · interval_cases i
        · exact Or.inr ⟨2, fun _ _ _ => rfl⟩
        · exact Or.inl ⟨⟨_, fun _ => rfl⟩, fun _ j => out j⟩
        · exact Or.inr ⟨5, fun _ _ _ => rfl⟩
        · exact Or.inl ⟨⟨_, fun _ => rfl⟩, fun _ j => out j⟩
        · exact Or.inr ⟨8, fun _ _ _ => rfl⟩
        · exact Or.inl ⟨⟨_, fun _ => rfl⟩, fun _ j => out j⟩
        · exact Or.inr ⟨11, fun _ _ _ => rfl⟩
        · exact Or.inl ⟨⟨_, fun _ => rfl⟩, fun _ j => out j⟩
        · exact Or.inr ⟨14, fun _ _ _ => rfl⟩
        · exact Or.inl ⟨⟨_, fun _ => rfl⟩, fun _ j => out j⟩
        · exact Or.inr ⟨17, fun _ _ _ => rfl⟩
        · exact Or.inl ⟨⟨_, fun _ => rfl⟩, fun _ j => out j⟩
        · exact Or.inr ⟨20, fun _ _ _ => rfl⟩
        · exact Or.inl ⟨⟨_, fun _ => rfl⟩, fun _ j => out j⟩
        · exact Or.inr ⟨23, fun _ _ _ => rfl⟩
        · exact Or.inl ⟨⟨_, fun _ => rfl⟩, fun _ j => out j⟩
        · exact Or.inr ⟨26, fun _ _ _ => rfl⟩
        · exact Or.inl ⟨⟨_, fun _ => rfl⟩, fun _ j => out j⟩
    · have e : ∀ o o' c, point (ellipsVoid 0 o o' c) k i = [] := fun o o' c => by
        unfold point
        refine List.getD_eq_default _ _ ?_
        interval_cases k <;> simpa [ellipsVoid] using by omega
      exact Or.inl ⟨⟨[], e _ 1⟩, fun c j => by rw [e]; simp⟩
  · have e : ∀ o o' c, point (ellipsVoid 0 o o' c) k i = [] := fun o o' c => by
      unfold point
      rw [List.getD_eq_default _ [] (show (List.map Patch.cps (ellipsVoid 0 o o' c)).length ≤ k by simpa [ellipsVoid] using by omega)]
      simp
    exact Or.inl ⟨⟨[], e _ 1⟩, fun c j => by rw [e]; simp⟩

theorem createEllipsVoid_move {p d : Mat ℝ} (hp : checkParams 1 4 p = true) (hd : checkParams 1 4 d = true) (closure : Option String) (h : ℝ) :
    createEllipsVoid closure (some (move p d h)) none = some ⟨ellipsVoid 0 (1 / 2) 1 (voidPoints ellipsSphere (move p d h)), none⟩ := by
  simp [createEllipsVoid, flatten_length_move hp hd h, checkDerivatives, assemble]

/-- EllipsVoid: derivatives along parameters which do not rotate around `y`. -/
theorem ellips_void_derivatives_partial (closure : Option String) (p : Mat ℝ) (hp : checkParams 1 4 p = true) (sens : List (Mat ℝ)) (h0 : ∀ s ∈ sens, flatEntry s 3 = 0) :
    DerivativesCorrect (createEllipsVoid closure) p sens := by
  intro T hT
  simp only [createEllipsVoid, Option.getD_some, Option.ite_none_right_eq_some, Bool.and_eq_true, Option.some.injEq] at hT
  obtain ⟨⟨_, h2⟩, rfl⟩ := hT
  refine ⟨_, rfl, by simp, fun i s d hi hd => ?_⟩
  rw [List.getElem?_map, hi, Option.map_some, Option.some.injEq] at hd
  subst hd
  have hs : checkParams 1 4 s = true := List.all_eq_true.1 h2 s (by simpa using List.mem_of_getElem? hi)
  have hm : ∀ h, createEllipsVoid closure (some (move p s h)) none = some ⟨ellipsVoid 0 (1 / 2) 1 (voidPoints ellipsSphere (move p s h)), none⟩ :=
    createEllipsVoid_move hp hs closure
  have hshape : ∀ p q : Mat ℝ, shape (ellipsVoid 0 (1 / 2) 1 (voidPoints ellipsSphere p)) = shape (ellipsVoid 0 0 0 (voidDerivatives ellipsSphere q s)) := fun p q => by
    simp [shape, ellipsVoid, voidPoints, voidDerivatives, ellipsSphere, applyRows, shift, row]
  refine ⟨_, hm 0, hshape _ _, fun k i j => ?_⟩
  refine HasDerivAt.hasDerivWithinAt ?_
  simp only [hm, Option.elim_some, coord_eq_point]
  rcases ellipsVoid_point k i with ⟨⟨v, hv⟩, hz⟩ | ⟨r, hr⟩
  · simp only [hv, hz]
    exact hasDerivAt_const _ _
  · simp only [hr]
    exact voidPoints_deriv_of_zero ellipsSphere hp hs (h0 s (List.mem_of_getElem? hi)) r j

/-- EllipsVoid: every derivative along a rotation around `y` is wrong, unless the void is degenerate. -/
theorem ellips_void_derivatives_violates (closure : Option String) {p s : Mat ℝ} (hp : checkParams 1 4 p = true) (hs : checkParams 1 4 s = true)
    (hy : flatEntry p 1 ≠ 0) (h3 : flatEntry s 3 ≠ 0) : ¬ DerivativesCorrect (createEllipsVoid closure) p [s] := by
  intro hc
  have hf : p.flatten.length = 4 := by
    obtain ⟨x, y, b, a, rfl⟩ := params_one_four hp
    rfl
  obtain ⟨ds, e1, _, h⟩ := hc _ (by simp [createEllipsVoid, hf, checkDerivatives, hs]; rfl)
  simp only [assemble, Option.map_some, Option.some.injEq, List.map_cons, List.map_nil] at e1
  subst e1
  obtain ⟨_, _, _, hd⟩ := h 0 s _ rfl rfl
  simp only [createEllipsVoid_move hp hs, Option.elim_some, Option.isSome_some, Set.ofPred_true, hasDerivWithinAt_univ] at hd
  have a1 := void_row_wrong ellipsSphere hp hs (r := 16) (by simp [ellipsSphere]) (hd 3 7 1)
  have a2 := void_row_wrong ellipsSphere hp hs (r := 22) (by simp [ellipsSphere]) (hd 1 4 1)
  have h3' : (√3 : ℝ) ≠ 0 := by positivity
  have := Real.sin_sq_add_cos_sq (flatEntry p 2)
  simp [ellipsSphere, hy, h3] at a1 a2
  simp [a1, a2] at this

/-- Chi: the derivative splines are wrong for every sensitivity other than `1` and `-1`. -/
theorem chi_derivatives_violates (closure : Option String) (x σ : ℝ) (hx : -(Real.pi / 2) < x) (hx' : x < Real.pi / 2) (hσ : σ ^ 2 ≠ 1) :
    ¬ DerivativesCorrect (createChi closure) [[x]] [[[σ]]] := by
  intro hc
  have acc : ∀ y s, -(Real.pi / 2) < y → y < Real.pi / 2 → checkDerivatives 1 1 s = true → createChi closure (some [[y]]) s = some (assemble (chiTile [[y]]) chiDerivative s) :=
    fun y s h1 h2 h3 => by
      have : -(Real.pi * 2⁻¹) ≤ y ∧ y < Real.pi * 2⁻¹ := ⟨by linarith, by linarith⟩
      simp [createChi, this, checkParams, h3]
  obtain ⟨ds, e1, _, h⟩ := hc _ (acc x _ hx hx' (by simp [checkDerivatives, checkParams]))
  simp only [assemble, Option.map_some, Option.some.injEq, List.map_cons, List.map_nil] at e1
  subst e1
  obtain ⟨_, _, _, hd⟩ := h 0 [[σ]] _ rfl rfl
  -- a neighbourhood of zero is accepted
  have hev : ∀ᶠ h in nhds (0 : ℝ), createChi closure (some (move [[x]] [[σ]] h)) none = some (assemble (chiTile [[x + h * σ]]) chiDerivative none) := by
    have c : Continuous fun h : ℝ => x + h * σ := by fun_prop
    have o1 : ∀ᶠ h in nhds (0 : ℝ), x + h * σ ∈ Set.Ioo (-(Real.pi / 2)) (Real.pi / 2) :=
      c.continuousAt.eventually_mem (by simpa using Ioo_mem_nhds hx hx')
    filter_upwards [o1] with h hh
    exact acc _ none hh.1 hh.2 rfl
  have hset : {h : ℝ | (createChi closure (some (move [[x]] [[σ]] h)) none).isSome} ∈ nhds (0 : ℝ) := by
    filter_upwards [hev] with h hh
    simp [hh]
  have hr : (0 : ℝ) < √(1 / 8) := Real.sqrt_pos.2 (by norm_num)
  have at' : ∀ j, HasDerivAt (fun h => coord (chiTile [[x + h * σ]]) 0 1 j) (coord (chiDerivative [[σ]]) 0 1 j) 0 := fun j =>
    ((hd 0 1 j).hasDerivAt hset).congr_of_eventuallyEq (by
      filter_upwards [hev] with h hh
      rw [hh]; rfl)
  have d0 := at' 0
  have d1 := at' 1
  simp only [coord, chiTile, chiDerivative, chi, shift, entry, List.map_cons, List.map_nil, List.zipWith_cons_cons, List.zipWith_nil_left, List.getD_cons_zero,
    List.getD_cons_succ] at d0 d1
  have t0 : HasDerivAt (fun h : ℝ => -(√(1 / 8) * Real.sin (x + h * σ + Real.pi / 4)) + 1 / 2) (-(√(1 / 8) * (σ * Real.cos (x + Real.pi / 4)))) 0 := by
    have := (((hasDerivAt_sin_line (x + Real.pi / 4) σ).const_mul √(1 / 8)).fun_neg).add_const (1 / 2 : ℝ)
    refine this.congr_of_eventuallyEq (Filter.Eventually.of_forall fun h => ?_)
    beta_reduce
    rw [show x + h * σ + Real.pi / 4 = x + Real.pi / 4 + h * σ by ring]
  have t1 : HasDerivAt (fun h : ℝ => -(√(1 / 8) * Real.cos (x + h * σ + Real.pi / 4)) + 1 / 2) (-(√(1 / 8) * (σ * -Real.sin (x + Real.pi / 4)))) 0 := by
    have := (((hasDerivAt_cos_line (x + Real.pi / 4) σ).const_mul √(1 / 8)).fun_neg).add_const (1 / 2 : ℝ)
    refine this.congr_of_eventuallyEq (Filter.Eventually.of_forall fun h => ?_)
    beta_reduce
    rw [show x + h * σ + Real.pi / 4 = x + Real.pi / 4 + h * σ by ring]
  have e0 := d0.unique t0
  have e1 := d1.unique t1
  have c0 : Real.cos σ = σ * Real.cos (x + Real.pi / 4) := by
    have := mul_left_cancel₀ hr.ne' (show √(1 / 8) * Real.cos σ = √(1 / 8) * (σ * Real.cos (x + Real.pi / 4)) by linarith)
    exact this
  have s0 : Real.sin σ = σ * Real.sin (x + Real.pi / 4) := by
    have := mul_left_cancel₀ hr.ne' (show √(1 / 8) * Real.sin σ = √(1 / 8) * (σ * Real.sin (x + Real.pi / 4)) by linarith)
    exact this
  have p1 := Real.sin_sq_add_cos_sq σ
  have p2 := Real.sin_sq_add_cos_sq (x + Real.pi / 4)
  rw [c0, s0] at p1
  apply hσ
  linear_combination p1 - σ ^ 2 * p2

/-- accepted parameters, with sensitivities that leave the rotation about y alone -/
example : (createCubeVoid none (some [[1 / 2, 1 / 3, 1, 2]]) (some [[[1, 2, 3, 0]]])).isSome = true ∧ (∀ s ∈ [[[(1 : ℝ), 2, 3, 0]]], flatEntry s 3 = 0) ∧
    checkParams 1 4 [[(1 / 2 : ℝ), 1 / 3, 1, 2]] = true := by
  norm_num [createCubeVoid, checkParams, checkDerivatives, assemble, flatEntry]

example : (createEllipsVoid none (some [[1 / 2, 1 / 3, 1, 2]]) (some [[[1, 2, 3, 0]]])).isSome = true := by
  norm_num [createEllipsVoid, checkParams, checkDerivatives, assemble, flatEntry]

end Splinepy.Tiles
