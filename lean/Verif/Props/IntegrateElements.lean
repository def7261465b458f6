import Mathlib.MeasureTheory.Function.Jacobian
import Mathlib.LinearAlgebra.Matrix.ToLin
import Mathlib.LinearAlgebra.Determinant
import Mathlib.Algebra.MvPolynomial.Monad
import Verif.Props.Integrate

/-!
C33, what `integrate.parametric_function` computes for arbitrary knot vectors: the integrals over the knot elements, each divided by the size of its element.
-/

namespace Splinepy.Integrate

open MeasureTheory Splinepy.Spec

/-- substitution of an affine function into every variable does not raise degrees -/
theorem degreeOf_affine_le {n : ℕ} (a c : Fin n → ℝ) (P : MvPolynomial (Fin n) ℝ) (i : Fin n) :
    (MvPolynomial.bind₁ (fun j => MvPolynomial.C (a j) + MvPolynomial.C (c j) * MvPolynomial.X j) P).degreeOf i ≤ P.degreeOf i := by
  rw [MvPolynomial.bind₁, MvPolynomial.aeval_def, MvPolynomial.eval₂_eq']
  refine (MvPolynomial.degreeOf_sum_le _ _ _).trans (Finset.sup_le fun m hm => ?_)
  have h1 := MvPolynomial.degreeOf_le_iff.1 (le_refl (P.degreeOf i)) m hm
  refine le_trans ?_ h1
  refine (MvPolynomial.degreeOf_C_mul_le _ i _).trans ?_
  refine (MvPolynomial.degreeOf_prod_le _ _ _).trans ?_
  have h2 : ∀ j, ((MvPolynomial.C (a j) + MvPolynomial.C (c j) * MvPolynomial.X j : MvPolynomial (Fin n) ℝ) ^ m j).degreeOf i ≤ if j = i then m i else 0 := by
    intro j
    refine (MvPolynomial.degreeOf_pow_le _ _ _).trans ?_
    have h3 : (MvPolynomial.C (a j) + MvPolynomial.C (c j) * MvPolynomial.X j : MvPolynomial (Fin n) ℝ).degreeOf i ≤ if j = i then 1 else 0 := by
      refine (MvPolynomial.degreeOf_add_le _ _ _).trans (max_le (by simp [MvPolynomial.degreeOf_C]) ?_)
      refine (MvPolynomial.degreeOf_C_mul_le _ i _).trans ?_
      rw [MvPolynomial.degreeOf_X]
      simp [eq_comm]
    by_cases hj : j = i
    · subst hj
      rw [if_pos rfl] at h3 ⊢
      calc m j * _ ≤ m j * 1 := Nat.mul_le_mul_left _ h3
        _ = m j := Nat.mul_one _
    · rw [if_neg hj] at h3 ⊢
      simp [Nat.le_zero.1 h3]
  calc ∑ j, _ ≤ ∑ j, (if j = i then m i else 0) := Finset.sum_le_sum fun j _ => h2 j
    _ = m i := by simp

theorem eval_affine {n : ℕ} (a c : Fin n → ℝ) (P : MvPolynomial (Fin n) ℝ) (x : Fin n → ℝ) :
    MvPolynomial.eval x (MvPolynomial.bind₁ (fun j => MvPolynomial.C (a j) + MvPolynomial.C (c j) * MvPolynomial.X j) P)
      = MvPolynomial.eval (fun j => a j + c j * x j) P := by
  rw [MvPolynomial.eval, MvPolynomial.eval₂Hom_bind₁]
  congr 2
  funext j
  simp

theorem zip_tail_lt : ∀ {l : List ℝ} {p : ℝ × ℝ}, l.Pairwise (· < ·) → p ∈ l.zip l.tail → p.1 < p.2
  | [], _, _, h => by simp at h
  | [_], _, _, h => by simp at h
  | a :: b :: l, p, hl, h => by
    rw [List.tail_cons, List.zip_cons_cons, List.mem_cons] at h
    rcases h with rfl | h
    · exact (List.pairwise_cons.1 hl).1 b (by simp)
    · exact zip_tail_lt (List.pairwise_cons.1 hl).2 h

/-- lower and upper corner of a knot element -/
def Spec.lower (n : ℕ) (e : List (ℝ × ℝ)) : Fin n → ℝ := fun i => (e.getD i (0, 0)).1
def Spec.upper (n : ℕ) (e : List (ℝ × ℝ)) : Fin n → ℝ := fun i => (e.getD i (0, 0)).2

/-- change of variables from the unit cube to a box -/
theorem integral_box {n : ℕ} (a b : Fin n → ℝ) (h : ∀ i, a i < b i) (G : (Fin n → ℝ) → ℝ) :
    (∏ i, (b i - a i)) * (Spec.cubeIntegral fun x => G fun i => a i + (b i - a i) * x i) = ∫ x in Set.Icc a b, G x := by
  let D : (Fin n → ℝ) →L[ℝ] (Fin n → ℝ) := ContinuousLinearMap.pi fun i => (b i - a i) • ContinuousLinearMap.proj i
  have hdet : D.det = ∏ i, (b i - a i) := by
    have e : (D : (Fin n → ℝ) →ₗ[ℝ] (Fin n → ℝ)) = Matrix.toLin' (Matrix.diagonal fun i => b i - a i) := by
      ext i j
      simp [D, Matrix.toLin'_apply, Matrix.mulVec_diagonal]
    rw [ContinuousLinearMap.det, e, LinearMap.det_toLin', Matrix.det_diagonal]
  have hpos : 0 < ∏ i, (b i - a i) := Finset.prod_pos fun i _ => sub_pos.2 (h i)
  have himg : (fun x : Fin n → ℝ => fun i => a i + (b i - a i) * x i) '' Set.Icc 0 1 = Set.Icc a b := by
    ext y
    simp only [Set.mem_image, Set.mem_Icc, Pi.le_def]
    constructor
    · rintro ⟨x, ⟨h0, h1⟩, rfl⟩
      refine ⟨fun i => ?_, fun i => ?_⟩
      · nlinarith [h i, h0 i, show (0 : Fin n → ℝ) i = 0 from rfl]
      · nlinarith [h i, h1 i, show (1 : Fin n → ℝ) i = 1 from rfl]
    · rintro ⟨h0, h1⟩
      refine ⟨fun i => (y i - a i) / (b i - a i), ⟨fun i => ?_, fun i => ?_⟩, ?_⟩
      · exact div_nonneg (sub_nonneg.2 (h0 i)) (sub_nonneg.2 (h i).le)
      · exact (div_le_one (sub_pos.2 (h i))).2 (by linarith [h1 i])
      · funext i
        have := (sub_pos.2 (h i)).ne'
        field_simp
        ring
  have key := integral_image_eq_integral_abs_det_fderiv_smul MeasureTheory.volume (s := Set.Icc (0 : Fin n → ℝ) 1) (f := fun x : Fin n → ℝ => fun i => a i + (b i - a i) * x i)
    (f' := fun _ => D) measurableSet_Icc ?_ ?_ G
  · rw [himg] at key
    rw [key, hdet, abs_of_pos hpos]
    simp only [smul_eq_mul]
    rw [integral_const_mul]
    rfl
  · intro x _
    rw [hasFDerivWithinAt_pi]
    intro i
    have h1 : HasFDerivWithinAt (fun x : Fin n → ℝ => x i) (ContinuousLinearMap.proj i : (Fin n → ℝ) →L[ℝ] ℝ) (Set.Icc 0 1) x :=
      (ContinuousLinearMap.proj i : (Fin n → ℝ) →L[ℝ] ℝ).hasFDerivWithinAt
    simpa using (h1.const_mul (b i - a i)).const_add (a i)
  · intro x _ y _ hxy
    funext i
    have := congrFun hxy i
    have h' := (sub_pos.2 (h i)).ne'
    simp only [add_right_inj] at this
    exact mul_left_cancel₀ h' this

/-- C33 (partial): for all knot vectors and all polynomials `F` (the function) and `M` (the measure of the geometry), the result is the sum, over all knot
elements, of the integral of `F * M` over the element divided by the size of the element. Missing: independence of the knot spans, which is false
(`knot_spans_violates`): the size of the element should not be there. -/
theorem parametric_function_elements_partial (leggauss : ℕ → List ℝ × List ℝ) (degrees : List ℕ) (rational : Bool)
    (orders : Option (List ℤ)) (o : List ℤ) (ho : quadOrders degrees rational orders = some o) (hne : o ≠ [])
    (hpos : ∀ m ∈ o, 0 < m) (hg : ∀ m ∈ o, Spec.IsGaussLegendre m.toNat (leggauss m.toNat)) (n : ℕ) (hn : o.length = n)
    (uks : List (List ℝ)) (hlen : uks.length = n) (hinc : ∀ uk ∈ uks, uk.Pairwise (· < ·))
    (F M : MvPolynomial (Fin n) ℝ) (hD : ∀ i : Fin n, ((F * M).degreeOf i : ℤ) < 2 * o.getD i 0) :
    parametricFunction leggauss degrees rational orders (some uks) (fun r => MvPolynomial.eval (Spec.pointOf n r) M)
        (fun r => MvPolynomial.eval (Spec.pointOf n r) F) =
      some (((firstFastest (uks.map fun uk => uk.zip uk.tail)).map fun e =>
        (∫ x in Set.Icc (Spec.lower n e) (Spec.upper n e), MvPolynomial.eval x F * MvPolynomial.eval x M) / ∏ i, (Spec.upper n e i - Spec.lower n e i)).sum) := by
  rw [parametric_function_value leggauss degrees rational orders o ho hne hpos hg n hn uks _ _
    (fun e => MvPolynomial.bind₁ (fun j => MvPolynomial.C (Spec.lower n e j) + MvPolynomial.C (Spec.upper n e j - Spec.lower n e j) * MvPolynomial.X j) (F * M))]
  · congr 2
    apply List.map_congr_left
    intro e he
    have hlt : ∀ i, Spec.lower n e i < Spec.upper n e i := by
      intro i
      rw [mem_firstFastest, List.forall₂_iff_get] at he
      obtain ⟨h1, h2⟩ := he
      have hi : (i : ℕ) < e.length := by rw [← h1, List.length_map, hlen]; exact i.2
      have h3 := h2 i (by rw [h1]; exact hi) hi
      simp only [List.get_eq_getElem, List.getElem_map] at h3
      have h4 := zip_tail_lt (hinc _ (List.getElem_mem (by rw [hlen]; exact i.2))) h3
      unfold Spec.lower Spec.upper
      rw [List.getD_eq_getElem _ _ hi]
      exact h4
    rw [eq_div_iff (Finset.prod_pos fun i _ => sub_pos.2 (hlt i)).ne', mul_comm, ← integral_box _ _ hlt]
    congr 2
    funext x
    rw [eval_affine, map_mul]
  · intro e he r hr
    rw [mem_firstFastest, List.forall₂_iff_get] at he
    have hl : e.length = n := by rw [← he.1, List.length_map, hlen]
    have hp : Spec.pointOf n (mapInto e r) = fun i => Spec.lower n e i + (Spec.upper n e i - Spec.lower n e i) * Spec.pointOf n r i := by
      funext i
      have h1 : (i : ℕ) < e.length := by rw [hl]; exact i.2
      have h2 : (i : ℕ) < r.length := by rw [hr]; exact i.2
      simp only [Spec.pointOf, mapInto, Spec.lower, Spec.upper]
      rw [List.getD_eq_getElem _ _ (by simp; omega), List.getD_eq_getElem _ _ h1, List.getD_eq_getElem _ _ h2, List.getElem_zipWith]
    rw [hp, ← map_mul, eval_affine]
  · intro e _ i
    exact lt_of_le_of_lt (by exact_mod_cast degreeOf_affine_le _ _ _ i) (hD i)

/-- hypotheses are met: a quadratic function on a straight line with an inner knot, two point rule -/
example : quadOrders [1] false none = some [2] ∧ (∀ uk ∈ [[(0 : ℝ), 1 / 4, 1]], uk.Pairwise (· < ·)) ∧
    ∀ i : Fin 1, (((MvPolynomial.X 0 ^ 2 : MvPolynomial (Fin 1) ℝ) * 1).degreeOf i : ℤ) < 2 * ([2] : List ℤ).getD i 0 := by
  refine ⟨by decide, by simp; norm_num, fun i => ?_⟩
  have hi : i = 0 := Subsingleton.elim _ _
  subst hi
  have : ((MvPolynomial.X 0 ^ 2 : MvPolynomial (Fin 1) ℝ) * 1).degreeOf 0 ≤ 2 := by
    rw [mul_one]
    refine (MvPolynomial.degreeOf_pow_le _ _ _).trans ?_
    rw [MvPolynomial.degreeOf_X]
    simp
  have e : 2 * ([2] : List ℤ).getD (0 : Fin 1) 0 = 4 := rfl
  rw [e]
  omega

end Splinepy.Integrate
