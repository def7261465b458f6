import Verif.Model.Volume
import Verif.Lemma.BoxSum
import Verif.Props.IntegrateElements
import Verif.Props.BezierSpline
import Verif.Props.DetSpline
import Mathlib.Analysis.Calculus.Deriv.Add
import Mathlib.Analysis.Calculus.Deriv.Comp
import Mathlib.Analysis.Calculus.Deriv.Mul

/-!
`integrate.volume` is the integral of the determinant of the Jacobian over the parametric domain.
-/
set_option linter.unusedSectionVars false
namespace Splinepy.Volume
open MeasureTheory MvPolynomial Splinepy.Spec Splinepy.Integrate Splinepy.KnotInsertion
open Splinepy.Index (Spline)

/-! ### Specification -/

/-- Determinant of the Jacobian of the spline at the parameter `x`, with the partial derivatives of the points of the spline. -/
noncomputable def Spec.jacobianDet (s : Spline ℝ (List ℝ)) (n : ℕ) (x : Fin n → ℝ) : ℝ :=
  (Matrix.of fun k i : Fin n => deriv (fun t => point s (List.ofFn (Function.update x i t)) k) (x i)).det

/-- Lower corner of the parametric domain. -/
noncomputable def Spec.lower (s : Spline ℝ (List ℝ)) (n : ℕ) : Fin n → ℝ := fun i => ((directions s).map Direction.lower).getD i 0

/-- Upper corner of the parametric domain. -/
noncomputable def Spec.upper (s : Spline ℝ (List ℝ)) (n : ℕ) : Fin n → ℝ := fun i => ((directions s).map Direction.upper).getD i 0

/-- Contract of `jacobian` of a polynomial Bezier: the partial derivatives. -/
def Spec.Jacobians (n : ℕ) (jacobian : Spline ℝ (List ℝ) → List ℝ → ℕ → ℕ → ℝ) : Prop :=
  ∀ b, ValidSpline b → b.degrees.length = n → b.knotVectors = none → b.weights = none → DetSpline.Spec.Jacobian b n fun u => Matrix.of fun k i => jacobian b u k i

/-! ### one patch -/

theorem update_affine {n : ℕ} (a b x : Fin n → ℝ) (i : Fin n) (t : ℝ) :
    (fun j => (Function.update x i t j - a j) / (b j - a j)) = Function.update (fun j => (x j - a j) / (b j - a j)) i ((t - a i) / (b i - a i)) := by
  funext j
  by_cases h : j = i
  · subst h; simp
  · simp [Function.update_of_ne h]

theorem jacobian_patch {n : ℕ} (s : Spline ℝ (List ℝ)) (P : Fin n → MvPolynomial (Fin n) ℝ) (a b : Fin n → ℝ) (h : ∀ i, a i < b i)
    (hP : ∀ w : Fin n → ℝ, (∀ i, 0 < w i ∧ w i < 1) → ∀ k : Fin n, eval w (P k) = point s (List.ofFn fun i => a i + (b i - a i) * w i) k)
    (x : Fin n → ℝ) (hx : ∀ i, a i < x i ∧ x i < b i) :
    Spec.jacobianDet s n x = (∏ i, (1 / (b i - a i))) * eval (fun i => (x i - a i) / (b i - a i)) (Integrate.Spec.jacobianDet P) := by
  have key : ∀ k i : Fin n, deriv (fun t => point s (List.ofFn (Function.update x i t)) k) (x i) =
      (1 / (b i - a i)) * eval (fun i => (x i - a i) / (b i - a i)) (pderiv i (P k)) := by
    intro k i
    have hpt : ∀ y : Fin n → ℝ, (∀ i, a i < y i ∧ y i < b i) → point s (List.ofFn y) k = eval (fun j => (y j - a j) / (b j - a j)) (P k) := by
      intro y hy
      rw [hP _ (fun j => ⟨div_pos (sub_pos.2 (hy j).1) (sub_pos.2 (h j)), (div_lt_one (sub_pos.2 (h j))).2 (by linarith [(hy j).2])⟩)]
      congr 2
      funext j
      have := (sub_pos.2 (h j)).ne'
      field_simp
      ring
    have hev : (fun t => point s (List.ofFn (Function.update x i t)) k) =ᶠ[nhds (x i)]
        fun t => eval (Function.update (fun j => (x j - a j) / (b j - a j)) i ((t - a i) / (b i - a i))) (P k) := by
      filter_upwards [Ioo_mem_nhds (hx i).1 (hx i).2] with t ht
      rw [hpt _ (fun j => ?_), update_affine]
      by_cases hj : j = i
      · subst hj; simpa using ht
      · rw [Function.update_of_ne hj]; exact hx j
    rw [hev.deriv_eq]
    have h1 : HasDerivAt (fun t => (t - a i) / (b i - a i)) (1 / (b i - a i)) (x i) := ((hasDerivAt_id (x i)).sub_const (a i)).div_const (b i - a i)
    have h2 := DetSpline.hasDerivAt_eval (P k) (fun j => (x j - a j) / (b j - a j)) i
    have h3 := h2.comp (x i) h1
    rw [mul_comm]
    exact h3.deriv
  unfold Spec.jacobianDet Integrate.Spec.jacobianDet
  rw [RingHom.map_det, ← Matrix.det_mul_row]
  congr 1
  ext k i
  simp only [Matrix.of_apply, RingHom.mapMatrix_apply, Matrix.map_apply]
  exact key k i

theorem integral_patch {n : ℕ} (s : Spline ℝ (List ℝ)) (P : Fin n → MvPolynomial (Fin n) ℝ) (a b : Fin n → ℝ) (h : ∀ i, a i < b i)
    (hP : ∀ w : Fin n → ℝ, (∀ i, 0 < w i ∧ w i < 1) → ∀ k : Fin n, eval w (P k) = point s (List.ofFn fun i => a i + (b i - a i) * w i) k) :
    IntegrableOn (Spec.jacobianDet s n) (Set.Icc a b) ∧
      (Integrate.Spec.cubeIntegral fun x => eval x (Integrate.Spec.jacobianDet P)) = ∫ x in Set.Icc a b, Spec.jacobianDet s n x := by
  set H : (Fin n → ℝ) → ℝ := fun x => (∏ i, (1 / (b i - a i))) * eval (fun i => (x i - a i) / (b i - a i)) (Integrate.Spec.jacobianDet P) with hH
  have hcont : Continuous H := by
    refine continuous_const.mul ?_
    exact (MvPolynomial.continuous_eval _).comp (continuous_pi fun i => ((continuous_apply i).sub continuous_const).div_const _)
  have e : (Set.univ.pi fun l => Set.Ioo (a l) (b l)) =ᵐ[MeasureTheory.volume] Set.Icc a b := Measure.univ_pi_Ioo_ae_eq_Icc
  have hm : MeasurableSet (Set.univ.pi fun l => Set.Ioo (a l) (b l)) := MeasurableSet.univ_pi fun l => measurableSet_Ioo
  have heq : Set.EqOn H (Spec.jacobianDet s n) (Set.univ.pi fun l => Set.Ioo (a l) (b l)) := fun x hx =>
    (jacobian_patch s P a b h hP x fun i => hx i trivial).symm
  have hi : IntegrableOn H (Set.Icc a b) := hcont.continuousOn.integrableOn_compact isCompact_Icc
  constructor
  · exact ((hi.congr_set_ae e).congr_fun heq hm).congr_set_ae e.symm
  · rw [← setIntegral_congr_set e, ← setIntegral_congr_fun hm heq, setIntegral_congr_set e, ← Integrate.integral_box a b h H]
    unfold Integrate.Spec.cubeIntegral
    rw [← integral_const_mul]
    refine setIntegral_congr_fun measurableSet_Icc fun x _ => ?_
    simp only [hH]
    rw [← mul_assoc, ← Finset.prod_mul_distrib, Finset.prod_congr rfl (fun i _ => mul_one_div_cancel (sub_pos.2 (h i)).ne'), Finset.prod_const_one, one_mul]
    congr 2
    funext i
    have := (sub_pos.2 (h i)).ne'
    field_simp
    ring

/-! ### all patches -/

/-- coordinate functions of a Bezier -/
noncomputable def poly (n : ℕ) (b : Spline ℝ (List ℝ)) : Fin n → MvPolynomial (Fin n) ℝ :=
  fun k => DetSpline.splinePoly b.degrees fun g => (b.controlPoints.getD g []).getD k 0

theorem dim_eq {s : Spline ℝ (List ℝ)} {n : ℕ} (hs : ValidSpline s) (hd : ∀ P ∈ s.controlPoints, P.length = n) (hne : s.controlPoints ≠ []) : dim s = n := by
  unfold dim
  obtain ⟨P, Ps, e⟩ := List.exists_cons_of_ne_nil hne
  rw [e]
  exact hd P (by rw [e]; simp)

/-- volume of a list of Bezier patches -/
theorem volume_patches (leggauss : ℕ → List ℝ × List ℝ) (n : ℕ) (hn : 0 < n) (degrees : List ℕ) (hd : degrees.length = n)
    (hg : ∀ o m, quadOrders degrees false none = some o → m ∈ o → Integrate.Spec.IsGaussLegendre m.toNat (leggauss m.toNat))
    (jacobian : Spline ℝ (List ℝ) → List ℝ → ℕ → ℕ → ℝ) (hj : Spec.Jacobians n jacobian) (bs : List (Spline ℝ (List ℝ)))
    (hb : ∀ b ∈ bs, ValidSpline b ∧ b.degrees = degrees ∧ b.knotVectors = none ∧ b.weights = none) :
    Integrate.volume leggauss degrees false none (bs.map fun b u => (Matrix.of fun k i : Fin n => jacobian b u k i).det) =
      some ((bs.map fun b => Integrate.Spec.cubeIntegral fun x => eval x (Integrate.Spec.jacobianDet (poly n b))).sum) := by
  have h := default_volume_exact leggauss n hn degrees hd false hg (bs.map (poly n)) (by
    intro φ hφ
    obtain ⟨b, hbm, rfl⟩ := List.mem_map.1 hφ
    intro k i
    unfold poly
    rw [(hb b hbm).2.1]
    exact DetSpline.splinePoly_degree degrees hd _ i)
  rw [List.map_map, List.map_map] at h
  refine Eq.trans ?_ h
  set o : List ℤ := degrees.map fun p => (((p * degrees.length + 1 + 2) / 2 : ℕ) : ℤ) with ho
  have hoq : quadOrders degrees false none = some o := by simp [quadOrders, ho]
  have hne : o ≠ [] := by
    intro e
    have : o.length = 0 := by rw [e]; rfl
    rw [ho, List.length_map] at this
    omega
  have hpos : ∀ m ∈ o, 0 < m := by
    intro m hm
    obtain ⟨p, -, rfl⟩ := List.mem_map.1 hm
    have : 1 ≤ (p * degrees.length + 1 + 2) / 2 := by
      rw [Nat.le_div_iff_mul_le (by norm_num)]
      omega
    omega
  unfold Integrate.volume
  rw [quadrature_eq leggauss degrees false none o hoq hne hpos fun m hm => hg o m hoq hm]
  simp only [Option.map_some, List.map_map]
  congr 2
  refine List.map_congr_left fun b hbm => ?_
  simp only [Function.comp_apply, weightedSum]
  congr 1
  rw [List.zipWith_map, List.zipWith_map]
  rw [List.zipWith_self, List.zipWith_self]
  refine List.map_congr_left fun r hr => ?_
  have hrl : (r.map Prod.fst).length = n := by
    rw [List.length_map, ← (mem_firstFastest _ _).1 hr |>.length_eq, ho]
    simpa using hd
  obtain ⟨b1, b2, b3, b4⟩ := hb b hbm
  congr 1
  exact DetSpline.jac_eq b (by rw [b2, hd]) b3 (by rw [b4]; rintro ws ⟨⟩) _ (hj b b1 (by rw [b2, hd]) b3 b4) _ hrl

theorem getD_ofFn {n : ℕ} (w : Fin n → ℝ) : (fun i : Fin n => (List.ofFn w).getD i 0) = w := by
  funext i
  rw [List.getD_eq_getElem _ 0 (by simp)]
  simp

/-- C113: with the default orders, the volume of a polynomial spline with as many coordinates as parametric directions is the integral of the determinant of its Jacobian
over the parametric domain. The knot vectors are clamped, inner knots may have any multiplicity. -/
theorem volume_integral {tol : ℝ} (ht : 0 < tol) (needed : Spline ℝ (List ℝ) → ℕ → List ℝ) (hneed : BezierSpline.Spec.Needed needed) (mults : List ℝ → List ℕ)
    (hmult : BezierSpline.Spec.Multiplicities tol mults) (F : Spline ℝ (List ℝ) → Prop) (insertKnot : Spline ℝ (List ℝ) → ℕ → ℝ → Option (Spline ℝ (List ℝ)))
    (hF : BezierSpline.Spec.Inserts F insertKnot) (n : ℕ) (hn : 0 < n) (jacobian : Spline ℝ (List ℝ) → List ℝ → ℕ → ℕ → ℝ) (hj : Spec.Jacobians n jacobian)
    (leggauss : ℕ → List ℝ × List ℝ) (ds : List (Dim ℝ)) (hv : ∀ d ∈ ds, d.Valid tol) (s : Spline ℝ (List ℝ)) (hs : ValidSpline s) (h0 : F s)
    (hon : BezierSpline.On s ds) (hsn : s.degrees.length = n) (hdim : ∀ P ∈ s.controlPoints, P.length = n) (hw : s.weights = none)
    (hg : ∀ o m, quadOrders s.degrees false none = some o → m ∈ o → Integrate.Spec.IsGaussLegendre m.toNat (leggauss m.toNat)) :
    splineVolume leggauss jacobian needed insertKnot mults none s =
      some (∫ x in Set.Icc (Spec.lower s n) (Spec.upper s n), Spec.jacobianDet s n x) := by
  obtain ⟨bs, e, el, h, -⟩ := BezierSpline.beziers_points ht needed hneed mults hmult F insertKnot hF ds hv s hs h0 hon n hdim
  have hdl : ds.length = n := by rw [← hsn, hon.degrees]; simp
  have hne : s.controlPoints ≠ [] := by
    rw [← List.length_pos_iff_ne_nil, hs.net, hon.netSize]
    refine prod_pos_of_forall fun r hr => ?_
    obtain ⟨d, hd, rfl⟩ := List.mem_map.1 hr
    have := d.knots_length
    unfold Dim.nCps
    omega
  unfold splineVolume
  have hm : measure (dim s) s.degrees.length = some fun J => (Matrix.of fun k i : Fin n => J k i).det := by
    rw [dim_eq hs hdim hne, hsn]
    simp [measure]
  rw [hm, hon.knots]
  simp only [Option.bind_some, Option.isSome_some, if_true, e, hw, Option.isSome_none]
  have hb : ∀ b ∈ bs, ValidSpline b ∧ b.degrees = s.degrees ∧ b.knotVectors = none ∧ b.weights = none := by
    intro b hbm
    obtain ⟨i, hi, rfl⟩ := List.getElem_of_mem hbm
    have := h i hi
    refine ⟨this.1, this.2.1, this.2.2.1, ?_⟩
    have h4 := this.2.2.2.1
    rw [hw] at h4
    simpa using h4
  rw [volume_patches leggauss n hn s.degrees hsn hg jacobian hj bs hb]
  congr 1
  set rs := ds.map fun d => d.inner.length + 1 with hrs
  have hrl : rs.length = n := by simp [hrs, hdl]
  have hr : ∀ r ∈ rs, 0 < r := by simp [hrs]
  let U : Fin n → ℕ → ℝ := fun l m => (ds[(l : ℕ)]'(by omega)).uniqueKnots.getD m 0
  have hrg : ∀ l : Fin n, rs.getD l 0 = (ds[(l : ℕ)]'(by omega)).inner.length + 1 := by
    intro l
    rw [List.getD_eq_getElem _ 0 (by omega)]
    simp [hrs]
  have hgl : ∀ d : Dim ℝ, d.groups.length = d.inner.length + 2 := fun d => by simp [Dim.groups]
  have hU : ∀ l : Fin n, ∀ p q, p < q → q ≤ rs.getD l 0 → U l p < U l q := by
    intro l p q hpq hq
    refine BezierSpline.unique_lt ht (hv _ (List.getElem_mem _)) hpq ?_
    rw [hrg] at hq
    rw [hgl]
    omega
  have hdg : ∀ i, ∀ l : Fin n, (digits rs i).getD l 0 < rs.getD l 0 := by
    intro i l
    obtain ⟨h1, h2⟩ := inGrid_iff.1 (digits_inGrid rs i hr)
    have hl : (l : ℕ) < rs.length := by omega
    rw [List.getD_eq_getElem _ 0 (by omega), List.getD_eq_getElem _ 0 hl]
    exact h2 l hl
  have hpatch : ∀ i (hi : i < bs.length), IntegrableOn (Spec.jacobianDet s n) (Set.Icc (fun l => U l ((digits rs i).getD l 0)) (fun l => U l ((digits rs i).getD l 0 + 1))) ∧
      (Integrate.Spec.cubeIntegral fun x => eval x (Integrate.Spec.jacobianDet (poly n bs[i]))) =
        ∫ x in Set.Icc (fun l => U l ((digits rs i).getD l 0)) (fun l => U l ((digits rs i).getD l 0 + 1)), Spec.jacobianDet s n x := by
    intro i hi
    refine integral_patch s (poly n bs[i]) _ _ (fun l => hU l _ _ (Nat.lt_succ_self _) (hdg i l)) fun w hw' k => ?_
    obtain ⟨b1, b2, b3, b4⟩ := hb bs[i] (List.getElem_mem hi)
    have hdl2 : (digits rs i).length = n := by rw [digits_length, hrl]
    have hloc : BezierSpline.Spec.Local ds (digits rs i) (List.ofFn w) := by
      refine List.forall₂_iff_get.2 ⟨by simp [hdl, hdl2], fun j j1 j2 => ?_⟩
      have hjn : j < n := by simpa using j2
      have := hw' ⟨j, hjn⟩
      simp only [List.get_eq_getElem, List.getElem_ofFn]
      exact ⟨this.1.le, Or.inl this.2⟩
    have hp := ((h i hi).2.2.2.2.2 _ hloc).2 k
    have hp' := DetSpline.point_poly bs[i] (by rw [b2, hsn]) b3 (by rw [b4]; rintro ws ⟨⟩) (List.ofFn w) (by simp) k
    rw [getD_ofFn] at hp'
    unfold poly
    rw [← hp', hp]
    congr 1
    apply List.ext_getElem
    · simp [BezierSpline.Spec.inSpan, hdl, hdl2]
    · intro j j1 j2
      have hjn : j < n := by simpa using j2
      simp only [BezierSpline.Spec.inSpan, List.getElem_zipWith, List.getElem_zip, List.getElem_ofFn, U]
      rw [List.getD_eq_getElem (digits rs i) 0 (by omega)]
  have hsum := BoxSum.sum_grid rs hrl hr U hU (Spec.jacobianDet s n) (fun i hi => (hpatch i (by rw [el]; exact hi)).1)
  have hlow : Spec.lower s n = fun l => U l 0 := by
    funext l
    unfold Spec.lower
    rw [hon.directions, List.map_map, List.getD_eq_getElem _ 0 (by simp; omega), List.getElem_map]
    exact BezierSpline.lower_dim _
  have hup : Spec.upper s n = fun l => U l (rs.getD l 0) := by
    funext l
    unfold Spec.upper
    rw [hon.directions, List.map_map, List.getD_eq_getElem _ 0 (by simp; omega), List.getElem_map, hrg]
    have := BezierSpline.unique_last (ds[(l : ℕ)]'(by omega))
    rw [hgl] at this
    exact (BezierSpline.upper_dim _).trans this.symm
  rw [hlow, hup, ← hsum, ← el, Finset.sum_range, ← List.sum_ofFn]
  congr 1
  apply List.ext_getElem
  · simp
  · intro i i1 i2
    have hi : i < bs.length := by simpa using i1
    rw [List.getElem_map, List.getElem_ofFn]
    exact (hpatch i hi).2

/-- C113: the same for splines without knot vectors, over the unit cube. -/
theorem volume_integral_bezier (needed : Spline ℝ (List ℝ) → ℕ → List ℝ) (mults : List ℝ → List ℕ) (insertKnot : Spline ℝ (List ℝ) → ℕ → ℝ → Option (Spline ℝ (List ℝ)))
    (n : ℕ) (hn : 0 < n) (jacobian : Spline ℝ (List ℝ) → List ℝ → ℕ → ℕ → ℝ) (hj : Spec.Jacobians n jacobian)
    (leggauss : ℕ → List ℝ × List ℝ) (s : Spline ℝ (List ℝ)) (hs : ValidSpline s) (hk : s.knotVectors = none)
    (hsn : s.degrees.length = n) (hdim : ∀ P ∈ s.controlPoints, P.length = n) (hw : s.weights = none)
    (hg : ∀ o m, quadOrders s.degrees false none = some o → m ∈ o → Integrate.Spec.IsGaussLegendre m.toNat (leggauss m.toNat)) :
    splineVolume leggauss jacobian needed insertKnot mults none s = some (∫ x in Set.Icc 0 1, Spec.jacobianDet s n x) := by
  have hne : s.controlPoints ≠ [] := by
    rw [← List.length_pos_iff_ne_nil, hs.net]
    refine prod_pos_of_forall fun r hr => ?_
    unfold netSize directions at hr
    rw [hk] at hr
    simp only [List.map_map, List.mem_map, Function.comp_apply, Direction.size] at hr
    obtain ⟨d, -, rfl⟩ := hr
    omega
  unfold splineVolume
  have hm : measure (dim s) s.degrees.length = some fun J => (Matrix.of fun k i : Fin n => J k i).det := by
    rw [dim_eq hs hdim hne, hsn]
    simp [measure]
  rw [hm, hk]
  simp only [Option.bind_some, Option.isSome_none, hw]
  have := volume_patches leggauss n hn s.degrees hsn hg jacobian hj [s] (by
    intro b hb
    rw [List.mem_singleton] at hb
    subst hb
    exact ⟨hs, rfl, hk, hw⟩)
  rw [show (if false = true then BezierSpline.beziers needed insertKnot mults s else some [s]) = some [s] from rfl, Option.bind_some, this]
  have hp := (integral_patch s (poly n s) 0 1 (fun i => one_pos) (fun w _ k => by
    have := DetSpline.point_poly s hsn hk (by rw [hw]; rintro ws ⟨⟩) (List.ofFn w) (by simp) k
    rw [getD_ofFn] at this
    rw [poly, ← this]
    congr 2
    funext i
    simp)).2
  rw [List.map_singleton, List.sum_singleton, hp]

/-- C113: splines with the same parametric domain and the same points have the same integral, for example before and after knot insertion or degree elevation. -/
theorem integral_same_points (s q : Spline ℝ (List ℝ)) (n : ℕ) (hl : Spec.lower s n = Spec.lower q n) (hu : Spec.upper s n = Spec.upper q n)
    (h : ∀ x : Fin n → ℝ, (∀ i, Spec.lower s n i < x i ∧ x i < Spec.upper s n i) → ∀ k, point q (List.ofFn x) k = point s (List.ofFn x) k) :
    (∫ x in Set.Icc (Spec.lower q n) (Spec.upper q n), Spec.jacobianDet q n x) = ∫ x in Set.Icc (Spec.lower s n) (Spec.upper s n), Spec.jacobianDet s n x := by
  rw [← hl, ← hu]
  generalize Spec.lower s n = a at *
  generalize Spec.upper s n = b at *
  have e : (Set.univ.pi fun l => Set.Ioo (a l) (b l)) =ᵐ[MeasureTheory.volume] Set.Icc a b := Measure.univ_pi_Ioo_ae_eq_Icc
  have hm : MeasurableSet (Set.univ.pi fun l => Set.Ioo (a l) (b l)) := MeasurableSet.univ_pi fun l => measurableSet_Ioo
  rw [← setIntegral_congr_set e, ← setIntegral_congr_set e]
  refine setIntegral_congr_fun hm fun x hx => ?_
  unfold Spec.jacobianDet
  congr 1
  ext k i
  simp only [Matrix.of_apply]
  have hi := hx i trivial
  refine Filter.EventuallyEq.deriv_eq ?_
  filter_upwards [Ioo_mem_nhds hi.1 hi.2] with t ht
  refine h _ (fun j => ?_) k
  by_cases hj : j = i
  · subst hj; simpa using ht
  · rw [Function.update_of_ne hj]; exact hx j trivial

/-- C113: with fewer coordinates than parametric directions `volume` raises. -/
theorem volume_raises (leggauss : ℕ → List ℝ × List ℝ) (jacobian : Spline ℝ (List ℝ) → List ℝ → ℕ → ℕ → ℝ)
    (needed : Spline ℝ (List ℝ) → ℕ → List ℝ) (insertKnot : Spline ℝ (List ℝ) → ℕ → ℝ → Option (Spline ℝ (List ℝ))) (mults : List ℝ → List ℕ)
    (orders : Option (List ℤ)) (s : Spline ℝ (List ℝ)) (h : (s.controlPoints.headD []).length < s.degrees.length) :
    splineVolume leggauss jacobian needed insertKnot mults orders s = none := by
  have hd : dim s < s.degrees.length := h
  unfold splineVolume measure
  rw [if_neg hd.ne, if_neg (not_lt.2 hd.le)]
  rfl

/-- The contract of the Jacobians is met by a function. -/
theorem jacobians_exist (n : ℕ) : Spec.Jacobians n fun b u k i => deriv (fun x => point b (u.set i x) k) (u.getD i 0) := by
  intro b hb hn hk hw u hu k i
  refine DifferentiableAt.hasDerivAt ?_
  have h1 : (fun x => point b (u.set i x) k) = fun x => eval (Function.update (fun i : Fin n => u.getD i 0) i x) (poly n b k) := by
    funext x
    rw [DetSpline.point_poly b hn hk (by rw [hw]; rintro ws ⟨⟩) (u.set i x) (by simpa using hu) k, poly]
    congr 2
    funext j
    by_cases h : j = i
    · subst h
      rw [Function.update_self, List.getD_eq_getElem _ 0 (by simp; omega), List.getElem_set_self]
    · rw [Function.update_of_ne h, List.getD_eq_getElem _ 0 (by simp; omega), List.getElem_set_ne (by omega), List.getD_eq_getElem _ 0 (by omega)]
  rw [h1]
  exact (DetSpline.hasDerivAt_eval (poly n b k) (fun i => u.getD i 0) i).differentiableAt

/-- Hypotheses of C113 met: a linear spline on two knot spans, with functions that meet the contracts. -/
example : splineVolume (fun _ => gauss2) (fun b u k i => deriv (fun x => point b (u.set i x) k) (u.getD i 0)) BezierSpline.missing (BezierSpline.someInsert (1/1000))
      BezierSpline.runs none ⟨[1], some [[0, 0, 1/2, 1, 1]], none, [[0], [2], [3]]⟩ =
    some (∫ x in Set.Icc (Spec.lower ⟨[1], some [[0, 0, 1/2, 1, 1]], none, [[0], [2], [3]]⟩ 1) (Spec.upper ⟨[1], some [[0, 0, 1/2, 1, 1]], none, [[0], [2], [3]]⟩ 1),
      Spec.jacobianDet ⟨[1], some [[0, 0, 1/2, 1, 1]], none, [[0], [2], [3]]⟩ 1 x) := by
  have hval : ValidSpline (⟨[1], some [[0, 0, 1/2, 1, 1]], none, [[0], [2], [3]]⟩ : Spline ℝ (List ℝ)) := by
    refine ⟨by rintro kvs ⟨⟩; rfl, ?_, by rfl, by rintro ws ⟨⟩⟩
    intro d hd
    simp only [directions, List.zipWith_cons_cons, List.zipWith_nil_left, List.mem_singleton] at hd
    subst hd
    rintro kv ⟨⟩
    refine ⟨by simp; norm_num, by simp, ?_⟩
    simp [Direction.lower, Direction.upper, knotSeq]
  have hon : BezierSpline.On (⟨[1], some [[0, 0, 1/2, 1, 1]], none, [[0], [2], [3]]⟩ : Spline ℝ (List ℝ)) [⟨1, 0, [(1/2, 1)], 1⟩] := ⟨rfl, rfl⟩
  have hv : ∀ d ∈ [(⟨1, 0, [(1/2, 1)], 1⟩ : Dim ℝ)], d.Valid (1/1000) := by
    intro d hd
    rw [List.mem_singleton] at hd
    subst hd
    refine ⟨le_rfl, by simp, ?_⟩
    simp [Dim.groups]
    norm_num
  refine volume_integral (tol := 1/1000) (by norm_num) _ BezierSpline.missing_needed _ (BezierSpline.runs_multiplicities (by norm_num)) _ _
    (BezierSpline.someInsert_inserts (by norm_num)) 1 one_pos _ (jacobians_exist 1) _ _ hv _ hval ⟨hval, ⟨_, hv, hon⟩, 1, by simp⟩ hon rfl (by simp) rfl ?_
  intro o m ho hm
  simp [quadOrders] at ho
  subst ho
  simp at hm
  subst hm
  exact gauss2_ok

/-- C113 with numbers: the straight line from 1 to 4 has the volume 3. -/
example : splineVolume (fun _ => gauss2) (fun b u k i => deriv (fun x => point b (u.set i x) k) (u.getD i 0)) (fun _ _ => []) (fun _ _ _ => none)
      (fun _ => []) none ⟨[1], none, none, [[1], [4]]⟩ = some 3 := by
  have hval : ValidSpline (⟨[1], none, none, [[1], [4]]⟩ : Spline ℝ (List ℝ)) := by
    refine ⟨(by rintro kvs ⟨⟩), ?_, by rfl, by rintro ws ⟨⟩⟩
    intro d hd
    simp only [directions, List.map_cons, List.map_nil, List.mem_singleton] at hd
    subst hd
    rintro kv ⟨⟩
  rw [volume_integral_bezier _ _ _ 1 one_pos _ (jacobians_exist 1) _ _ hval rfl rfl (by simp) rfl (by
    intro o m ho hm
    simp [quadOrders] at ho
    subst ho
    simp at hm
    subst hm
    exact gauss2_ok)]
  have hG : ∀ x : Fin 1 → ℝ, Spec.jacobianDet ⟨[1], none, none, [[1], [4]]⟩ 1 x = 3 := by
    intro x
    unfold Spec.jacobianDet
    rw [Matrix.det_fin_one, Matrix.of_apply]
    have e : (fun t => point (⟨[1], none, none, [[1], [4]]⟩ : Spline ℝ (List ℝ)) (List.ofFn (Function.update x 0 t)) ((0 : Fin 1) : ℕ)) = fun t => 1 + 3 * t := by
      funext t
      simp [point, value, netSize, directions, basisValues, Direction.basis, Direction.size, tensorEval, basisProduct, digits, List.range_succ, bernstein]
      ring
    rw [e]
    simpa using (((hasDerivAt_id (x 0)).const_mul 3).const_add 1).deriv
  simp only [hG]
  rw [setIntegral_const, Measure.real, Real.volume_Icc_pi]
  simp

end Splinepy.Volume
