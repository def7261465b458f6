import Verif.Model.Integrate
import Verif.Props.Index
import Mathlib.Algebra.MvPolynomial.PDeriv
import Mathlib.Algebra.MvPolynomial.Degrees
import Mathlib.LinearAlgebra.Matrix.Determinant.Basic
import Mathlib.MeasureTheory.Integral.Pi
import Mathlib.Analysis.SpecialFunctions.Integrals.Basic
import Mathlib.Topology.Algebra.MvPolynomial

/-!
C32, C33: quadrature.
-/
set_option linter.unusedSectionVars false
namespace Splinepy.Integrate
open MeasureTheory Splinepy.Spec

/-! ### Specification -/

/-- Contract of `leggauss(m)`: points in `(-1, 1)`, positive weights, one weight per point, and polynomials of degree below
`2 m` are integrated exactly over `[-1, 1]`. -/
structure Spec.IsGaussLegendre (m : ℕ) (g : List ℝ × List ℝ) : Prop where
  length : g.1.length = g.2.length
  mem : ∀ x ∈ g.1, -1 < x ∧ x < 1
  pos : ∀ w ∈ g.2, 0 < w
  exact : ∀ P : Polynomial ℝ, P.natDegree < 2 * m →
    (List.zipWith (fun x w => P.eval x * w) g.1 g.2).sum = ∫ x in (-1)..1, P.eval x

/-- Polynomial maps from the unit cube with degree at most `degrees i` in direction `i`: every Bezier patch is one. -/
def Spec.HasDegrees (n : ℕ) (degrees : List ℕ) (φ : Fin n → MvPolynomial (Fin n) ℝ) : Prop :=
  ∀ k i : Fin n, (φ k).degreeOf i ≤ degrees.getD i 0

/-- Determinant of the Jacobian of a polynomial map. -/
noncomputable def Spec.jacobianDet {n : ℕ} (φ : Fin n → MvPolynomial (Fin n) ℝ) : MvPolynomial (Fin n) ℝ :=
  Matrix.det (Matrix.of fun k j => MvPolynomial.pderiv j (φ k))

/-- Integral over the unit cube. -/
noncomputable def Spec.cubeIntegral {n : ℕ} (F : (Fin n → ℝ) → ℝ) : ℝ := ∫ x in Set.Icc (0 : Fin n → ℝ) 1, F x

/-- Row of coordinates as a point. -/
def Spec.pointOf (n : ℕ) (r : List ℝ) : Fin n → ℝ := fun i => r.getD i 0

/-! ### Tensor sums -/

theorem firstFastest_map {α β : Type*} (f : α → β) (A : List (List α)) :
    firstFastest (A.map (List.map f)) = (firstFastest A).map (List.map f) := by
  induction A with
  | nil => rfl
  | cons a A ih =>
    simp only [List.map_cons, firstFastest, ih, List.flatMap_map, List.map_flatMap, List.map_map]
    rfl

theorem sum_flatMap {α : Type*} (l : List α) (f : α → List ℝ) : (l.flatMap f).sum = (l.map fun a => (f a).sum).sum := by
  induction l with
  | nil => rfl
  | cons a l ih => simp [ih]

/-- The sum of products over all combinations is the product of the sums. -/
theorem tensor_sum {α : Type*} (gs : List (α → ℝ)) (A : List (List α)) (h : gs.length = A.length) :
    ((firstFastest A).map fun r => (List.zipWith (fun g a => g a) gs r).prod).sum =
      (List.zipWith (fun g l => (l.map g).sum) gs A).prod := by
  induction A generalizing gs with
  | nil =>
    have : gs = [] := List.length_eq_zero_iff.1 (by simpa using h)
    subst this
    simp [firstFastest]
  | cons a A ih =>
    obtain ⟨g, gs, rfl⟩ : ∃ g gs', gs = g :: gs' := by
      cases gs with
      | nil => simp at h
      | cons g gs => exact ⟨g, gs, rfl⟩
    have h' : gs.length = A.length := by simpa using h
    simp only [firstFastest, List.map_flatMap, List.map_map, sum_flatMap, List.zipWith_cons_cons, List.prod_cons]
    rw [← ih gs h', ← List.sum_map_mul_left]
    congr 1
    apply List.map_congr_left
    intro r _
    rw [← List.sum_map_mul_right]
    congr 1

theorem zipWith_ofFn {α β : Type*} {n : ℕ} (f : Fin n → α → β) (r : List α) (d : α) (h : r.length = n) :
    List.zipWith (fun g a => g a) (List.ofFn f) r = List.ofFn fun i : Fin n => f i (r.getD i d) := by
  apply List.ext_getElem
  · simp [h]
  · intro i h1 h2
    simp only [List.length_ofFn] at h2
    simp only [List.getElem_zipWith, List.getElem_ofFn]
    rw [List.getD_eq_getElem _ _ (by omega)]

/-! ### The rule of the code -/

/-- Points and weights of one dimension, mapped to the unit interval. -/
noncomputable def pairs (g : List ℝ × List ℝ) : List (ℝ × ℝ) :=
  (g.1.map fun p => p * (1 / 2) + 1 / 2).zip (g.2.map fun w => w * (1 / 2))

theorem pairs_fst {m : ℕ} {g : List ℝ × List ℝ} (h : Spec.IsGaussLegendre m g) :
    (pairs g).map Prod.fst = g.1.map fun p => p * (1 / 2) + 1 / 2 := by
  unfold pairs
  rw [List.map_fst_zip]
  simp [h.length]

theorem pairs_snd {m : ℕ} {g : List ℝ × List ℝ} (h : Spec.IsGaussLegendre m g) :
    (pairs g).map Prod.snd = g.2.map fun w => w * (1 / 2) := by
  unfold pairs
  rw [List.map_snd_zip]
  simp [h.length]

theorem rows_eq (A : List (List ℝ)) (h : A ≠ []) : rows A = some (firstFastest A) := by
  unfold rows
  rw [Index.cartesian_product_reverse A h]
  simp [Function.comp_def]

theorem quadrature_eq (leggauss : ℕ → List ℝ × List ℝ) (degrees : List ℕ) (rational : Bool) (orders : Option (List ℤ))
    (o : List ℤ) (ho : quadOrders degrees rational orders = some o) (hne : o ≠ []) (hpos : ∀ m ∈ o, 0 < m)
    (hg : ∀ m ∈ o, Spec.IsGaussLegendre m.toNat (leggauss m.toNat)) :
    quadrature leggauss degrees rational orders = some
      ((firstFastest (o.map fun m => pairs (leggauss m.toNat))).map (List.map Prod.fst),
       (firstFastest (o.map fun m => pairs (leggauss m.toNat))).map fun r => (r.map Prod.snd).prod) := by
  unfold quadrature
  rw [ho]
  dsimp only
  rw [Grid.mapM_eq_some_map' (rule1 leggauss) (fun m => ((leggauss m.toNat).1.map fun p => p * (1 / 2) + 1 / 2,
    (leggauss m.toNat).2.map fun w => w * (1 / 2)))]
  · dsimp only
    rw [rows_eq _ (by simpa using hne), rows_eq _ (by simpa using hne)]
    dsimp only
    congr 2
    · rw [← firstFastest_map, List.map_map, List.map_map]
      congr 1
      apply List.map_congr_left
      intro m hm
      exact (pairs_fst (hg m hm)).symm
    · have : (fun r : List (ℝ × ℝ) => (r.map Prod.snd).prod) = List.prod ∘ List.map Prod.snd := rfl
      rw [this, ← List.map_map, ← firstFastest_map, List.map_map, List.map_map]
      congr 2
      apply List.map_congr_left
      intro m hm
      exact (pairs_snd (hg m hm)).symm
  · intro m hm
    have := hpos m hm
    unfold rule1
    rw [if_neg (by omega)]

theorem pow_rule {m : ℕ} {g : List ℝ × List ℝ} (h : Spec.IsGaussLegendre m g) (k : ℕ) (hk : k < 2 * m) :
    ((pairs g).map fun a => a.1 ^ k * a.2).sum = ∫ x in (0 : ℝ)..1, x ^ k := by
  have h1 := h.exact ((Polynomial.C (1 / 2) * (Polynomial.X + 1)) ^ k) (by
    refine lt_of_le_of_lt (Polynomial.natDegree_pow_le) ?_
    refine lt_of_le_of_lt (Nat.mul_le_mul_left k (m := 1) ?_) (by omega)
    refine (Polynomial.natDegree_C_mul_le _ _).trans ?_
    refine (Polynomial.natDegree_add_le _ _).trans ?_
    simp)
  have h2 : ((pairs g).map fun a => a.1 ^ k * a.2).sum = 1 / 2 *
      (List.zipWith (fun x w => ((Polynomial.C (1 / 2) * (Polynomial.X + 1)) ^ k : Polynomial ℝ).eval x * w) g.1 g.2).sum := by
    unfold pairs
    have hz : ∀ (a b : List ℝ) (f : ℝ → ℝ → ℝ), List.zipWith f a b = (a.zip b).map fun t => f t.1 t.2 := by
      intro a b f
      rw [List.zip_eq_zipWith, List.map_zipWith]
    rw [List.zip_map, List.map_map, hz, ← List.sum_map_mul_left]
    congr 1
    apply List.map_congr_left
    intro t _
    simp only [Function.comp, Prod.map, Polynomial.eval_pow, Polynomial.eval_mul, Polynomial.eval_C,
      Polynomial.eval_add, Polynomial.eval_X, Polynomial.eval_one]
    ring
  rw [h2, h1]
  have h3 : ∀ x : ℝ, ((Polynomial.C (1 / 2) * (Polynomial.X + 1)) ^ k : Polynomial ℝ).eval x =
      (x / 2 + 1 / 2) ^ k := by
    intro x
    simp only [Polynomial.eval_pow, Polynomial.eval_mul, Polynomial.eval_C,
      Polynomial.eval_add, Polynomial.eval_X, Polynomial.eval_one]
    ring
  simp only [h3]
  rw [intervalIntegral.integral_comp_div_add (fun x => x ^ k) (by norm_num : (2 : ℝ) ≠ 0) (1 / 2)]
  norm_num
  ring

theorem cube_monomial {n : ℕ} (k : Fin n → ℕ) :
    Spec.cubeIntegral (fun x : Fin n → ℝ => ∏ i, x i ^ k i) = ∏ i, ∫ x in (0 : ℝ)..1, x ^ k i := by
  unfold Spec.cubeIntegral
  have : Set.Icc (0 : Fin n → ℝ) 1 = Set.univ.pi fun _ => Set.Icc (0 : ℝ) 1 := by
    rw [← Set.pi_univ_Icc]; rfl
  rw [this, volume_pi, Measure.restrict_pi_pi]
  rw [integral_fintype_prod_eq_prod (𝕜 := ℝ) (fun i (x : ℝ) => x ^ k i)]
  refine Finset.prod_congr rfl fun i _ => ?_
  rw [intervalIntegral.integral_of_le (by norm_num), integral_Icc_eq_integral_Ioc]

/-- The rule of the code integrates every polynomial exactly whose degree in direction `i` is below `2 m_i`. -/
theorem rule_exact (leggauss : ℕ → List ℝ × List ℝ) (degrees : List ℕ) (rational : Bool) (orders : Option (List ℤ))
    (o : List ℤ) (ho : quadOrders degrees rational orders = some o) (hne : o ≠ []) (hpos : ∀ m ∈ o, 0 < m)
    (hg : ∀ m ∈ o, Spec.IsGaussLegendre m.toNat (leggauss m.toNat)) (n : ℕ) (hn : o.length = n)
    (F : MvPolynomial (Fin n) ℝ) (hF : ∀ i : Fin n, (F.degreeOf i : ℤ) < 2 * o.getD i 0) :
    ∃ q, quadrature leggauss degrees rational orders = some q ∧
      weightedSum (fun r => MvPolynomial.eval (Spec.pointOf n r) F) q =
        Spec.cubeIntegral fun x => MvPolynomial.eval x F := by
  refine ⟨_, quadrature_eq leggauss degrees rational orders o ho hne hpos hg, ?_⟩
  generalize hA : (o.map fun m => pairs (leggauss m.toNat)) = A
  have hAl : A.length = n := by rw [← hA]; simpa using hn
  have hrow : ∀ r ∈ firstFastest A, r.length = n := by
    intro r hr
    rw [mem_firstFastest] at hr
    rw [← hr.length_eq, hAl]
  unfold weightedSum
  dsimp only
  rw [List.zipWith_map, List.zipWith_self]
  have hint : Spec.cubeIntegral (fun x => MvPolynomial.eval x F) =
      ∑ d ∈ F.support, F.coeff d * ∏ i, ∫ x in (0 : ℝ)..1, x ^ d i := by
    unfold Spec.cubeIntegral
    simp only [MvPolynomial.eval_eq']
    rw [integral_finsetSum]
    · refine Finset.sum_congr rfl fun d _ => ?_
      rw [integral_const_mul]
      congr 1
      exact cube_monomial fun i => d i
    · intro d _
      apply Continuous.integrableOn_Icc
      fun_prop
  rw [hint]
  have hsum : (firstFastest A).map (fun r => MvPolynomial.eval (Spec.pointOf n (r.map Prod.fst)) F * (r.map Prod.snd).prod) =
      (firstFastest A).map fun r => ∑ d ∈ F.support, F.coeff d *
        (List.zipWith (fun g a => g a) (List.ofFn fun (i : Fin n) (a : ℝ × ℝ) => a.1 ^ d i * a.2) r).prod := by
    apply List.map_congr_left
    intro r hr
    have hl := hrow r hr
    rw [MvPolynomial.eval_eq', Finset.sum_mul]
    refine Finset.sum_congr rfl fun d _ => ?_
    rw [mul_assoc]
    congr 1
    rw [zipWith_ofFn _ r (0, 0) hl, List.prod_ofFn, Finset.prod_mul_distrib]
    congr 1
    · refine Finset.prod_congr rfl fun i _ => ?_
      have hi := i.isLt
      unfold Spec.pointOf
      rw [List.getD_eq_getElem _ _ (by simp; omega), List.getD_eq_getElem _ _ (by omega), List.getElem_map]
    · rw [← List.prod_ofFn]
      congr 1
      apply List.ext_getElem
      · simp [hl]
      · intro i h1 h2
        simp only [List.length_map] at h1
        simp only [List.getElem_map, List.getElem_ofFn]
        rw [List.getD_eq_getElem _ _ h1]
  rw [hsum]
  have hswap : ∀ (L : List (List (ℝ × ℝ))) (G : (Fin n →₀ ℕ) → List (ℝ × ℝ) → ℝ),
      (L.map fun r => ∑ d ∈ F.support, F.coeff d * G d r).sum = ∑ d ∈ F.support, F.coeff d * (L.map (G d)).sum := by
    intro L G
    induction L with
    | nil => simp
    | cons r L ih => simp [ih, Finset.sum_add_distrib, mul_add]
  rw [hswap]
  refine Finset.sum_congr rfl fun d hd => ?_
  congr 1
  rw [tensor_sum _ _ (by simp [hAl])]
  have hz : List.zipWith (fun (g : ℝ × ℝ → ℝ) (l : List (ℝ × ℝ)) => (l.map g).sum)
      (List.ofFn fun (i : Fin n) (a : ℝ × ℝ) => a.1 ^ d i * a.2) A =
      List.ofFn fun i : Fin n => ∫ x in (0 : ℝ)..1, x ^ d i := by
    apply List.ext_getElem
    · simp [hAl]
    · intro i h1 h2
      simp only [List.length_ofFn] at h2
      simp only [List.getElem_zipWith, List.getElem_ofFn]
      have hi : i < o.length := by omega
      have hAi : A[i]'(by omega) = pairs (leggauss (o[i]).toNat) := by
        subst hA
        rw [List.getElem_map]
      rw [hAi]
      have hm : o[i] ∈ o := List.getElem_mem hi
      apply pow_rule (hg _ hm)
      have h3 := hF ⟨i, h2⟩
      have h4 : d ⟨i, h2⟩ ≤ F.degreeOf ⟨i, h2⟩ := MvPolynomial.degreeOf_le_iff.1 (le_refl _) d hd
      rw [List.getD_eq_getElem _ _ hi] at h3
      have h5 := hpos _ hm
      omega
  rw [hz, List.prod_ofFn]

/-! ### Degree of the Jacobian determinant -/

theorem degreeOf_pderiv_le {n : ℕ} (i j : Fin n) (P : MvPolynomial (Fin n) ℝ) :
    (MvPolynomial.pderiv j P).degreeOf i ≤ P.degreeOf i := by
  rw [MvPolynomial.degreeOf_le_iff]
  intro m hm
  rw [MvPolynomial.mem_support_iff, MvPolynomial.coeff_pderiv] at hm
  have h1 : m + Finsupp.single j 1 ∈ P.support := by
    rw [MvPolynomial.mem_support_iff]
    intro h0
    rw [h0] at hm
    simp at hm
  have h2 := MvPolynomial.degreeOf_le_iff.1 (le_refl (P.degreeOf i)) _ h1
  exact le_trans (by simp) h2

theorem degreeOf_det_le {n : ℕ} (M : Matrix (Fin n) (Fin n) (MvPolynomial (Fin n) ℝ)) (i : Fin n) (p : ℕ)
    (h : ∀ a b, (M a b).degreeOf i ≤ p) : (Matrix.det M).degreeOf i ≤ n * p := by
  rw [Matrix.det_apply]
  refine (MvPolynomial.degreeOf_sum_le _ _ _).trans (Finset.sup_le fun σ _ => ?_)
  have h1 : (∏ a, M (σ a) a).degreeOf i ≤ n * p := by
    refine (MvPolynomial.degreeOf_prod_le _ _ _).trans ?_
    calc ∑ a, (M (σ a) a).degreeOf i ≤ ∑ _a : Fin n, p := Finset.sum_le_sum fun a _ => h _ _
      _ = n * p := by simp
  rcases Int.units_eq_one_or (Equiv.Perm.sign σ) with hs | hs
  · rw [hs, one_smul]; exact h1
  · rw [hs, Units.neg_smul, one_smul]
    rw [MvPolynomial.degreeOf_neg]
    exact h1

/-- C32: with default orders, the volume of a polynomial spline with `para_dim = dim` is the exact integral of the Jacobian
determinant over all its Bezier patches, in every parametric dimension and for all degrees. -/
theorem default_volume_exact (leggauss : ℕ → List ℝ × List ℝ) (n : ℕ) (hn : 0 < n) (degrees : List ℕ)
    (hd : degrees.length = n) (rational : Bool)
    (hg : ∀ o m, quadOrders degrees rational none = some o → m ∈ o → Spec.IsGaussLegendre m.toNat (leggauss m.toNat))
    (patches : List (Fin n → MvPolynomial (Fin n) ℝ)) (hp : ∀ φ ∈ patches, Spec.HasDegrees n degrees φ) :
    volume leggauss degrees rational none
        (patches.map fun φ r => MvPolynomial.eval (Spec.pointOf n r) (Spec.jacobianDet φ)) =
      some ((patches.map fun φ => Spec.cubeIntegral fun x => MvPolynomial.eval x (Spec.jacobianDet φ)).sum) := by
  obtain ⟨o, ho⟩ : ∃ o, quadOrders degrees rational none = some o := ⟨_, rfl⟩
  have ho' := ho
  simp only [quadOrders, Option.some.injEq] at ho'
  have hol : o.length = n := by rw [← ho']; simpa using hd
  have hget : ∀ i : Fin n, ((n * degrees.getD i 0 : ℕ) : ℤ) < 2 * o.getD i 0 := by
    intro i
    have hi := i.isLt
    rw [List.getD_eq_getElem _ _ (by omega), List.getD_eq_getElem _ _ (by omega)]
    simp only [← ho', List.getElem_map, hd]
    rw [Nat.mul_comm n]
    generalize degrees[i] * n = e
    split_ifs <;> omega
  have hpos : ∀ m ∈ o, 0 < m := by
    intro m hm
    rw [← ho', List.mem_map] at hm
    obtain ⟨p, -, rfl⟩ := hm
    generalize p * degrees.length = e
    split_ifs <;> omega
  have hne : o ≠ [] := by
    intro h0
    rw [h0] at hol
    simp at hol
    omega
  unfold volume
  obtain ⟨q, hq, -⟩ := rule_exact leggauss degrees rational none o ho hne hpos (fun m hm => hg o m ho hm) n hol 0
    (fun i => by
      have := hget i
      simp only [MvPolynomial.degreeOf_zero]
      omega)
  rw [hq]
  simp only [Option.map_some, Option.some.injEq, List.map_map]
  congr 1
  apply List.map_congr_left
  intro φ hφ
  obtain ⟨q', hq', h2⟩ := rule_exact leggauss degrees rational none o ho hne hpos (fun m hm => hg o m ho hm) n hol
    (Spec.jacobianDet φ) (fun i => by
      refine lt_of_le_of_lt (Nat.cast_le.2 ?_) (hget i)
      apply degreeOf_det_le
      intro a b
      exact (degreeOf_pderiv_le i b (φ a)).trans (hp φ hφ a i))
  rw [hq] at hq'
  cases hq'
  exact h2

/-- C32: for all orders, default or given, the weights sum to the measure one of the unit cube and are positive, and all points
lie inside the unit cube. -/
theorem rule_weights_points (leggauss : ℕ → List ℝ × List ℝ) (degrees : List ℕ) (hd : degrees ≠ []) (rational : Bool)
    (orders : Option (List ℤ))
    (hg : ∀ o m, quadOrders degrees rational orders = some o → m ∈ o → Spec.IsGaussLegendre m.toNat (leggauss m.toNat))
    (q : List (List ℝ) × List ℝ) (hq : quadrature leggauss degrees rational orders = some q) :
    q.2.sum = 1 ∧ q.1.length = q.2.length ∧ (∀ w ∈ q.2, 0 < w) ∧
      ∀ r ∈ q.1, r.length = degrees.length ∧ ∀ x ∈ r, 0 < x ∧ x < 1 := by
  have h0 := hq
  unfold quadrature at h0
  cases ho : quadOrders degrees rational orders with
  | none => rw [ho] at h0; simp at h0
  | some o =>
    rw [ho] at h0
    dsimp only at h0
    have hol : o.length = degrees.length := by
      unfold quadOrders at ho
      cases orders with
      | none => simp only [Option.some.injEq] at ho; rw [← ho]; simp
      | some l =>
        simp only at ho
        split_ifs at ho with hc
        cases ho
        exact not_not.1 hc
    have hne : o ≠ [] := by
      intro hc
      rw [hc] at hol
      exact hd (List.length_eq_zero_iff.1 hol.symm)
    have hpos : ∀ m ∈ o, 0 < m := by
      intro m hm
      by_contra hc
      rw [Grid.mapM_none_of_mem (rule1 leggauss) o m hm (by unfold rule1; rw [if_pos (by omega)])] at h0
      simp at h0
    have hgo := fun m hm => hg o m ho hm
    have hqe := quadrature_eq leggauss degrees rational orders o ho hne hpos hgo
    rw [hq] at hqe
    have hqe := Option.some.inj hqe
    refine ⟨?_, by rw [hqe]; simp, ?_, ?_⟩
    · obtain ⟨q', hq', h2⟩ := rule_exact leggauss degrees rational orders o ho hne hpos hgo o.length rfl 1 (fun i => by
        have hi := i.isLt
        have := hpos _ (List.getElem_mem hi)
        rw [List.getD_eq_getElem _ _ hi, MvPolynomial.degreeOf_one]
        push_cast
        omega)
      rw [hq] at hq'
      cases hq'
      have h3 : weightedSum (fun r => MvPolynomial.eval (Spec.pointOf o.length r) (1 : MvPolynomial (Fin o.length) ℝ)) q =
          q.2.sum := by
        unfold weightedSum
        have hl : q.1.length = q.2.length := by rw [hqe]; simp
        congr 1
        apply List.ext_getElem
        · simp [hl]
        · intro i h1 h2
          simp
      rw [← h3, h2]
      have h4 := cube_monomial (n := o.length) (fun _ => 0)
      simp only [pow_zero, Finset.prod_const_one] at h4
      simp only [map_one]
      rw [h4]
      simp
    · rw [hqe]
      intro w hw
      obtain ⟨r, hr, rfl⟩ := List.mem_map.1 hw
      rw [mem_firstFastest] at hr
      apply List.prod_pos
      intro x hx
      obtain ⟨a, ha, rfl⟩ := List.mem_map.1 hx
      obtain ⟨i, hi, rfl⟩ := List.getElem_of_mem ha
      have hri := (List.forall₂_iff_get.1 hr).2 i (by rw [hr.length_eq]; exact hi) hi
      simp only [List.get_eq_getElem, List.getElem_map] at hri
      have hi' : i < o.length := by
        have := hr.length_eq
        simp at this
        omega
      have hm : o[i] ∈ o := List.getElem_mem hi'
      have h5 : r[i].2 ∈ (pairs (leggauss (o[i]).toNat)).map Prod.snd := List.mem_map.2 ⟨_, hri, rfl⟩
      rw [pairs_snd (hgo _ hm)] at h5
      obtain ⟨w, hw, he⟩ := List.mem_map.1 h5
      have := (hgo _ hm).pos w hw
      rw [← he]
      linarith
    · rw [hqe]
      intro p hp
      obtain ⟨r, hr, rfl⟩ := List.mem_map.1 hp
      rw [mem_firstFastest] at hr
      have hrl := hr.length_eq
      simp only [List.length_map] at hrl
      refine ⟨by rw [List.length_map, ← hrl, hol], fun x hx => ?_⟩
      obtain ⟨a, ha, rfl⟩ := List.mem_map.1 hx
      obtain ⟨i, hi, rfl⟩ := List.getElem_of_mem ha
      have hri := (List.forall₂_iff_get.1 hr).2 i (by rw [hr.length_eq]; exact hi) hi
      simp only [List.get_eq_getElem, List.getElem_map] at hri
      have hi' : i < o.length := by omega
      have hm : o[i] ∈ o := List.getElem_mem hi'
      have h5 : r[i].1 ∈ (pairs (leggauss (o[i]).toNat)).map Prod.fst := List.mem_map.2 ⟨_, hri, rfl⟩
      rw [pairs_fst (hgo _ hm)] at h5
      obtain ⟨w, hw, he⟩ := List.mem_map.1 h5
      have := (hgo _ hm).mem w hw
      rw [← he]
      constructor <;> linarith

/-! ### Functions over the geometry -/

/-- What the code computes for an integrand that is polynomial on every knot element (`P e` is the integrand on element `e`,
pulled back to the unit cube): the sum of the integrals over the unit cube, without the size of the elements. -/
theorem parametric_function_value (leggauss : ℕ → List ℝ × List ℝ) (degrees : List ℕ) (rational : Bool)
    (orders : Option (List ℤ)) (o : List ℤ) (ho : quadOrders degrees rational orders = some o) (hne : o ≠ [])
    (hpos : ∀ m ∈ o, 0 < m) (hg : ∀ m ∈ o, Spec.IsGaussLegendre m.toNat (leggauss m.toNat)) (n : ℕ) (hn : o.length = n)
    (uks : List (List ℝ)) (meas f : List ℝ → ℝ) (P : List (ℝ × ℝ) → MvPolynomial (Fin n) ℝ)
    (hP : ∀ e ∈ firstFastest (uks.map spans), ∀ r : List ℝ, r.length = n →
      f (mapInto e r) * meas (mapInto e r) = MvPolynomial.eval (Spec.pointOf n r) (P e))
    (hD : ∀ e ∈ firstFastest (uks.map spans), ∀ i : Fin n, ((P e).degreeOf i : ℤ) < 2 * o.getD i 0) :
    parametricFunction leggauss degrees rational orders (some uks) meas f =
      some (((firstFastest (uks.map spans)).map fun e => Spec.cubeIntegral fun x => MvPolynomial.eval x (P e)).sum) := by
  unfold parametricFunction
  have hq := quadrature_eq leggauss degrees rational orders o ho hne hpos hg
  rw [hq]
  simp only [Option.map_some, Option.some.injEq]
  congr 1
  apply List.map_congr_left
  intro e he
  obtain ⟨q', hq', h2⟩ := rule_exact leggauss degrees rational orders o ho hne hpos hg n hn (P e) (hD e he)
  rw [hq] at hq'
  rw [← h2, ← Option.some.inj hq']
  unfold weightedSum
  dsimp only
  rw [List.zipWith_map, List.zipWith_self, List.zipWith_map, List.zipWith_self]
  congr 1
  apply List.map_congr_left
  intro r hr
  rw [mem_firstFastest] at hr
  have hl := hr.length_eq
  rw [hP e he _ (by simp only [List.length_map] at hl ⊢; omega)]

/-- C33 (partial): for a spline with a single knot element that is the unit cube (and for splines without knot vectors) the
result is the integral of the function times the measure, for every polynomial integrand covered by the order.
Missing: other elements, where the size of the element is ignored and the claim is false (`knot_spans_violates`). -/
theorem parametric_function_partial (leggauss : ℕ → List ℝ × List ℝ) (degrees : List ℕ) (rational : Bool)
    (orders : Option (List ℤ)) (o : List ℤ) (ho : quadOrders degrees rational orders = some o) (hne : o ≠ [])
    (hpos : ∀ m ∈ o, 0 < m) (hg : ∀ m ∈ o, Spec.IsGaussLegendre m.toNat (leggauss m.toNat)) (n : ℕ) (hn : o.length = n)
    (uks : Option (List (List ℝ))) (huk : uks = none ∨ uks = some (List.replicate n [0, 1]))
    (F M : MvPolynomial (Fin n) ℝ) (hD : ∀ i : Fin n, ((F * M).degreeOf i : ℤ) < 2 * o.getD i 0) :
    parametricFunction leggauss degrees rational orders uks (fun r => MvPolynomial.eval (Spec.pointOf n r) M)
        (fun r => MvPolynomial.eval (Spec.pointOf n r) F) =
      some (Spec.cubeIntegral fun x => MvPolynomial.eval x F * MvPolynomial.eval x M) := by
  rcases huk with rfl | rfl
  · obtain ⟨q, hq, h2⟩ := rule_exact leggauss degrees rational orders o ho hne hpos hg n hn (F * M) hD
    unfold parametricFunction
    rw [hq]
    simp only [map_mul] at h2
    simp only [Option.map_some, h2]
  · have hff : firstFastest ((List.replicate n [(0 : ℝ), 1]).map spans) = [List.replicate n (0, 1)] := by
      rw [List.map_replicate]
      have : spans [(0 : ℝ), 1] = [(0, 1)] := by simp [spans]
      rw [this]
      clear hD hn M F
      induction n with
      | zero => rfl
      | succ n ih => simp [List.replicate_succ, firstFastest, ih]
    have hmap : ∀ r : List ℝ, r.length = n → mapInto (List.replicate n (0, 1)) r = r := by
      intro r hr
      unfold mapInto
      apply List.ext_getElem
      · simp [hr]
      · intro i h1 h2
        simp
    rw [parametric_function_value leggauss degrees rational orders o ho hne hpos hg n hn _ _ _ (fun _ => F * M)]
    · rw [hff]
      simp
    · intro e he r hr
      rw [hff, List.mem_singleton] at he
      subst he
      rw [hmap r hr, map_mul]
    · intro e _
      exact hD

/-- The two-point rule. -/
noncomputable def gauss2 : List ℝ × List ℝ := ([-(1 / Real.sqrt 3), 1 / Real.sqrt 3], [1, 1])

/-- The two-point rule meets the contract (so the hypotheses of this file can be met). -/
theorem gauss2_ok : Spec.IsGaussLegendre 2 gauss2 := by
  have h3 : (0 : ℝ) < Real.sqrt 3 := Real.sqrt_pos.2 (by norm_num)
  have hs : Real.sqrt 3 * Real.sqrt 3 = 3 := Real.mul_self_sqrt (by norm_num)
  have h1 : 1 < Real.sqrt 3 := by nlinarith
  have h4 : 1 / Real.sqrt 3 < 1 := by rw [div_lt_one h3]; exact h1
  have h5 : 0 < 1 / Real.sqrt 3 := by positivity
  refine ⟨rfl, ?_, ?_, ?_⟩
  · intro x hx
    simp only [gauss2, List.mem_cons, List.not_mem_nil, or_false] at hx
    rcases hx with rfl | rfl <;> constructor <;> linarith
  · intro w hw
    simp only [gauss2, List.mem_cons, List.not_mem_nil, or_false, or_self] at hw
    rw [hw]; norm_num
  · intro P hP
    have hsq : (1 / Real.sqrt 3) ^ 2 = 1 / 3 := by
      rw [div_pow, one_pow, pow_two, hs]
    have hev : ∀ x, P.eval x = P.coeff 0 + P.coeff 1 * x + P.coeff 2 * x ^ 2 + P.coeff 3 * x ^ 3 := by
      intro x
      rw [Polynomial.eval_eq_sum_range' (n := 4) (by omega)]
      simp [Finset.sum_range_succ]
    have hi : ∫ x in (-1 : ℝ)..1, P.eval x = 2 * P.coeff 0 + 2 / 3 * P.coeff 2 := by
      simp only [hev]
      rw [intervalIntegral.integral_add, intervalIntegral.integral_add, intervalIntegral.integral_add]
      · have hx : ∫ x in (-1 : ℝ)..1, P.coeff 1 * x = P.coeff 1 * ∫ x in (-1 : ℝ)..1, x :=
          intervalIntegral.integral_const_mul _ _
        rw [hx]
        simp only [intervalIntegral.integral_const_mul, integral_pow, integral_id, intervalIntegral.integral_const]
        norm_num
        ring
      all_goals exact Continuous.intervalIntegrable (by fun_prop) _ _
    rw [hi]
    simp only [gauss2, List.zipWith_cons_cons, List.zipWith_nil_left, List.sum_cons, List.sum_nil, hev]
    have hc : (1 / Real.sqrt 3) ^ 3 = 1 / 3 * (1 / Real.sqrt 3) := by rw [pow_succ, hsq]
    have hc' : (-(1 / Real.sqrt 3)) ^ 3 = - (1 / 3 * (1 / Real.sqrt 3)) := by rw [neg_pow, hc]; norm_num
    have hsq' : (-(1 / Real.sqrt 3)) ^ 2 = 1 / 3 := by rw [neg_sq, hsq]
    rw [hc, hc', hsq, hsq']
    ring

/-- C33 is false: the constant one on the straight line `S(u) = u` over `[0, 1]` integrates to one without interior knots and
to two with a knot at one half. -/
theorem knot_spans_violates :
    parametricFunction (fun _ => gauss2) [1] false none (some [[0, 1]]) (fun _ => 1) (fun _ => 1) = some 1 ∧
    parametricFunction (fun _ => gauss2) [1] false none (some [[0, 1 / 2, 1]]) (fun _ => 1) (fun _ => 1) = some 2 := by
  have h := rule_weights_points (fun _ => gauss2) [1] (by simp) false none (fun o m ho hm => by
    simp [quadOrders] at ho
    subst ho
    simp at hm
    subst hm
    exact gauss2_ok)
  obtain ⟨q, hq⟩ : ∃ q, quadrature (fun _ => gauss2) [1] false none = some q := by
    refine ⟨_, quadrature_eq (fun _ => gauss2) [1] false none [2] (by decide) (by simp) (by simp) ?_⟩
    intro m hm
    simp at hm
    subst hm
    exact gauss2_ok
  obtain ⟨h1, h2, -, -⟩ := h q hq
  have hw : weightedSum (fun _ : List ℝ => (1 : ℝ)) q = 1 := by
    refine Eq.trans ?_ h1
    unfold weightedSum
    congr 1
    apply List.ext_getElem
    · simp [h2]
    · intro i h1 h2
      simp
  constructor
  · unfold parametricFunction
    rw [hq]
    simp [spans, firstFastest, hw]
  · unfold parametricFunction
    rw [hq]
    simp [spans, firstFastest, hw]
    norm_num

/-- Hypotheses of the volume theorem are met: a straight line of length two, whose default rule has two points. -/
example : quadOrders [1] false none = some [2] ∧
    Spec.HasDegrees 1 [1] (fun _ => 2 * MvPolynomial.X 0) ∧
    volume (fun _ => gauss2) [1] false none
      [fun r => MvPolynomial.eval (Spec.pointOf 1 r) (Spec.jacobianDet fun _ => 2 * MvPolynomial.X 0)] = some 2 := by
  have hd : Spec.HasDegrees 1 [1] (fun _ => 2 * MvPolynomial.X 0) := by
    intro k i
    have hi : i = 0 := Subsingleton.elim _ _
    subst hi
    refine (MvPolynomial.degreeOf_C_mul_le _ 0 (2 : ℝ)).trans ?_
    rw [MvPolynomial.degreeOf_X]
    simp
  refine ⟨by decide, hd, ?_⟩
  have := default_volume_exact (fun _ => gauss2) 1 one_pos [1] rfl false (fun o m ho hm => by
    simp [quadOrders] at ho
    subst ho
    simp at hm
    subst hm
    exact gauss2_ok) [fun _ => 2 * MvPolynomial.X 0] (by simpa using hd)
  simp only [List.map_cons, List.map_nil] at this
  rw [this]
  have hj : Spec.jacobianDet (fun _ : Fin 1 => 2 * MvPolynomial.X 0) = MvPolynomial.C 2 := by
    unfold Spec.jacobianDet
    rw [Matrix.det_fin_one]
    simp only [Matrix.of_apply]
    have : (2 : MvPolynomial (Fin 1) ℝ) = MvPolynomial.C 2 := rfl
    rw [this, MvPolynomial.pderiv_C_mul, MvPolynomial.pderiv_X_self, mul_one]
  rw [hj]
  simp only [MvPolynomial.eval_C, List.sum_cons, List.sum_nil, add_zero, Option.some.injEq]
  have h4 := cube_monomial (n := 1) (fun _ => 0)
  simp only [pow_zero, Finset.prod_const_one] at h4
  unfold Spec.cubeIntegral at h4 ⊢
  have : (fun _ : Fin 1 → ℝ => (2 : ℝ)) = fun _ => 2 * 1 := by simp
  rw [this, integral_const_mul, h4]
  simp

end Splinepy.Integrate
