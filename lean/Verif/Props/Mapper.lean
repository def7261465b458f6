import Verif.Model.Mapper
import Mathlib.Analysis.Calculus.ContDiff.Basic
import Mathlib.Analysis.Calculus.InverseFunctionTheorem.ContDiff
import Mathlib.Analysis.Calculus.FDeriv.Pi
import Mathlib.Analysis.Calculus.ContDiff.Operations
import Mathlib.Topology.Algebra.Module.FiniteDimension
import Mathlib.LinearAlgebra.Matrix.ToLin
import Mathlib.LinearAlgebra.Matrix.NonsingularInverse
import Mathlib.Analysis.Calculus.Deriv.Pow
import Mathlib.Analysis.Calculus.Deriv.Mul
import Mathlib.Tactic.Ring
import Mathlib.Tactic.Linarith

/-!
C53: the mapper returns derivatives with respect to the physical coordinates.
-/
namespace Splinepy.Mapper

open Topology

variable {d v m : ℕ}

/-! ### specification -/

/-- Partial derivative with respect to coordinate `i`. -/
noncomputable def Spec.partialDeriv (h : (Fin d → ℝ) → ℝ) (i : Fin d) (u : Fin d → ℝ) : ℝ := fderiv ℝ h u (Pi.single i 1)

/-- Second partial derivative, first with respect to `i`, then with respect to `j`. -/
noncomputable def Spec.partialDeriv2 (h : (Fin d → ℝ) → ℝ) (i j : Fin d) (u : Fin d → ℝ) : ℝ :=
  Spec.partialDeriv (fun w => Spec.partialDeriv h i w) j u

/-- The splines return the partial derivatives of the basis functions `N` of the field and of the geometry `X`. -/
structure Spec.Returns (sp : Splines ℝ d m) (N : Fin m → (Fin d → ℝ) → ℝ) (X : (Fin d → ℝ) → Fin d → ℝ) (u : Fin d → ℝ) : Prop where
  basis1 : ∀ s i, sp.basisDerivative (eye i) s = Spec.partialDeriv (N s) i u
  basis2 : ∀ s i j, sp.basisDerivative (fun k => eye i k + eye j k) s = Spec.partialDeriv2 (N s) i j u
  geometry1 : ∀ c i, sp.geometryDerivative (eye i) c = Spec.partialDeriv (fun w => X w c) i u
  geometry2 : ∀ c i j, sp.geometryDerivative (fun k => eye i k + eye j k) c = Spec.partialDeriv2 (fun w => X w c) i j u

/-- A matrix inversion that, if it succeeds, returns the inverse. -/
def Spec.Inverts {K : Type} [Field K] (inv : Matrix (Fin d) (Fin d) K → Option (Matrix (Fin d) (Fin d) K)) : Prop :=
  ∀ J A, inv J = some A → J * A = 1

/-- `ψ` is `h` as function of the physical coordinates near the query. -/
structure Spec.InPhysicalSpace (h : (Fin d → ℝ) → ℝ) (ψ : (Fin d → ℝ) → ℝ) (X : (Fin d → ℝ) → Fin d → ℝ) (u : Fin d → ℝ) : Prop where
  composed : h =ᶠ[𝓝 u] fun w => ψ (X w)
  smooth : ContDiffAt ℝ 2 ψ (X u)

/-! ### the Jacobian -/

theorem jacobianLoop_spec {K : Type} [Field K] (derivative : (Fin d → ℕ) → Fin v → K) : ∀ (is : List (Fin d)) (out : Fin v → Fin d → K),
    (jacobianLoop derivative is (fun _ => 0, out)).2 = fun j k => if k ∈ is then derivative (eye k) j else out j k
  | [], out => by simp [jacobianLoop]
  | i :: is, out => by
    have h1 : Function.update (fun _ : Fin d => 0) i (0 + 1) = eye i := by
      funext k
      simp [eye, Function.update_apply]
    have h2 : Function.update (eye i) i (eye i i - 1) = fun _ : Fin d => 0 := by
      funext k
      by_cases hk : k = i
      · subst hk; simp [eye]
      · simp [eye, hk]
    simp only [jacobianLoop, h1, h2]
    rw [jacobianLoop_spec derivative is]
    funext j k
    by_cases hk : k ∈ is
    · simp [hk]
    · by_cases hki : k = i
      · subst hki; simp
      · simp [hk, hki]

theorem jacobian_entry {K : Type} [Field K] (derivative : (Fin d → ℕ) → Fin v → K) (c : Fin v) (i : Fin d) :
    jacobian derivative c i = derivative (eye i) c := by
  unfold jacobian
  rw [jacobianLoop_spec]
  simp [List.mem_finRange]

theorem mirrored_eq {K ι : Type} [Field K] (der : (Fin d → ℕ) → ι → K) (s : ι) (i j : Fin d) :
    mirrored der s i j = der (fun k => eye i k + eye j k) s := by
  unfold mirrored
  split
  · rfl
  · congr 1
    funext k
    exact Nat.add_comm _ _

/-! ### algebra of the mapping -/

/-- If first derivatives in the parametric space are `P J`, mapping gives `P`. -/
theorem map_first {K : Type} [Field K] (J A : Matrix (Fin d) (Fin d) K) (hA : J * A = 1) (P D : Fin d → K) (hD : ∀ i, D i = ∑ c, P c * J c i) (j : Fin d) :
    ∑ i, D i * A i j = P j := by
  simp only [hD, Finset.sum_mul]
  rw [Finset.sum_comm]
  have h : ∀ c, ∑ i, P c * J c i * A i j = P c * (if c = j then 1 else 0) := by
    intro c
    have := congrFun (congrFun hA c) j
    rw [Matrix.mul_apply, Matrix.one_apply] at this
    rw [← this, Finset.mul_sum]
    apply Finset.sum_congr rfl
    intro i _
    ring
  simp [h]

/-- If second derivatives in the parametric space are `Jᵀ Ψ J + P G`, mapping gives `Ψ`. -/
theorem map_second {K : Type} [Field K] (J A : Matrix (Fin d) (Fin d) K) (hA : J * A = 1) (P D : Fin d → K) (hD : ∀ i, D i = ∑ c, P c * J c i)
    (Ψ : Fin d → Fin d → K) (G : Fin d → Fin d → Fin d → K) (D2 : Fin d → Fin d → K)
    (hD2 : ∀ l k, D2 l k = ∑ c, ∑ e, Ψ c e * J e k * J c l + ∑ c, P c * G c l k) (i j : Fin d) :
    ∑ l, ∑ k, A l i * (D2 l k - ∑ n, ∑ p, D n * A n p * G p l k) * A k j = Ψ i j := by
  have h1 : ∀ l k, D2 l k - ∑ n, ∑ p, D n * A n p * G p l k = ∑ c, ∑ e, Ψ c e * J e k * J c l := by
    intro l k
    have : ∑ n, ∑ p, D n * A n p * G p l k = ∑ p, P p * G p l k := by
      rw [Finset.sum_comm]
      apply Finset.sum_congr rfl
      intro p _
      rw [← Finset.sum_mul, map_first J A hA P D hD p]
    rw [hD2, this]
    ring
  have hm : (Matrix.transpose A) * (Matrix.of fun l k => D2 l k - ∑ n, ∑ p, D n * A n p * G p l k) * A = Matrix.of Ψ := by
    have h2 : (Matrix.of fun l k => D2 l k - ∑ n, ∑ p, D n * A n p * G p l k) = J.transpose * Matrix.of Ψ * J := by
      ext l k
      simp only [Matrix.of_apply, h1, Matrix.mul_apply, Matrix.transpose_apply, Finset.sum_mul]
      rw [Finset.sum_comm]
      apply Finset.sum_congr rfl
      intro e _
      apply Finset.sum_congr rfl
      intro c _
      ring
    have hAt : A.transpose * J.transpose = 1 := by rw [← Matrix.transpose_mul, hA, Matrix.transpose_one]
    rw [h2]
    calc A.transpose * (J.transpose * Matrix.of Ψ * J) * A = (A.transpose * J.transpose) * Matrix.of Ψ * (J * A) := by
          simp only [Matrix.mul_assoc]
      _ = Matrix.of Ψ := by rw [hAt, hA, Matrix.one_mul, Matrix.mul_one]
  have := congrFun (congrFun hm i) j
  rw [Matrix.of_apply] at this
  rw [← this]
  simp only [Matrix.mul_apply, Matrix.transpose_apply, Matrix.of_apply, Finset.sum_mul]
  rw [Finset.sum_comm]

/-! ### chain rule -/

theorem differentiable_near {E : Type} [NormedAddCommGroup E] [NormedSpace ℝ E] {F : Type} [NormedAddCommGroup F] [NormedSpace ℝ F] {h : E → F} {u : E}
    (hh : ContDiffAt ℝ 2 h u) : ∀ᶠ w in 𝓝 u, DifferentiableAt ℝ h w :=
  (hh.eventually (by norm_num)).mono fun _ hw => hw.differentiableAt (by norm_num)

theorem partialDeriv_differentiable {h : (Fin d → ℝ) → ℝ} {u : Fin d → ℝ} (hh : ContDiffAt ℝ 2 h u) (i : Fin d) :
    DifferentiableAt ℝ (fun w => Spec.partialDeriv h i w) u := by
  have h1 : ContDiffAt ℝ 1 (fderiv ℝ h) u := hh.fderiv_right (by norm_num)
  exact (h1.differentiableAt (by norm_num)).clm_apply (differentiableAt_const _)

theorem partialDeriv_congr {h g : (Fin d → ℝ) → ℝ} {u : Fin d → ℝ} (e : h =ᶠ[𝓝 u] g) (i : Fin d) : Spec.partialDeriv h i u = Spec.partialDeriv g i u := by
  unfold Spec.partialDeriv
  rw [e.fderiv_eq]

theorem partialDeriv_congr_near {h g : (Fin d → ℝ) → ℝ} {u : Fin d → ℝ} (e : h =ᶠ[𝓝 u] g) (i : Fin d) :
    (fun w => Spec.partialDeriv h i w) =ᶠ[𝓝 u] fun w => Spec.partialDeriv g i w := by
  filter_upwards [e.eventuallyEq_nhds] with w hw
  exact partialDeriv_congr hw i

/-- Decomposition of a vector in directions. -/
theorem clm_apply_eq (L : (Fin d → ℝ) →L[ℝ] ℝ) (x : Fin d → ℝ) : L x = ∑ c, L (Pi.single c 1) * x c := by
  have hx : x = ∑ c, x c • (Pi.single c (1 : ℝ) : Fin d → ℝ) := by
    funext k
    simp [Finset.sum_apply, Pi.single_apply]
  conv_lhs => rw [hx, map_sum]
  apply Finset.sum_congr rfl
  intro c _
  rw [map_smul, smul_eq_mul, mul_comm]

theorem partialDeriv_comp {ψ : (Fin d → ℝ) → ℝ} {X : (Fin d → ℝ) → Fin d → ℝ} {u : Fin d → ℝ} (hψ : DifferentiableAt ℝ ψ (X u))
    (hX : DifferentiableAt ℝ X u) (i : Fin d) :
    Spec.partialDeriv (fun w => ψ (X w)) i u = ∑ c, Spec.partialDeriv ψ c (X u) * Spec.partialDeriv (fun w => X w c) i u := by
  unfold Spec.partialDeriv
  have h1 : fderiv ℝ (fun w => ψ (X w)) u = (fderiv ℝ ψ (X u)).comp (fderiv ℝ X u) := fderiv_comp u hψ hX
  rw [h1, ContinuousLinearMap.comp_apply, clm_apply_eq]
  apply Finset.sum_congr rfl
  intro c _
  congr 1
  have h2 : fderiv ℝ (fun w => X w c) u = (ContinuousLinearMap.proj c).comp (fderiv ℝ X u) := by
    have := fderiv_comp u (ContinuousLinearMap.proj (R := ℝ) (φ := fun _ : Fin d => ℝ) c).differentiableAt hX
    rw [ContinuousLinearMap.fderiv] at this
    exact this
  rw [h2]
  rfl

theorem partialDeriv_sum {ι : Type} (S : Finset ι) {h : ι → (Fin d → ℝ) → ℝ} {u : Fin d → ℝ} (hh : ∀ s ∈ S, DifferentiableAt ℝ (h s) u) (i : Fin d) :
    Spec.partialDeriv (fun w => ∑ s ∈ S, h s w) i u = ∑ s ∈ S, Spec.partialDeriv (h s) i u := by
  unfold Spec.partialDeriv
  rw [fderiv_fun_sum hh]
  simp

theorem partialDeriv_mul {f g : (Fin d → ℝ) → ℝ} {u : Fin d → ℝ} (hf : DifferentiableAt ℝ f u) (hg : DifferentiableAt ℝ g u) (i : Fin d) :
    Spec.partialDeriv (fun w => f w * g w) i u = f u * Spec.partialDeriv g i u + Spec.partialDeriv f i u * g u := by
  unfold Spec.partialDeriv
  rw [fderiv_fun_mul hf hg]
  simp
  ring

/-- Second order chain rule in coordinates. -/
theorem partialDeriv2_comp {ψ : (Fin d → ℝ) → ℝ} {X : (Fin d → ℝ) → Fin d → ℝ} {u : Fin d → ℝ} (hψ : ContDiffAt ℝ 2 ψ (X u))
    (hX : ContDiffAt ℝ 2 X u) (i j : Fin d) :
    Spec.partialDeriv2 (fun w => ψ (X w)) i j u
      = ∑ c, ∑ e, Spec.partialDeriv2 ψ c e (X u) * Spec.partialDeriv (fun w => X w e) j u * Spec.partialDeriv (fun w => X w c) i u
        + ∑ c, Spec.partialDeriv ψ c (X u) * Spec.partialDeriv2 (fun w => X w c) i j u := by
  have hXd : DifferentiableAt ℝ X u := hX.differentiableAt (by norm_num)
  have hnear : (fun w => Spec.partialDeriv (fun w => ψ (X w)) i w)
      =ᶠ[𝓝 u] fun w => ∑ c, Spec.partialDeriv ψ c (X w) * Spec.partialDeriv (fun w => X w c) i w := by
    have h1 : ∀ᶠ w in 𝓝 u, DifferentiableAt ℝ ψ (X w) := hX.continuousAt.eventually (differentiable_near hψ)
    filter_upwards [h1, differentiable_near hX] with w hw1 hw2
    exact partialDeriv_comp hw1 hw2 i
  have hc : ∀ c, ContDiffAt ℝ 2 (fun w => X w c) u := fun c => contDiffAt_pi.1 hX c
  have hd1 : ∀ c, DifferentiableAt ℝ (fun w => Spec.partialDeriv ψ c (X w)) u := fun c =>
    DifferentiableAt.comp u (partialDeriv_differentiable hψ c) hXd
  have hd2 : ∀ c, DifferentiableAt ℝ (fun w => Spec.partialDeriv (fun w => X w c) i w) u := fun c => partialDeriv_differentiable (hc c) i
  rw [Spec.partialDeriv2, partialDeriv_congr hnear j, partialDeriv_sum _ (fun c _ => (hd1 c).fun_mul (hd2 c)) j, ← Finset.sum_add_distrib]
  apply Finset.sum_congr rfl
  intro c _
  rw [partialDeriv_mul (hd1 c) (hd2 c) j, partialDeriv_comp (partialDeriv_differentiable hψ c) hXd j, Finset.sum_mul, add_comm]
  rfl

/-- Derivatives of a combination of functions. -/
theorem partialDeriv_combination {N : Fin m → (Fin d → ℝ) → ℝ} {u : Fin d → ℝ} (hN : ∀ s, ContDiffAt ℝ 2 (N s) u) (c : Fin m → ℝ) (i : Fin d) :
    Spec.partialDeriv (fun w => ∑ s, N s w * c s) i u = ∑ s, Spec.partialDeriv (N s) i u * c s := by
  rw [partialDeriv_sum _ (fun s _ => ((hN s).differentiableAt (by norm_num)).fun_mul (differentiableAt_const _))]
  apply Finset.sum_congr rfl
  intro s _
  rw [partialDeriv_mul ((hN s).differentiableAt (by norm_num)) (differentiableAt_const _)]
  simp [Spec.partialDeriv]

theorem partialDeriv2_combination {N : Fin m → (Fin d → ℝ) → ℝ} {u : Fin d → ℝ} (hN : ∀ s, ContDiffAt ℝ 2 (N s) u) (c : Fin m → ℝ) (i j : Fin d) :
    Spec.partialDeriv2 (fun w => ∑ s, N s w * c s) i j u = ∑ s, Spec.partialDeriv2 (N s) i j u * c s := by
  have hnear : (fun w => Spec.partialDeriv (fun w => ∑ s, N s w * c s) i w) =ᶠ[𝓝 u] fun w => ∑ s, Spec.partialDeriv (N s) i w * c s := by
    have : ∀ᶠ w in 𝓝 u, ∀ s, ContDiffAt ℝ 2 (N s) w := Filter.eventually_all.2 fun s => (hN s).eventually (by norm_num)
    filter_upwards [this] with w hw
    exact partialDeriv_combination hw c i
  rw [Spec.partialDeriv2, partialDeriv_congr hnear j,
    partialDeriv_sum _ (fun s _ => (partialDeriv_differentiable (hN s) i).fun_mul (differentiableAt_const _))]
  apply Finset.sum_congr rfl
  intro s _
  rw [partialDeriv_mul (partialDeriv_differentiable (hN s) i) (differentiableAt_const _)]
  simp [Spec.partialDeriv, Spec.partialDeriv2]

/-! ### C53 -/

/-- What is requested is returned, and nothing else. -/
theorem basis_shape {K : Type} [Field K] (inv : Matrix (Fin d) (Fin d) K → Option (Matrix (Fin d) (Fin d) K)) (sp : Splines K d m)
    (gradient hessian laplacian : Bool) (R : BasisResults K d m) (h : basisFunctionDerivatives inv sp gradient hessian laplacian = some R) :
    R.support = sp.support ∧ R.gradient.isSome = gradient ∧ R.hessian.isSome = hessian ∧ R.laplacian.isSome = laplacian := by
  unfold basisFunctionDerivatives at h
  rw [Option.map_eq_some_iff] at h
  obtain ⟨A, hA, rfl⟩ := h
  refine ⟨rfl, ?_, ?_, ?_⟩
  · cases gradient <;> rfl
  · cases hessian <;> rfl
  · cases laplacian <;> rfl

/-- C53, basis functions: whatever is requested, the gradient, the Hessian and the Laplacian of a basis function returned by the mapper are the derivatives of
this function, seen as function of the physical coordinates. -/
theorem basis_physical (inv : Matrix (Fin d) (Fin d) ℝ → Option (Matrix (Fin d) (Fin d) ℝ)) (hinv : Spec.Inverts inv) (sp : Splines ℝ d m)
    (N : Fin m → (Fin d → ℝ) → ℝ) (X : (Fin d → ℝ) → Fin d → ℝ) (u : Fin d → ℝ) (hr : Spec.Returns sp N X u) (hX : ContDiffAt ℝ 2 X u)
    (gradient hessian laplacian : Bool) (R : BasisResults ℝ d m) (h : basisFunctionDerivatives inv sp gradient hessian laplacian = some R)
    (s : Fin m) (ψ : (Fin d → ℝ) → ℝ) (hψ : Spec.InPhysicalSpace (N s) ψ X u) :
    (∀ G, R.gradient = some G → ∀ j, G s j = Spec.partialDeriv ψ j (X u)) ∧
    (∀ H, R.hessian = some H → ∀ i j, H s i j = Spec.partialDeriv2 ψ i j (X u)) ∧
    (∀ L, R.laplacian = some L → L s = ∑ i, Spec.partialDeriv2 ψ i i (X u)) := by
  unfold basisFunctionDerivatives at h
  rw [Option.map_eq_some_iff] at h
  obtain ⟨A, hA, rfl⟩ := h
  have hJA := hinv _ _ hA
  set J := jacobian sp.geometryDerivative with hJ
  have hXd : DifferentiableAt ℝ X u := hX.differentiableAt (by norm_num)
  have hJe : ∀ c i, J c i = Spec.partialDeriv (fun w => X w c) i u := fun c i => by rw [hJ, jacobian_entry, hr.geometry1]
  have hD : ∀ i, sp.basisDerivative (eye i) s = ∑ c, Spec.partialDeriv ψ c (X u) * J c i := by
    intro i
    rw [hr.basis1, partialDeriv_congr hψ.composed, partialDeriv_comp (hψ.smooth.differentiableAt (by norm_num)) hXd]
    simp only [hJe]
  have hD2 : ∀ l k, mirrored sp.basisDerivative s l k = ∑ c, ∑ e, Spec.partialDeriv2 ψ c e (X u) * J e k * J c l
      + ∑ c, Spec.partialDeriv ψ c (X u) * mirrored sp.geometryDerivative c l k := by
    intro l k
    rw [mirrored_eq, hr.basis2, Spec.partialDeriv2, partialDeriv_congr (partialDeriv_congr_near hψ.composed l) k]
    have := partialDeriv2_comp hψ.smooth hX l k
    rw [Spec.partialDeriv2] at this
    rw [this]
    simp only [hJe, mirrored_eq, hr.geometry2]
  have hG := map_first J A hJA _ (fun i => sp.basisDerivative (eye i) s) hD
  have hH := map_second J A hJA _ (fun i => sp.basisDerivative (eye i) s) hD (fun c e => Spec.partialDeriv2 ψ c e (X u))
    (mirrored sp.geometryDerivative) (mirrored sp.basisDerivative s) hD2
  refine ⟨?_, ?_, ?_⟩
  · intro G hGe j
    cases gradient with
    | false => cases hGe
    | true => rw [← Option.some.inj hGe]; exact hG j
  · intro H hHe i j
    cases hessian with
    | false => cases hHe
    | true => rw [← Option.some.inj hHe]; exact hH i j
  · intro L hL
    cases laplacian with
    | false => cases hL
    | true =>
      rw [← Option.some.inj hL]
      cases hessian with
      | true =>
        apply Finset.sum_congr rfl
        intro i _
        exact hH i i
      | false =>
        have : ∀ i, Spec.partialDeriv2 ψ i i (X u) = ∑ l, ∑ k, A l i * (mirrored sp.basisDerivative s l k - ∑ n, ∑ p, sp.basisDerivative (eye n) s * A n p * mirrored sp.geometryDerivative p l k) * A k i :=
          fun i => (hH i i).symm
        simp only [this]
        rw [Finset.sum_comm]
        simp only [Bool.false_eq_true, if_false]
        apply Finset.sum_congr rfl
        intro l _
        exact Finset.sum_comm

/-- Near a query where the Jacobian is invertible every smooth function of the parameters is a function of the physical coordinates. -/
theorem physical_exists {X : (Fin d → ℝ) → Fin d → ℝ} {u : Fin d → ℝ} (hX : ContDiffAt ℝ 2 X u) (A : Matrix (Fin d) (Fin d) ℝ)
    (hA : (Matrix.of fun c i => Spec.partialDeriv (fun w => X w c) i u) * A = 1) (h : (Fin d → ℝ) → ℝ) (hh : ContDiffAt ℝ 2 h u) :
    ∃ ψ, Spec.InPhysicalSpace h ψ X u := by
  set J : Matrix (Fin d) (Fin d) ℝ := Matrix.of fun c i => Spec.partialDeriv (fun w => X w c) i u with hJ
  have hXd : DifferentiableAt ℝ X u := hX.differentiableAt (by norm_num)
  have hL : ∀ x, fderiv ℝ X u x = J.mulVec x := by
    intro x
    funext c
    have h2 : fderiv ℝ (fun w => X w c) u = (ContinuousLinearMap.proj c).comp (fderiv ℝ X u) := by
      have := fderiv_comp u (ContinuousLinearMap.proj (R := ℝ) (φ := fun _ : Fin d => ℝ) c).differentiableAt hXd
      rw [ContinuousLinearMap.fderiv] at this
      exact this
    have h3 : fderiv ℝ X u x c = fderiv ℝ (fun w => X w c) u x := by rw [h2]; rfl
    rw [h3, clm_apply_eq]
    rfl
  have hA' : A * J = 1 := mul_eq_one_comm.1 hA
  let e : (Fin d → ℝ) ≃L[ℝ] (Fin d → ℝ) :=
    ContinuousLinearEquiv.equivOfInverse (fderiv ℝ X u) (LinearMap.toContinuousLinearMap (Matrix.toLin' A))
      (by
        intro x
        rw [hL]
        simp [Matrix.mulVec_mulVec, hA'])
      (by
        intro x
        rw [hL]
        simp [Matrix.mulVec_mulVec, hA])
  have he : HasFDerivAt X (e : (Fin d → ℝ) →L[ℝ] (Fin d → ℝ)) u := by
    have : (e : (Fin d → ℝ) →L[ℝ] (Fin d → ℝ)) = fderiv ℝ X u := rfl
    rw [this]
    exact hXd.hasFDerivAt
  have h2 : (2 : WithTop ℕ∞) ≠ 0 := by norm_num
  have hstrict := hX.hasStrictFDerivAt' he h2
  refine ⟨fun y => h (hX.localInverse he h2 y), ?_, ?_⟩
  · filter_upwards [hstrict.eventually_left_inverse] with w hw
    exact (congrArg h hw).symm
  · have h1 := hX.to_localInverse he h2
    have himg : hX.localInverse he h2 (X u) = u := hX.localInverse_apply_image he h2
    exact ContDiffAt.comp (X u) (himg.symm ▸ hh) h1

/-- The derivatives with respect to the physical coordinates are determined by the function of the parameters. -/
theorem physical_unique {X : (Fin d → ℝ) → Fin d → ℝ} {u : Fin d → ℝ} (hX : ContDiffAt ℝ 2 X u) (A : Matrix (Fin d) (Fin d) ℝ)
    (hA : (Matrix.of fun c i => Spec.partialDeriv (fun w => X w c) i u) * A = 1) (h ψ φ : (Fin d → ℝ) → ℝ)
    (hψ : Spec.InPhysicalSpace h ψ X u) (hφ : Spec.InPhysicalSpace h φ X u) :
    (∀ j, Spec.partialDeriv ψ j (X u) = Spec.partialDeriv φ j (X u)) ∧ ∀ i j, Spec.partialDeriv2 ψ i j (X u) = Spec.partialDeriv2 φ i j (X u) := by
  have hXd : DifferentiableAt ℝ X u := hX.differentiableAt (by norm_num)
  have key : ∀ χ, Spec.InPhysicalSpace h χ X u →
      (∀ i, Spec.partialDeriv h i u = ∑ c, Spec.partialDeriv χ c (X u) * (Matrix.of fun c i => Spec.partialDeriv (fun w => X w c) i u) c i) ∧
      (∀ l k, Spec.partialDeriv2 h l k u = ∑ c, ∑ e, Spec.partialDeriv2 χ c e (X u) * (Matrix.of fun c i => Spec.partialDeriv (fun w => X w c) i u) e k
          * (Matrix.of fun c i => Spec.partialDeriv (fun w => X w c) i u) c l
        + ∑ c, Spec.partialDeriv χ c (X u) * Spec.partialDeriv2 (fun w => X w c) l k u) := by
    intro χ hχ
    constructor
    · intro i
      rw [partialDeriv_congr hχ.composed, partialDeriv_comp (hχ.smooth.differentiableAt (by norm_num)) hXd]
      rfl
    · intro l k
      rw [Spec.partialDeriv2, partialDeriv_congr (partialDeriv_congr_near hχ.composed l) k]
      exact partialDeriv2_comp hχ.smooth hX l k
  obtain ⟨a1, a2⟩ := key ψ hψ
  obtain ⟨b1, b2⟩ := key φ hφ
  constructor
  · intro j
    rw [← map_first _ A hA _ _ a1 j, map_first _ A hA _ _ b1 j]
  · intro i j
    rw [← map_second _ A hA _ _ a1 _ (fun c l k => Spec.partialDeriv2 (fun w => X w c) l k u) _ a2 i j,
      map_second _ A hA _ _ b1 _ (fun c l k => Spec.partialDeriv2 (fun w => X w c) l k u) _ b2 i j]

/-- C53, fields: gradient, Hessian and Laplacian of the field `∑ N_s c_s` are its derivatives with respect to the physical coordinates, and its divergence is
the trace of the gradient, whatever else is requested. -/
theorem field_physical (inv : Matrix (Fin d) (Fin d) ℝ → Option (Matrix (Fin d) (Fin d) ℝ)) (hinv : Spec.Inverts inv) (sp : Splines ℝ d m)
    (cps : ℕ → Fin v → ℝ) (N : Fin m → (Fin d → ℝ) → ℝ) (X : (Fin d → ℝ) → Fin d → ℝ) (u : Fin d → ℝ) (hr : Spec.Returns sp N X u)
    (hX : ContDiffAt ℝ 2 X u) (hN : ∀ s, ContDiffAt ℝ 2 (N s) u) (gradient divergence hessian laplacian : Bool) (R : FieldResults ℝ d v)
    (h : fieldDerivatives inv sp cps gradient divergence hessian laplacian = some R)
    (Φ : Fin v → (Fin d → ℝ) → ℝ) (hΦ : ∀ c, Spec.InPhysicalSpace (fun w => ∑ s, N s w * cps (sp.support s) c) (Φ c) X u) :
    (R.gradient.isSome = gradient ∧ R.divergence.isSome = divergence ∧ R.hessian.isSome = hessian ∧ R.laplacian.isSome = laplacian) ∧
    (∀ G, R.gradient = some G → ∀ c j, G c j = Spec.partialDeriv (Φ c) j (X u)) ∧
    (∀ D, R.divergence = some D → ∃ e : d = v, D = ∑ i, Spec.partialDeriv (Φ (Fin.cast e i)) i (X u)) ∧
    (∀ H, R.hessian = some H → ∀ c i j, H c i j = Spec.partialDeriv2 (Φ c) i j (X u)) ∧
    (∀ L, R.laplacian = some L → ∀ c, L c = ∑ i, Spec.partialDeriv2 (Φ c) i i (X u)) := by
  unfold fieldDerivatives at h
  rw [Option.bind_eq_some_iff] at h
  obtain ⟨B, hB, hR⟩ := h
  have hJ : ∃ A, (Matrix.of fun c i => Spec.partialDeriv (fun w => X w c) i u) * A = 1 := by
    have hB' := hB
    unfold basisFunctionDerivatives at hB'
    rw [Option.map_eq_some_iff] at hB'
    obtain ⟨A, hA, _⟩ := hB'
    refine ⟨A, ?_⟩
    rw [← hinv _ _ hA]
    congr 1
    ext c i
    rw [jacobian_entry, hr.geometry1]
    rfl
  obtain ⟨A, hA⟩ := hJ
  have hex := fun s => physical_exists hX A hA (N s) (hN s)
  choose ψ hψ using hex
  have hb := fun s => basis_physical inv hinv sp N X u hr hX _ _ _ B hB s (ψ s) (hψ s)
  have hsmooth : ∀ s, ContDiffAt ℝ 2 (ψ s) (X u) := fun s => (hψ s).smooth
  have hcomb : ∀ c, Spec.InPhysicalSpace (fun w => ∑ s, N s w * cps (sp.support s) c) (fun y => ∑ s, ψ s y * cps (sp.support s) c) X u := by
    intro c
    constructor
    · have : ∀ᶠ w in 𝓝 u, ∀ s, N s w = ψ s (X w) := Filter.eventually_all.2 fun s => (hψ s).composed
      filter_upwards [this] with w hw
      simp only [hw]
    · exact ContDiffAt.sum fun s _ => (hsmooth s).mul contDiffAt_const
  have hΦ1 : ∀ c j, Spec.partialDeriv (Φ c) j (X u) = ∑ s, Spec.partialDeriv (ψ s) j (X u) * cps (sp.support s) c := fun c j => by
    rw [(physical_unique hX A hA _ _ _ (hΦ c) (hcomb c)).1 j, partialDeriv_combination hsmooth]
  have hΦ2 : ∀ c i j, Spec.partialDeriv2 (Φ c) i j (X u) = ∑ s, Spec.partialDeriv2 (ψ s) i j (X u) * cps (sp.support s) c := fun c i j => by
    rw [(physical_unique hX A hA _ _ _ (hΦ c) (hcomb c)).2 i j, partialDeriv2_combination hsmooth]
  have hshape := basis_shape inv sp _ _ _ B hB
  obtain ⟨Bs, Bg, Bh, Bl⟩ := B
  obtain ⟨hs, hg1, hh1, hl1⟩ := hshape
  simp only at hs hg1 hh1 hl1 hb hR
  subst hs
  clear hB
  have hgrad : ∀ g, Bg = some g → ∀ c j, ∑ s, g s j * cps (sp.support s) c = Spec.partialDeriv (Φ c) j (X u) := by
    intro g hg c j
    rw [hΦ1]
    exact Finset.sum_congr rfl fun s _ => by rw [(hb s).1 g hg j]
  have hhess : ∀ H, Bh = some H → ∀ c i j, ∑ s, H s i j * cps (sp.support s) c = Spec.partialDeriv2 (Φ c) i j (X u) := by
    intro H hH c i j
    rw [hΦ2]
    exact Finset.sum_congr rfl fun s _ => by rw [(hb s).2.1 H hH i j]
  have hlapl : ∀ L, Bl = some L → ∀ c, ∑ s, L s * cps (sp.support s) c = ∑ i, Spec.partialDeriv2 (Φ c) i i (X u) := by
    intro L hL c
    simp only [hΦ2]
    rw [Finset.sum_comm]
    exact Finset.sum_congr rfl fun s _ => by rw [(hb s).2.2 L hL, Finset.sum_mul]
  clear hb
  have hdiv : ∀ g, Bg = some g → ∀ e : d = v, ∑ s, ∑ i, g s i * cps (sp.support s) (Fin.cast e i) = ∑ i, Spec.partialDeriv (Φ (Fin.cast e i)) i (X u) := by
    intro g hg e
    rw [Finset.sum_comm]
    exact Finset.sum_congr rfl fun i _ => hgrad g hg _ i
  -- the record of the result
  have hres : R.gradient = (if gradient then Bg.map (fun g => fun w e => ∑ s, g s e * cps (sp.support s) w) else none) ∧
      R.hessian = Bh.map (fun h => fun w i j => ∑ s, h s i j * cps (sp.support s) w) ∧
      R.laplacian = (if laplacian then
        if hessian then (Bh.map (fun h => fun w i j => ∑ s, h s i j * cps (sp.support s) w)).map fun h => fun w => ∑ i, h w i i
        else Bl.map fun l => fun w => ∑ s, l s * cps (sp.support s) w
      else none) ∧
      (divergence = false → R.divergence = none) ∧
      (divergence = true → ∃ e : d = v, R.divergence = if gradient then (Bg.map (fun g => fun w e => ∑ s, g s e * cps (sp.support s) w)).map fun g => ∑ i : Fin d, g (Fin.cast e i) i
          else Bg.map fun g => ∑ s, ∑ i : Fin d, g s i * cps (sp.support s) (Fin.cast e i)) := by
    cases divergence with
    | false =>
      rw [← Option.some.inj hR]
      exact ⟨rfl, rfl, rfl, fun _ => rfl, fun h => by cases h⟩
    | true =>
      simp only [if_true] at hR
      by_cases e : d = v
      · rw [dif_pos e] at hR
        rw [← Option.some.inj hR]
        exact ⟨rfl, rfl, rfl, (fun h => by cases h), fun _ => ⟨e, rfl⟩⟩
      · rw [dif_neg e] at hR
        cases hR
  clear hR
  obtain ⟨r1, r2, r3, r4, r5⟩ := hres
  refine ⟨⟨?_, ?_, ?_, ?_⟩, ?_, ?_, ?_, ?_⟩
  · rw [r1]
    cases gradient with
    | false => rfl
    | true => simpa using hg1
  · cases divergence with
    | false => rw [r4 rfl]; rfl
    | true =>
      obtain ⟨e, he⟩ := r5 rfl
      rw [he]
      cases gradient <;> simpa using hg1
  · rw [r2]; simpa using hh1
  · rw [r3]
    cases laplacian with
    | false => rfl
    | true =>
      cases hessian with
      | true => simpa using hh1
      | false => simpa using hl1
  · intro G hG c j
    rw [r1] at hG
    cases gradient with
    | false => cases hG
    | true =>
      simp only [if_true] at hG
      rw [Option.map_eq_some_iff] at hG
      obtain ⟨g, hg, rfl⟩ := hG
      exact hgrad g hg c j
  · intro D hD
    cases divergence with
    | false => rw [r4 rfl] at hD; cases hD
    | true =>
      obtain ⟨e, he⟩ := r5 rfl
      refine ⟨e, ?_⟩
      rw [he] at hD
      cases gradient with
      | true =>
        simp only [if_true] at hD
        rw [Option.map_map, Option.map_eq_some_iff] at hD
        obtain ⟨g, hg, rfl⟩ := hD
        exact Finset.sum_congr rfl fun i _ => hgrad g hg _ i
      | false =>
        simp only [Bool.false_eq_true, if_false] at hD
        rw [Option.map_eq_some_iff] at hD
        obtain ⟨g, hg, rfl⟩ := hD
        exact hdiv g hg e
  · intro H hH c i j
    rw [r2, Option.map_eq_some_iff] at hH
    obtain ⟨H', hH', rfl⟩ := hH
    exact hhess H' hH' c i j
  · intro L hL c
    rw [r3] at hL
    cases laplacian with
    | false => cases hL
    | true =>
      cases hessian with
      | true =>
        simp only [if_true] at hL
        rw [Option.map_map, Option.map_eq_some_iff] at hL
        obtain ⟨H, hH, rfl⟩ := hL
        exact Finset.sum_congr rfl fun i _ => hhess H hH c i i
      | false =>
        simp only [Bool.false_eq_true, if_false, if_true] at hL
        rw [Option.map_eq_some_iff] at hL
        obtain ⟨l, hl, rfl⟩ := hL
        exact hlapl l hl c

/-- The mapper raises exactly if the matrix inversion does, or if the divergence of a field is requested whose number of components is not the number of
parametric directions. -/
theorem field_rejects_iff {K : Type} [Field K] (inv : Matrix (Fin d) (Fin d) K → Option (Matrix (Fin d) (Fin d) K)) (sp : Splines K d m)
    (cps : ℕ → Fin v → K) (gradient divergence hessian laplacian : Bool) :
    fieldDerivatives inv sp cps gradient divergence hessian laplacian = none ↔
      inv (jacobian sp.geometryDerivative) = none ∨ (divergence = true ∧ d ≠ v) := by
  unfold fieldDerivatives basisFunctionDerivatives
  cases inv (jacobian sp.geometryDerivative) with
  | none => simp
  | some A =>
    cases divergence with
    | false => simp
    | true =>
      by_cases e : d = v
      · simp [e]
      · simp [e]

theorem init_accepts_iff (a b c p : ℕ) : init a b c = some p ↔ a = c ∧ a = b ∧ p = a := by
  unfold init
  by_cases h1 : a = c
  · by_cases h2 : a = b
    · simp [h1, h2, eq_comm]
    · simp [h1, h2]
      omega
  · simp [h1]

/-! a concrete case: the geometry `x ↦ 2 x` and the field `u ↦ u ^ 2` on a line -/

noncomputable def exampleSplines : Splines ℝ 1 1 where
  support := fun _ => 0
  basisDerivative := fun o _ => if o 0 = 1 then 6 else if o 0 = 2 then 2 else 0
  geometryDerivative := fun o _ => if o 0 = 1 then 2 else 0

theorem partialDeriv_one (h : ℝ → ℝ) (h' : ℝ) (u : Fin 1 → ℝ) (hd : HasDerivAt h h' (u 0)) : Spec.partialDeriv (fun w : Fin 1 → ℝ => h (w 0)) 0 u = h' := by
  unfold Spec.partialDeriv
  have h1 : HasFDerivAt (fun w : Fin 1 → ℝ => w 0) (ContinuousLinearMap.proj (R := ℝ) (φ := fun _ : Fin 1 => ℝ) 0) u :=
    (ContinuousLinearMap.proj (R := ℝ) (φ := fun _ : Fin 1 => ℝ) 0).hasFDerivAt
  have h2 := hd.comp_hasFDerivAt u h1
  rw [show (fun w : Fin 1 → ℝ => h (w 0)) = h ∘ fun w => w 0 from rfl, h2.fderiv]
  simp

theorem example_returns : Spec.Returns exampleSplines (fun _ w => w 0 ^ 2) (fun w _ => 2 * w 0) (fun _ => 3) := by
  have hsq : ∀ u : Fin 1 → ℝ, Spec.partialDeriv (fun w : Fin 1 → ℝ => w 0 ^ 2) 0 u = 2 * u 0 := fun u =>
    partialDeriv_one (fun x => x ^ 2) _ u (by simpa using hasDerivAt_pow 2 (u 0))
  have hlin : ∀ u : Fin 1 → ℝ, Spec.partialDeriv (fun w : Fin 1 → ℝ => 2 * w 0) 0 u = 2 := fun u =>
    partialDeriv_one (fun x => 2 * x) _ u (by simpa using (hasDerivAt_id (u 0)).const_mul 2)
  have e1 : ∀ i : Fin 1, (eye i : Fin 1 → ℕ) 0 = 1 := by intro i; simp [eye, Subsingleton.elim i 0]
  constructor
  · intro s i
    rw [Subsingleton.elim i 0, hsq]
    simp [exampleSplines, e1]
    norm_num
  · intro s i j
    rw [Subsingleton.elim i 0, Subsingleton.elim j 0, Spec.partialDeriv2]
    simp only [hsq, hlin]
    simp [exampleSplines, e1]
  · intro c i
    rw [Subsingleton.elim i 0, hlin]
    simp [exampleSplines, e1]
  · intro c i j
    rw [Subsingleton.elim i 0, Subsingleton.elim j 0, Spec.partialDeriv2]
    simp only [hlin]
    simp [exampleSplines, e1, Spec.partialDeriv]

noncomputable def exampleInv (J : Matrix (Fin 1) (Fin 1) ℝ) : Option (Matrix (Fin 1) (Fin 1) ℝ) :=
  if J 0 0 = 0 then none else some (Matrix.of fun _ _ => (J 0 0)⁻¹)

theorem exampleInv_inverts : Spec.Inverts exampleInv := by
  intro J A h
  unfold exampleInv at h
  split at h
  · cases h
  · rename_i hJ
    rw [← Option.some.inj h]
    ext i j
    rw [Subsingleton.elim i 0, Subsingleton.elim j 0]
    simp [Matrix.mul_apply, hJ]

example : Spec.InPhysicalSpace (fun w : Fin 1 → ℝ => w 0 ^ 2) (fun y => (y 0 / 2) ^ 2) (fun w _ => 2 * w 0) (fun _ => 3) :=
  ⟨Filter.Eventually.of_forall fun w => by simp, by fun_prop⟩

/-- On the line the field is `(x / 2) ^ 2`; at `u = 3` its gradient is 3 and its Laplacian `1 / 2`. -/
example : ∃ R, fieldDerivatives (v := 1) exampleInv exampleSplines (fun _ _ => 1) true true false true = some R ∧
    R.gradient = some (fun _ _ => 3) ∧ R.divergence = some 3 ∧ R.laplacian = some fun _ => 1 / 2 := by
  have hJ : jacobian exampleSplines.geometryDerivative 0 0 = 2 := by
    rw [jacobian_entry]
    simp [exampleSplines, eye]
  refine ⟨_, by simp [fieldDerivatives, basisFunctionDerivatives, exampleInv, hJ]; rfl, ?_, ?_, ?_⟩
  · simp [exampleSplines, eye]
    funext a b
    norm_num
  · simp [exampleSplines, eye]
    norm_num
  · simp [exampleSplines, eye, mirrored]

end Splinepy.Mapper
