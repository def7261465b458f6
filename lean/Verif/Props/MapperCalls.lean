import Verif.Model.MapperCalls
import Verif.Props.Mapper

/-!
C53: the methods of the mapper that return one kind of derivative.
-/
namespace Splinepy.Mapper

variable {d m v : ℕ}

theorem basisCall_some {K A : Type} [Field K] {r : Option (BasisResults K d m)} {key : BasisResults K d m → Option A} {a : A} {s : Fin m → ℕ}
    (h : basisCall r key = some (a, s)) : ∃ b, r = some b ∧ key b = some a ∧ b.support = s := by
  unfold basisCall at h
  simp only [Option.bind_eq_some_iff, Option.map_eq_some_iff, Prod.mk.injEq] at h
  obtain ⟨b, hb, a', ha, rfl, rfl⟩ := h
  exact ⟨b, hb, ha, rfl⟩

/-- **C53.** The methods for basis functions return the derivatives with respect to the physical coordinates together with the support of the field, for every query at which the
geometry can be inverted. -/
theorem basis_calls_physical (inv : Matrix (Fin d) (Fin d) ℝ → Option (Matrix (Fin d) (Fin d) ℝ)) (hinv : Spec.Inverts inv) (sp : Splines ℝ d m)
    (N : Fin m → (Fin d → ℝ) → ℝ) (X : (Fin d → ℝ) → Fin d → ℝ) (u : Fin d → ℝ) (hr : Spec.Returns sp N X u) (hX : ContDiffAt ℝ 2 X u)
    (ψ : Fin m → (Fin d → ℝ) → ℝ) (hψ : ∀ s, Spec.InPhysicalSpace (N s) (ψ s) X u) :
    (∀ G S, basisGradientAndSupport inv sp = some (G, S) → S = sp.support ∧ ∀ s j, G s j = Spec.partialDeriv (ψ s) j (X u)) ∧
    (∀ H S, basisHessianAndSupport inv sp = some (H, S) → S = sp.support ∧ ∀ s i j, H s i j = Spec.partialDeriv2 (ψ s) i j (X u)) ∧
    (∀ L S, basisLaplacianAndSupport inv sp = some (L, S) → S = sp.support ∧ ∀ s, L s = ∑ i, Spec.partialDeriv2 (ψ s) i i (X u)) := by
  refine ⟨fun G S h => ?_, fun H S h => ?_, fun L S h => ?_⟩ <;>
    obtain ⟨b, hb, hk, rfl⟩ := basisCall_some h
  · exact ⟨(basis_shape inv sp _ _ _ b hb).1, fun s => (basis_physical inv hinv sp N X u hr hX _ _ _ b hb s (ψ s) (hψ s)).1 G hk⟩
  · exact ⟨(basis_shape inv sp _ _ _ b hb).1, fun s => (basis_physical inv hinv sp N X u hr hX _ _ _ b hb s (ψ s) (hψ s)).2.1 H hk⟩
  · exact ⟨(basis_shape inv sp _ _ _ b hb).1, fun s => (basis_physical inv hinv sp N X u hr hX _ _ _ b hb s (ψ s) (hψ s)).2.2 L hk⟩

/-- **C53.** The methods for the field return its derivatives with respect to the physical coordinates. -/
theorem field_calls_physical (inv : Matrix (Fin d) (Fin d) ℝ → Option (Matrix (Fin d) (Fin d) ℝ)) (hinv : Spec.Inverts inv) (sp : Splines ℝ d m)
    (cps : ℕ → Fin v → ℝ) (N : Fin m → (Fin d → ℝ) → ℝ) (X : (Fin d → ℝ) → Fin d → ℝ) (u : Fin d → ℝ) (hr : Spec.Returns sp N X u)
    (hX : ContDiffAt ℝ 2 X u) (hN : ∀ s, ContDiffAt ℝ 2 (N s) u)
    (Φ : Fin v → (Fin d → ℝ) → ℝ) (hΦ : ∀ c, Spec.InPhysicalSpace (fun w => ∑ s, N s w * cps (sp.support s) c) (Φ c) X u) :
    (∀ G, gradientCall inv sp cps = some G → ∀ c j, G c j = Spec.partialDeriv (Φ c) j (X u)) ∧
    (∀ D, divergenceCall inv sp cps = some D → ∃ e : d = v, D = ∑ i, Spec.partialDeriv (Φ (Fin.cast e i)) i (X u)) ∧
    (∀ H, hessianCall inv sp cps = some H → ∀ c i j, H c i j = Spec.partialDeriv2 (Φ c) i j (X u)) ∧
    (∀ L, laplacianCall inv sp cps = some L → ∀ c, L c = ∑ i, Spec.partialDeriv2 (Φ c) i i (X u)) := by
  refine ⟨fun G h => ?_, fun D h => ?_, fun H h => ?_, fun L h => ?_⟩
  · obtain ⟨R, hR, hk⟩ := Option.bind_eq_some_iff.mp h
    exact (field_physical inv hinv sp cps N X u hr hX hN _ _ _ _ R hR Φ hΦ).2.1 G hk
  · unfold divergenceCall at h
    split at h
    · cases h
    · obtain ⟨R, hR, hk⟩ := Option.bind_eq_some_iff.mp h
      exact (field_physical inv hinv sp cps N X u hr hX hN _ _ _ _ R hR Φ hΦ).2.2.1 D hk
  · obtain ⟨R, hR, hk⟩ := Option.bind_eq_some_iff.mp h
    exact (field_physical inv hinv sp cps N X u hr hX hN _ _ _ _ R hR Φ hΦ).2.2.2.1 H hk
  · obtain ⟨R, hR, hk⟩ := Option.bind_eq_some_iff.mp h
    exact (field_physical inv hinv sp cps N X u hr hX hN _ _ _ _ R hR Φ hΦ).2.2.2.2 L hk

/-- **C53.** The methods raise exactly if the Jacobian cannot be inverted, `divergence` also if the field has another number of components than parametric dimensions. -/
theorem calls_succeed_iff (inv : Matrix (Fin d) (Fin d) ℝ → Option (Matrix (Fin d) (Fin d) ℝ)) (sp : Splines ℝ d m) (cps : ℕ → Fin v → ℝ) :
    let ok := (inv (jacobian sp.geometryDerivative)).isSome
    (basisGradientAndSupport inv sp).isSome = ok ∧ (basisHessianAndSupport inv sp).isSome = ok ∧ (basisLaplacianAndSupport inv sp).isSome = ok ∧
      (gradientCall inv sp cps).isSome = ok ∧ (hessianCall inv sp cps).isSome = ok ∧ (laplacianCall inv sp cps).isSome = ok ∧
      ((divergenceCall inv sp cps).isSome = true ↔ ok = true ∧ d = v) := by
  intro ok
  simp only [ok, basisGradientAndSupport, basisHessianAndSupport, basisLaplacianAndSupport, gradientCall, hessianCall, laplacianCall, divergenceCall, basisCall,
    fieldDerivatives, basisFunctionDerivatives]
  cases inv (jacobian sp.geometryDerivative)
  · simp
  · by_cases e : d = v <;> simp [e]

-- Non-vacuity: the splines of `Verif/Props/Mapper.lean`, which meet the hypotheses on derivatives (`example_returns`, `exampleInv_inverts`).
example : (divergenceCall exampleInv exampleSplines (fun _ (_ : Fin 1) => 2)).isSome = true :=
  (calls_succeed_iff exampleInv exampleSplines _).2.2.2.2.2.2.mpr ⟨by simp [exampleInv, jacobian_entry, exampleSplines, eye], rfl⟩

end Splinepy.Mapper
