import Verif.Props.Integrate
import Mathlib.Analysis.InnerProductSpace.Spectrum
import Mathlib.RingTheory.Polynomial.DegreeLT
import Mathlib.Topology.Algebra.Polynomial

/-!
C32, C33: the contract of `leggauss` can be met for every order, so the theorems about quadrature are about something. The rule is obtained from the eigenvalues of the multiplication by the
parameter, compressed to the polynomials of degree below the order.
-/
namespace Splinepy.Integrate
open MeasureTheory Polynomial

theorem poly_continuous (p : ℝ[X]) : Continuous fun x : ℝ => p.eval x := by fun_prop

theorem poly_integrable (p : ℝ[X]) : IntervalIntegrable (fun x : ℝ => p.eval x) MeasureTheory.volume (-1) 1 := (poly_continuous p).intervalIntegrable _ _

/-- A square of a polynomial that is not zero has a positive integral, also with a polynomial weight that is positive inside. -/
theorem weighted_pos (g p : ℝ[X]) (hg : ∀ x : ℝ, -1 < x → x < 1 → 0 < g.eval x) (hg1 : 0 ≤ g.eval 1) (hp : p ≠ 0) :
    0 < ∫ x in (-1 : ℝ)..1, (g * (p * p)).eval x := by
  obtain ⟨c, hc, hr⟩ : ∃ c ∈ Set.Ioo (-1 : ℝ) 1, p.eval c ≠ 0 := by
    by_contra h
    push Not at h
    exact hp (p.eq_zero_of_infinite_isRoot ((Set.Ioo_infinite (by norm_num : (-1 : ℝ) < 1)).mono fun x hx => h x hx))
  refine intervalIntegral.integral_pos (by norm_num) (poly_continuous _).continuousOn (fun x hx => ?_) ⟨c, ⟨hc.1.le, hc.2.le⟩, ?_⟩
  · rw [eval_mul, eval_mul]
    refine mul_nonneg ?_ (mul_self_nonneg _)
    rcases hx.2.lt_or_eq with h | h
    · exact (hg x hx.1 h).le
    · rw [h]; exact hg1
  · rw [eval_mul, eval_mul]
    exact mul_pos (hg c hc.1 hc.2) (mul_self_pos.mpr hr)

/-- integral of a product -/
noncomputable def pairing (p q : ℝ[X]) : ℝ := ∫ x in (-1 : ℝ)..1, (p * q).eval x

theorem pairing_comm (p q : ℝ[X]) : pairing p q = pairing q p := by rw [pairing, pairing, mul_comm]

theorem pairing_add (p q r : ℝ[X]) : pairing (p + q) r = pairing p r + pairing q r := by
  simp only [pairing, add_mul, eval_add]
  exact intervalIntegral.integral_add (poly_integrable _) (poly_integrable _)

theorem pairing_smul (c : ℝ) (p q : ℝ[X]) : pairing (c • p) q = c * pairing p q := by
  simp only [pairing, smul_mul_assoc, eval_smul, smul_eq_mul]
  exact intervalIntegral.integral_const_mul _ _

/-- the inner product on the polynomials of degree below `n` -/
noncomputable def polyCore (n : ℕ) : InnerProductSpace.Core ℝ (degreeLT ℝ n) where
  inner p q := pairing p q
  conj_inner_symm p q := by simp [pairing_comm]
  re_inner_nonneg p := by
    simp only [RCLike.re_to_real]
    exact intervalIntegral.integral_nonneg (by norm_num) fun x _ => by rw [eval_mul]; exact mul_self_nonneg _
  add_left p q r := by simp [pairing_add]
  smul_left p q c := by simp [pairing_smul]
  definite p h := by
    by_contra hp
    have := weighted_pos 1 p.1 (by simp) (by simp) (fun e => hp (Subtype.ext e))
    rw [one_mul] at this
    exact this.ne' h

theorem sum_filter_zero {α : Type*} (L : List α) (p : α → Bool) (f : α → ℝ) (h : ∀ a, p a = false → f a = 0) : ((L.filter p).map f).sum = (L.map f).sum := by
  induction L with
  | nil => rfl
  | cons a L ih =>
    cases hp : p a
    · rw [List.filter_cons_of_neg (by simp [hp]), ih, List.map_cons, List.sum_cons, h a hp, zero_add]
    · rw [List.filter_cons_of_pos hp, List.map_cons, List.sum_cons, ih, List.map_cons, List.sum_cons]

/-- A symmetric bilinear form is diagonal in some orthonormal basis. -/
theorem diagonal {V : Type} [NormedAddCommGroup V] [InnerProductSpace ℝ V] [FiniteDimensional ℝ V] (A : V →ₗ[ℝ] V →ₗ[ℝ] ℝ) (hA : ∀ p q, A p q = A q p) :
    ∃ (N : ℕ) (e : OrthonormalBasis (Fin N) ℝ V) (l : Fin N → ℝ), ∀ p i, A p (e i) = l i * inner ℝ p (e i) := by
  set b := stdOrthonormalBasis ℝ V
  let T : V →ₗ[ℝ] V := ∑ i, (A.flip (b i)).smulRight (b i)
  have hT : ∀ p q, inner ℝ (T p) q = A p q := by
    intro p q
    have hq : A p q = A p (∑ i, inner ℝ (b i) q • b i) := by rw [b.sum_repr']
    rw [hq, map_sum]
    simp only [T, LinearMap.sum_apply, LinearMap.smulRight_apply, LinearMap.flip_apply, sum_inner, inner_smul_left, map_smul, smul_eq_mul, conj_trivial, mul_comm]
  have hs : T.IsSymmetric := fun p q => by rw [hT, hA, ← hT, real_inner_comm]
  refine ⟨Module.finrank ℝ V, hs.eigenvectorBasis rfl, hs.eigenvalues rfl, fun p i => ?_⟩
  rw [hA, ← hT, hs.apply_eigenvectorBasis, inner_smul_left, real_inner_comm]
  simp

/-- **C32, C33.** For every order there is a rule with the properties that are assumed of `leggauss`: points inside of (-1, 1), positive weights, exact for all polynomials of degree below twice
the order. -/
theorem gauss_exists (n : ℕ) : ∃ g : List ℝ × List ℝ, Spec.IsGaussLegendre n g := by
  rcases Nat.eq_zero_or_pos n with rfl | hn
  · exact ⟨([], []), rfl, by simp, by simp, fun P h => absurd h (by omega)⟩
  letI : NormedAddCommGroup (degreeLT ℝ n) := (polyCore n).toNormedAddCommGroup
  letI : InnerProductSpace ℝ (degreeLT ℝ n) := InnerProductSpace.ofCore (polyCore n).toCore
  have hin : ∀ p q : degreeLT ℝ n, inner ℝ p q = pairing p q := fun _ _ => rfl
  haveI : FiniteDimensional ℝ (degreeLT ℝ n) := Module.Finite.equiv (degreeLTEquiv ℝ n).symm
  let A : degreeLT ℝ n →ₗ[ℝ] degreeLT ℝ n →ₗ[ℝ] ℝ := LinearMap.mk₂ ℝ (fun p q => pairing (X * (p : ℝ[X])) q)
    (fun p q r => by simp [mul_add, pairing_add]) (fun c p q => by simp [pairing_smul])
    (fun p q r => by simp only [pairing_comm (X * (p : ℝ[X])), Submodule.coe_add, pairing_add])
    (fun c p q => by simp only [pairing_comm (X * (p : ℝ[X])), Submodule.coe_smul, pairing_smul, smul_eq_mul])
  have hA : ∀ p q, A p q = pairing (X * (p : ℝ[X])) q := fun _ _ => rfl
  obtain ⟨N, e, l, he⟩ := diagonal A (fun p q => by rw [hA, hA, pairing, pairing]; congr 1; funext x; congr 1; ring)
  have hmem : ∀ k, k < n → (X ^ k : ℝ[X]) ∈ degreeLT ℝ n := fun k hk => mem_degreeLT.mpr (by rw [degree_X_pow]; exact_mod_cast hk)
  let m : ∀ k, k < n → degreeLT ℝ n := fun k hk => ⟨X ^ k, hmem k hk⟩
  let c : Fin N → ℝ := fun i => inner ℝ (m 0 hn) (e i)
  have hpow : ∀ k (hk : k < n) i, inner ℝ (m k hk) (e i) = l i ^ k * c i := by
    intro k
    induction k with
    | zero => intro hk i; simp [c]
    | succ k ih =>
      intro hk i
      have h1 : inner ℝ (m (k + 1) hk) (e i) = A (m k (by omega)) (e i) := by
        rw [hin, hA]
        simp only [m]
        rw [pow_succ']
      rw [h1, he, ih (by omega) i]
      ring
  have hexp : ∀ p q : degreeLT ℝ n, inner ℝ p q = ∑ i, inner ℝ p (e i) * inner ℝ q (e i) := by
    intro p q
    rw [← e.sum_inner_mul_inner p q]
    exact Finset.sum_congr rfl fun i _ => by rw [real_inner_comm (e i) q]
  have hmono : ∀ j, j < 2 * n → ∫ x in (-1 : ℝ)..1, x ^ j = ∑ i, l i ^ j * (c i * c i) := by
    intro j hj
    by_cases hj' : j < 2 * n - 1
    · have ha : j / 2 < n := by omega
      have hb : j - j / 2 < n := by omega
      have h1 : ∫ x in (-1 : ℝ)..1, x ^ j = inner ℝ (m (j / 2) ha) (m (j - j / 2) hb) := by
        rw [hin, pairing]
        simp only [m, ← pow_add, eval_pow, eval_X]
        rw [Nat.add_sub_cancel' (Nat.div_le_self j 2)]
      rw [h1, hexp]
      refine Finset.sum_congr rfl fun i _ => ?_
      rw [hpow _ ha, hpow _ hb]
      calc l i ^ (j / 2) * c i * (l i ^ (j - j / 2) * c i) = l i ^ (j / 2 + (j - j / 2)) * (c i * c i) := by rw [pow_add]; ring
        _ = _ := by rw [Nat.add_sub_cancel' (Nat.div_le_self j 2)]
    · have ha : n - 1 < n := by omega
      have hj2 : j = 1 + (n - 1) + (n - 1) := by omega
      have h1 : ∫ x in (-1 : ℝ)..1, x ^ j = A (m (n - 1) ha) (m (n - 1) ha) := by
        rw [hA, pairing, hj2]
        simp only [m, eval_mul, eval_pow, eval_X, pow_add, pow_one]
      have h2 : A (m (n - 1) ha) (m (n - 1) ha) = ∑ i, inner ℝ (m (n - 1) ha) (e i) * A (m (n - 1) ha) (e i) := by
        generalize m (n - 1) ha = p
        have hq : A p p = A p (∑ i, inner ℝ (e i) p • e i) := by rw [e.sum_repr']
        rw [hq, map_sum]
        refine Finset.sum_congr rfl fun i _ => ?_
        rw [map_smul, smul_eq_mul, real_inner_comm]
      rw [h1, h2]
      refine Finset.sum_congr rfl fun i _ => ?_
      rw [he, hpow _ ha, hj2]
      ring
  have hl : ∀ i, -1 < l i ∧ l i < 1 := by
    intro i
    have hne : (e i : ℝ[X]) ≠ 0 := fun h => e.orthonormal.ne_zero i (Subtype.ext h)
    have h1 : pairing (e i) (e i) = 1 := by
      rw [← hin, real_inner_self_eq_norm_sq, e.orthonormal.1 i]; norm_num
    have h2 : pairing (X * (e i : ℝ[X])) (e i) = l i := by rw [← hA, he, hin, h1, mul_one]
    have ha := weighted_pos (1 + X) (e i) (fun x hx _ => by simp; linarith) (by rw [eval_add, eval_one, eval_X]; norm_num) hne
    have hb := weighted_pos (1 - X) (e i) (fun x _ hx => by simp; linarith) (by simp) hne
    have ha' : ∫ x in (-1 : ℝ)..1, ((1 + X) * ((e i : ℝ[X]) * (e i : ℝ[X]))).eval x = 1 + l i := by
      have : pairing ((e i : ℝ[X]) + X * (e i : ℝ[X])) (e i) = 1 + l i := by rw [pairing_add, h1, h2]
      rw [← this, pairing]
      congr 1; funext x; congr 1; ring
    have hb' : ∫ x in (-1 : ℝ)..1, ((1 - X) * ((e i : ℝ[X]) * (e i : ℝ[X]))).eval x = 1 - l i := by
      have : pairing ((e i : ℝ[X]) + (-1 : ℝ) • (X * (e i : ℝ[X]))) (e i) = 1 - l i := by
        rw [pairing_add, pairing_smul, h1, h2]; ring
      rw [← this, pairing]
      congr 1; funext x; congr 1
      rw [neg_one_smul]; ring
    rw [ha'] at ha
    rw [hb'] at hb
    exact ⟨by linarith, by linarith⟩
  let idx := (List.finRange N).filter fun i => decide (c i ≠ 0)
  have hsum : ∀ f : Fin N → ℝ, (idx.map fun i => f i * (c i * c i)).sum = ∑ i, f i * (c i * c i) := by
    intro f
    rw [← List.sum_ofFn, List.ofFn_eq_map]
    exact sum_filter_zero (List.finRange N) _ _ fun i hi => by simp only [decide_eq_false_iff_not, not_not] at hi; rw [hi]; ring
  refine ⟨(idx.map l, idx.map fun i => c i * c i), by simp, ?_, ?_, fun P hP => ?_⟩
  · intro x hx
    obtain ⟨i, -, rfl⟩ := List.mem_map.mp hx
    exact hl i
  · intro w hw
    obtain ⟨i, hi, rfl⟩ := List.mem_map.mp hw
    exact mul_self_pos.mpr (by simpa [idx] using hi)
  · have hz : List.zipWith (fun x w => P.eval x * w) (idx.map l) (idx.map fun i => c i * c i) = idx.map fun i => P.eval (l i) * (c i * c i) := by
      rw [List.zipWith_map_left, List.zipWith_map_right, List.zipWith_self]
    rw [hz, hsum]
    simp only [eval_eq_sum_range' hP]
    have hint : ∀ j ∈ Finset.range (2 * n), IntervalIntegrable (fun x : ℝ => P.coeff j * x ^ j) MeasureTheory.volume (-1) 1 :=
      fun j _ => Continuous.intervalIntegrable (by fun_prop) _ _
    rw [intervalIntegral.integral_finset_sum hint]
    simp only [intervalIntegral.integral_const_mul, Finset.sum_mul]
    rw [Finset.sum_comm]
    refine Finset.sum_congr rfl fun j hj => ?_
    rw [hmono j (Finset.mem_range.mp hj), Finset.mul_sum]
    exact Finset.sum_congr rfl fun i _ => by ring

/-- **C32, C33.** So there is a function with the properties assumed of `leggauss` for all orders at once: the hypotheses of the theorems about quadrature can be met for every spline and
every choice of orders. -/
theorem leggauss_exists : ∃ leggauss : ℕ → List ℝ × List ℝ, ∀ m, Spec.IsGaussLegendre m (leggauss m) :=
  ⟨fun m => (gauss_exists m).choose, fun m => (gauss_exists m).choose_spec⟩

-- Non-vacuity: the rule of order three is exact for a polynomial of degree five.
example : ∃ g : List ℝ × List ℝ, (List.zipWith (fun x w => (X ^ 5 + X ^ 4 : ℝ[X]).eval x * w) g.1 g.2).sum = ∫ x in (-1 : ℝ)..1, (X ^ 5 + X ^ 4 : ℝ[X]).eval x := by
  obtain ⟨g, hg⟩ := gauss_exists 3
  exact ⟨g, hg.exact _ (lt_of_le_of_lt (natDegree_add_le _ _) (by simp))⟩

end Splinepy.Integrate
