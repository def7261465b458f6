import Verif.Lemma.Blossom
import Mathlib.Algebra.Polynomial.Taylor
import Mathlib.Algebra.Polynomial.Roots
import Mathlib.Algebra.Polynomial.BigOperators
import Mathlib.Data.List.Perm.Basic
import Mathlib.Algebra.CharZero.Infinite

/-!
Marsden's identity, smoothness of B-splines across knots, and the theorem of Curry and Schoenberg: piecewise polynomials that are smooth enough at the knots are
linear combinations of B-splines.
-/
namespace Splinepy.CurrySchoenberg
open Finset Polynomial Splinepy.Blossom

set_option linter.unusedSectionVars false

variable {K : Type*} [Field K] [LinearOrder K] [IsStrictOrderedRing K]

/-! ### Marsden's identity -/

/-- `(z - t (j + 1)) ⋯ (z - t (j + D))` -/
noncomputable def psi (t : ℕ → K) (D j : ℕ) : K[X] := ∏ i ∈ range D, (X - C (t (j + 1 + i)))

theorem psi_succ (t : ℕ → K) (D j : ℕ) : psi t (D + 1) j = psi t D j * (X - C (t (j + D + 1))) := by
  unfold psi
  rw [prod_range_succ, show j + 1 + D = j + D + 1 by omega]

theorem psi_succ' (t : ℕ → K) (D j : ℕ) : psi t (D + 1) j = (X - C (t (j + 1))) * psi t D (j + 1) := by
  unfold psi
  rw [prod_range_succ', mul_comm, show j + 1 + 0 = j + 1 by omega]
  congr 1
  refine prod_congr rfl fun i _ => ?_
  rw [show j + 1 + (i + 1) = j + 1 + 1 + i by omega]

theorem marsden {t : ℕ → K} (ht : Monotone t) {μ : ℕ} (hμ : t μ < t (μ + 1)) (y : ℕ → K) (D : ℕ) (hD : D ≤ μ) :
    ∑ j ∈ range (μ + 1), C (bl t μ y D j) * psi t D j = ∏ k ∈ range D, (X - C (y k)) := by
  induction D with
  | zero =>
    simp only [bl, psi, range_zero, prod_empty, mul_one]
    rw [sum_eq_single μ] <;> simp +contextual
  | succ d ih =>
    have ih' := ih (by omega)
    have hsupp := supp_bl t μ y d
    rw [prod_range_succ, ← ih']
    set v := bl t μ y d with hv
    have h0 : v 0 = 0 := by by_contra hc; have := hsupp 0 hc; omega
    have hl : v (μ + 1) = 0 := by by_contra hc; have := hsupp _ hc; omega
    rw [bl_succ, ← hv]
    unfold R
    simp only [C_add, add_mul]
    rw [sum_add_distrib, sum_range_succ (fun j => C ((t (j + d + 2) - y d) / (t (j + d + 2) - t (j + 1)) * v (j + 1)) * psi t (d + 1) j), hl, mul_zero, C_0, zero_mul,
      add_zero, sum_range_succ' (fun j => C ((y d - t j) / (t (j + d + 1) - t j) * v j) * psi t (d + 1) j), h0, mul_zero, C_0, zero_mul, add_zero, ← sum_add_distrib,
      sum_range_succ' (fun j => C (v j) * psi t d j), h0, C_0, zero_mul, add_zero, sum_mul]
    apply sum_congr rfl
    intro j hj
    rw [mem_range] at hj
    by_cases hz : v (j + 1) = 0
    · rw [hz]; simp
    · have hs := hsupp _ hz
      have h1 := ht hs.1
      have h2 := ht (show μ + 1 ≤ j + d + 2 by omega)
      have hne : t (j + d + 2) - t (j + 1) ≠ 0 := (sub_pos.2 (by linarith)).ne'
      rw [psi_succ t d (j + 1), psi_succ' t d j, show j + 1 + d + 1 = j + d + 2 by omega]
      have e1 : (C ((y d - t (j + 1)) / (t (j + d + 2) - t (j + 1)) * v (j + 1)) * (psi t d (j + 1) * (X - C (t (j + d + 2)))) +
          C ((t (j + d + 2) - y d) / (t (j + d + 2) - t (j + 1)) * v (j + 1)) * ((X - C (t (j + 1))) * psi t d (j + 1))) =
          C (v (j + 1)) * psi t d (j + 1) * C ((t (j + d + 2) - t (j + 1))⁻¹) *
          (C (y d - t (j + 1)) * (X - C (t (j + d + 2))) + C (t (j + d + 2) - y d) * (X - C (t (j + 1)))) := by
        simp only [div_eq_mul_inv, C_mul]
        ring
      have e2 : C (y d - t (j + 1)) * (X - C (t (j + d + 2))) + C (t (j + d + 2) - y d) * (X - C (t (j + 1))) = C (t (j + d + 2) - t (j + 1)) * (X - C (y d)) := by
        simp only [C_sub]
        ring
      rw [e1, e2]
      have e3 : C ((t (j + d + 2) - t (j + 1))⁻¹) * C (t (j + d + 2) - t (j + 1)) = (1 : K[X]) := by
        rw [← C_mul, inv_mul_cancel₀ hne, C_1]
      calc C (v (j + 1)) * psi t d (j + 1) * C ((t (j + d + 2) - t (j + 1))⁻¹) * (C (t (j + d + 2) - t (j + 1)) * (X - C (y d)))
          = C (v (j + 1)) * psi t d (j + 1) * (C ((t (j + d + 2) - t (j + 1))⁻¹) * C (t (j + d + 2) - t (j + 1))) * (X - C (y d)) := by ring
        _ = _ := by rw [e3, mul_one]

/-! ### the pairing of polynomials of degree `D` -/

/-- linear functional with `pair D P ((X - y) ^ D) = P y` -/
noncomputable def pair (D : ℕ) (P : K[X]) : K[X] →ₗ[K] K :=
  ∑ k ∈ range (D + 1), ((-1) ^ k * P.coeff k / (D.choose k : K)) • Polynomial.lcoeff K (D - k)

theorem pair_apply (D : ℕ) (P q : K[X]) : pair D P q = ∑ k ∈ range (D + 1), (-1) ^ k * P.coeff k / (D.choose k : K) * q.coeff (D - k) := by
  simp [pair, LinearMap.sum_apply]

theorem coeff_X_sub_C_pow' (y : K) (D k : ℕ) (hk : k ≤ D) : ((X - C y) ^ D).coeff (D - k) = (-y) ^ k * (D.choose k : K) := by
  rw [sub_eq_add_neg, ← C_neg, coeff_X_add_C_pow, Nat.choose_symm hk, Nat.sub_sub_self hk]

theorem pair_pow (D : ℕ) (P : K[X]) (hP : P.natDegree ≤ D) (y : K) : pair D P ((X - C y) ^ D) = P.eval y := by
  rw [pair_apply, eval_eq_sum_range' (Nat.lt_succ_of_le hP)]
  refine sum_congr rfl fun k hk => ?_
  have hk' : k ≤ D := Nat.lt_succ_iff.1 (mem_range.1 hk)
  have hne : (D.choose k : K) ≠ 0 := by exact_mod_cast (Nat.choose_pos hk').ne'
  rw [coeff_X_sub_C_pow' y D k hk']
  rw [neg_pow y]
  have hs : ((-1 : K)) ^ k * (-1) ^ k = 1 := by rw [← mul_pow]; simp
  field_simp
  linear_combination (P.coeff k * y ^ k) * hs

theorem pair_sub (D : ℕ) (P Q q : K[X]) : pair D (P - Q) q = pair D P q - pair D Q q := by
  simp only [pair_apply, ← sum_sub_distrib]
  refine sum_congr rfl fun k _ => ?_
  rw [coeff_sub]
  ring

/-- powers that belong to the zero of a polynomial are not seen -/
theorem pair_zero (D e r : ℕ) (P : K[X]) (hP : P.natDegree ≤ D) (x : K) (hd : (X - C x) ^ r ∣ P) (he : e ≤ D) (hr : D < e + r) : pair D P ((X - C x) ^ e) = 0 := by
  have key : ∑ e ∈ range (D + 1), C ((D.choose e : K) * (-1) ^ (D - e) * pair D P ((X - C x) ^ e)) * X ^ (D - e) = P.comp (X + C x) := by
    refine Polynomial.funext fun w => ?_
    rw [eval_finset_sum, eval_comp, eval_add, eval_X, eval_C, ← pair_pow D P hP (w + x)]
    have e1 : (X - C (w + x) : K[X]) ^ D = ∑ e ∈ range (D + 1), ((D.choose e : K) * (-1) ^ (D - e) * w ^ (D - e)) • (X - C x) ^ e := by
      rw [show (X - C (w + x) : K[X]) = (X - C x) + C (-w) by rw [C_add, C_neg]; ring, add_pow]
      refine sum_congr rfl fun e _ => ?_
      rw [smul_eq_C_mul, ← C_pow, neg_pow w]
      simp only [C_mul, map_natCast]
      ring
    rw [e1, map_sum]
    refine sum_congr rfl fun e _ => ?_
    rw [map_smul, eval_mul, eval_C, eval_pow, eval_X, smul_eq_mul]
    ring
  obtain ⟨Q, hQ⟩ := hd
  have h1 := congrArg (fun q => q.coeff (D - e)) key
  simp only [finsetSum_coeff, coeff_C_mul, coeff_X_pow] at h1
  rw [sum_eq_single e, if_pos rfl, mul_one] at h1
  · have h2 : (P.comp (X + C x)).coeff (D - e) = 0 := by
      rw [hQ, mul_comp, pow_comp, sub_comp, X_comp, C_comp, add_sub_cancel_right, coeff_X_pow_mul']
      rw [if_neg (by omega)]
    rw [h2] at h1
    have hne : (D.choose e : K) ≠ 0 := by exact_mod_cast (Nat.choose_pos he).ne'
    have hs : ((-1 : K)) ^ (D - e) ≠ 0 := pow_ne_zero _ (by simp)
    exact (mul_eq_zero.1 h1).resolve_left (mul_ne_zero hne hs)
  · intro k hk hke
    have hk' := mem_range.1 hk
    rw [if_neg (by omega), mul_zero]
  · intro h
    exact absurd (mem_range.2 (by omega)) h

theorem pair_multiple (D M r : ℕ) (P : K[X]) (hP : P.natDegree ≤ D) (x : K) (hd : (X - C x) ^ r ∣ P) (hr : D < M + r) (q : K[X]) (hq : ((X - C x) ^ M * q).natDegree ≤ D) :
    pair D P ((X - C x) ^ M * q) = 0 := by
  by_cases hq0 : q = 0
  · rw [hq0, mul_zero, map_zero]
  have hdeg : M + q.natDegree ≤ D := by
    rw [natDegree_mul (pow_ne_zero _ (X_sub_C_ne_zero x)) hq0, natDegree_pow, natDegree_X_sub_C, mul_one] at hq
    exact hq
  rw [← sum_taylor_eq q x, Polynomial.sum, mul_sum, map_sum]
  refine sum_eq_zero fun i hi => ?_
  have hi' : i ≤ q.natDegree := by
    have := le_natDegree_of_mem_supp i hi
    rwa [natDegree_taylor] at this
  rw [show (X - C x) ^ M * (C ((taylor x q).coeff i) * (X - C x) ^ i) = ((taylor x q).coeff i) • (X - C x) ^ (M + i) by rw [smul_eq_C_mul, pow_add]; ring, map_smul,
    pair_zero D (M + i) r P hP x hd (by omega) (by omega), smul_zero]

theorem psi_natDegree (t : ℕ → K) (D j : ℕ) : (psi t D j).natDegree = D := by
  unfold psi
  rw [natDegree_prod_of_monic _ _ fun i _ => monic_X_sub_C _]
  simp

/-- a knot that occurs `M` times among the knots of the functional -/
theorem psi_factor (t : ℕ → K) (D j q M : ℕ) (x : K) (hj : j ≤ q) (hq : q + M ≤ j + D) (hx : ∀ k, 1 ≤ k → k ≤ M → t (q + k) = x) : (X - C x) ^ M ∣ psi t D j := by
  have hsub : (range M).image (fun k => q - j + k) ⊆ range D := by
    intro a ha
    obtain ⟨k, hk, rfl⟩ := mem_image.1 ha
    have := mem_range.1 hk
    exact mem_range.2 (by omega)
  have hinj : Set.InjOn (fun k => q - j + k) (range M : Set ℕ) := fun a _ b _ h => by simpa using h
  unfold psi
  refine dvd_trans ?_ (prod_dvd_prod_of_subset _ _ _ hsub)
  rw [prod_image hinj]
  refine dvd_of_eq ?_
  rw [← card_range M, ← prod_const, card_range]
  refine prod_congr rfl fun k hk => ?_
  have := mem_range.1 hk
  rw [show j + 1 + (q - j + k) = q + (k + 1) by omega, hx (k + 1) (by omega) (by omega)]

/-! ### knot sequences with their non-empty spans -/

/-- The non-empty spans of the knot sequence `t` with degree `D`: `L` of them, span `i` is number `ν i` and reaches from `x i` to `x (i + 1)`; the knot `x i` inside occurs
`M i` times. -/
structure Spans (t : ℕ → K) (D L : ℕ) (x : ℕ → K) (M ν : ℕ → ℕ) : Prop where
  mono : Monotone t
  start : ν 0 = D
  step : ∀ i, i + 1 < L → ν (i + 1) = ν i + M (i + 1)
  left : ∀ i < L, t (ν i) = x i
  right : ∀ i < L, t (ν i + 1) = x (i + 1)
  inner : ∀ i, i + 1 < L → ∀ k, 1 ≤ k → k ≤ M (i + 1) → t (ν i + k) = x (i + 1)
  lt : ∀ i < L, x i < x (i + 1)

namespace Spans
variable {t : ℕ → K} {D L : ℕ} {x : ℕ → K} {M ν : ℕ → ℕ}

theorem span_lt (H : Spans t D L x M ν) {i : ℕ} (hi : i < L) : t (ν i) < t (ν i + 1) := by
  rw [H.left i hi, H.right i hi]
  exact H.lt i hi

theorem ge (H : Spans t D L x M ν) {i : ℕ} (hi : i < L) : D ≤ ν i := by
  induction i with
  | zero => exact H.start.ge
  | succ i ih =>
    have := ih (by omega)
    rw [H.step i hi]
    omega

theorem nu_mono (H : Spans t D L x M ν) {i k : ℕ} (hik : i ≤ k) (hk : k < L) : ν i ≤ ν k := by
  induction k, hik using Nat.le_induction with
  | base => exact Nat.le_refl _
  | succ k _ ih =>
    have := ih (by omega)
    rw [H.step k hk]
    omega

end Spans

/-! ### the theorem of Curry and Schoenberg -/

/-- the functional does not depend on the piece -/
theorem pair_piece {t : ℕ → K} {D L : ℕ} {x : ℕ → K} {M ν : ℕ → ℕ} (H : Spans t D L x M ν) (P : ℕ → K[X]) (hdeg : ∀ i < L, (P i).natDegree ≤ D)
    (hjump : ∀ i, i + 1 < L → (X - C (x (i + 1))) ^ (D + 1 - M (i + 1)) ∣ P (i + 1) - P i) (j : ℕ) {i k : ℕ} (hik : i ≤ k) (hk : k < L) (hi : j ≤ ν i) (hkj : ν k ≤ j + D) :
    pair D (P k) (psi t D j) = pair D (P i) (psi t D j) := by
  induction k, hik using Nat.le_induction with
  | base => rfl
  | succ k hik ih =>
    have hmono := H.nu_mono hik (by omega : k < L)
    have hstep := H.step k hk
    rw [← ih (by omega) (by omega), ← sub_eq_zero, ← pair_sub]
    obtain ⟨q, hq⟩ := psi_factor t D j (ν k) (M (k + 1)) (x (k + 1)) (by omega) (by omega) (H.inner k hk)
    rw [hq]
    refine pair_multiple D _ (D + 1 - M (k + 1)) _ ?_ _ (hjump k hk) (by omega) q ?_
    · exact le_trans (natDegree_sub_le _ _) (max_le (hdeg _ hk) (hdeg _ (by omega)))
    · rw [← hq, psi_natDegree]

/-- Curry and Schoenberg: a piecewise polynomial of degree `D` with `D - M` continuous derivatives at the knots of multiplicity `M` is a combination of B-splines. -/
theorem curry_schoenberg {t : ℕ → K} {D L : ℕ} {x : ℕ → K} {M ν : ℕ → ℕ} (H : Spans t D L x M ν) (P : ℕ → K[X]) (hdeg : ∀ i < L, (P i).natDegree ≤ D)
    (hjump : ∀ i, i + 1 < L → (X - C (x (i + 1))) ^ (D + 1 - M (i + 1)) ∣ P (i + 1) - P i) :
    ∃ c : ℕ → K, ∀ i < L, ∀ N, ν i < N → ∀ y, ∑ j ∈ range N, bl t (ν i) (fun _ => y) D j * c j = (P i).eval y := by
  classical
  let c : ℕ → K := fun j => if h : ∃ i, i < L ∧ j ≤ ν i ∧ ν i ≤ j + D then pair D (P h.choose) (psi t D j) else 0
  have hc : ∀ i < L, ∀ j, j ≤ ν i → ν i ≤ j + D → c j = pair D (P i) (psi t D j) := by
    intro i hi j h1 h2
    have h : ∃ i, i < L ∧ j ≤ ν i ∧ ν i ≤ j + D := ⟨i, hi, h1, h2⟩
    simp only [c, dif_pos h]
    obtain ⟨a1, a2, a3⟩ := h.choose_spec
    rcases Nat.le_total i h.choose with hle | hle
    · exact pair_piece H P hdeg hjump j hle a1 h1 a3
    · exact (pair_piece H P hdeg hjump j hle hi a2 h2).symm
  refine ⟨c, fun i hi N hN y => ?_⟩
  have hm := marsden H.mono (H.span_lt hi) (fun _ => y) D (H.ge hi)
  rw [prod_const, card_range] at hm
  rw [← pair_pow D (P i) (hdeg i hi) y, ← hm, map_sum]
  have hsub : range (ν i + 1) ⊆ range N := range_subset_range.2 hN
  rw [← sum_subset hsub]
  · refine sum_congr rfl fun j hj => ?_
    have hj' := mem_range.1 hj
    rw [← smul_eq_C_mul, map_smul, smul_eq_mul]
    by_cases hz : bl t (ν i) (fun _ => y) D j = 0
    · rw [hz, zero_mul, zero_mul]
    · have := supp_bl t (ν i) (fun _ => y) D j hz
      rw [hc i hi j this.1 this.2]
  · intro j _ hj
    by_cases hz : bl t (ν i) (fun _ => y) D j = 0
    · rw [hz, zero_mul]
    · exact absurd (mem_range.2 (Nat.lt_succ_of_le (supp_bl t (ν i) (fun _ => y) D j hz).1)) hj

/-! ### smoothness of B-splines -/

/-- blossom with a list of arguments; the last argument belongs to the first step -/
def blL (t : ℕ → K) (μ : ℕ) : List K → ℕ → K
  | [] => fun j => if j = μ then 1 else 0
  | a :: l => R t l.length a (blL t μ l)

theorem supp_blL (t : ℕ → K) (μ : ℕ) (l : List K) : Supp μ l.length (blL t μ l) := by
  induction l with
  | nil =>
    intro j hj
    by_cases h : j = μ
    · simp [h]
    · exact absurd (by simp [blL, h]) hj
  | cons a l ih => exact supp_R _ ih

theorem blL_replicate (t : ℕ → K) (μ : ℕ) (y : K) (d : ℕ) : blL t μ (List.replicate d y) = bl t μ (fun _ => y) d := by
  induction d with
  | zero => rfl
  | succ d ih => rw [List.replicate_succ, blL, ih, List.length_replicate, bl_succ]

theorem blL_perm {t : ℕ → K} (ht : Monotone t) {μ : ℕ} (hμ : t μ < t (μ + 1)) {l l' : List K} (h : l.Perm l') : blL t μ l = blL t μ l' := by
  induction h with
  | nil => rfl
  | cons a h ih => rw [blL, blL, ih, h.length_eq]
  | swap a b l =>
    simp only [blL, List.length_cons]
    exact R_swap ht hμ (supp_blL t μ l) b a
  | trans _ _ h1 h2 => rw [h1, h2]

/-- two neighbouring spans agree as soon as the knot between them is among the arguments often enough -/
theorem blL_eq {t : ℕ → K} (ht : Monotone t) {μ m : ℕ} {a : K} (h0 : t μ < a) (h1 : a < t (μ + m + 1)) (hm : 1 ≤ m) (ha : ∀ k, 1 ≤ k → k ≤ m → t (μ + k) = a) (l : List K)
    (hl : m ≤ l.count a) : blL t (μ + m) l = blL t μ l := by
  classical
  have hs1 : t μ < t (μ + 1) := by rw [ha 1 (le_refl _) hm]; exact h0
  have hs2 : t (μ + m) < t (μ + m + 1) := by rw [ha m hm (le_refl _)]; exact h1
  have hp : l.Perm (l.diff (List.replicate m a) ++ List.replicate m a) := by
    have hsub : (List.replicate m a).Subperm l := (List.replicate_sublist_iff.2 hl).subperm
    exact ((List.perm_append_comm).trans (List.subperm_append_diff_self_of_count_le (List.subperm_ext_iff.1 hsub))).symm
  rw [blL_perm ht hs1 hp, blL_perm ht hs2 hp]
  generalize l.diff (List.replicate m a) = r
  induction r with
  | nil =>
    rw [List.nil_append, blL_replicate, blL_replicate]
    exact (bl_const_eq h0 h1 ha m (le_refl _)).symm
  | cons b r ih => rw [List.cons_append, blL, blL, ih]

/-- the polynomial of a blossom some of whose arguments are the variable -/
noncomputable def blP (t : ℕ → K) (μ : ℕ) : List K[X] → ℕ → K[X]
  | [] => fun j => if j = μ then 1 else 0
  | a :: l => fun j => (a - C (t j)) * C ((t (j + l.length + 1) - t j)⁻¹) * blP t μ l j +
      (C (t (j + l.length + 2)) - a) * C ((t (j + l.length + 2) - t (j + 1))⁻¹) * blP t μ l (j + 1)

theorem eval_blP (t : ℕ → K) (μ : ℕ) (l : List K[X]) (j : ℕ) (y : K) : (blP t μ l j).eval y = blL t μ (l.map (eval y)) j := by
  induction l generalizing j with
  | nil => simp only [blP, blL, List.map_nil]; split <;> simp
  | cons a l ih =>
    simp only [blP, blL, List.map_cons, R, eval_add, eval_mul, eval_sub, eval_C, ih, List.length_map, div_eq_mul_inv]

theorem blP_degree (t : ℕ → K) (μ r : ℕ) (j : ℕ) : (blP t μ (List.replicate r X) j).natDegree ≤ r := by
  induction r generalizing j with
  | zero => simp only [List.replicate_zero, blP]; split <;> simp
  | succ r ih =>
    rw [List.replicate_succ, blP]
    refine le_trans (natDegree_add_le _ _) (max_le ?_ ?_)
    · refine le_trans natDegree_mul_le ?_
      have h1 : ((X - C (t j)) * C ((t (j + (List.replicate r (X : K[X])).length + 1) - t j)⁻¹)).natDegree ≤ 1 := by
        refine le_trans (natDegree_mul_C_le _ _) ?_
        exact (natDegree_X_sub_C _).le
      have := ih j
      omega
    · refine le_trans natDegree_mul_le ?_
      have h1 : ((C (t (j + (List.replicate r (X : K[X])).length + 2)) - X) * C ((t (j + (List.replicate r (X : K[X])).length + 2) - t (j + 1))⁻¹)).natDegree ≤ 1 := by
        refine le_trans (natDegree_mul_C_le _ _) ?_
        refine le_trans (natDegree_sub_le _ _) ?_
        simp
      have := ih (j + 1)
      omega

/-- polynomial of basis function `j` of degree `p` on the span `μ` -/
noncomputable def piece (t : ℕ → K) (p μ j : ℕ) : K[X] := blP t μ (List.replicate p X) j

theorem eval_piece (t : ℕ → K) (p μ j : ℕ) (y : K) : (piece t p μ j).eval y = bl t μ (fun _ => y) p j := by
  rw [piece, eval_blP, List.map_replicate, eval_X, blL_replicate]

theorem jump_aux {t : ℕ → K} (ht : Monotone t) {μ m : ℕ} {a : K} (h0 : t μ < a) (h1 : a < t (μ + m + 1)) (hm : 1 ≤ m) (ha : ∀ k, 1 ≤ k → k ≤ m → t (μ + k) = a) (j r : ℕ)
    (cs : List K) : (X - C a) ^ (r + cs.count a + 1 - m) ∣ blP t (μ + m) (List.replicate r X ++ cs.map C) j - blP t μ (List.replicate r X ++ cs.map C) j := by
  have hs1 : t μ < t (μ + 1) := by rw [ha 1 (le_refl _) hm]; exact h0
  have hs2 : t (μ + m) < t (μ + m + 1) := by rw [ha m hm (le_refl _)]; exact h1
  have hperm : ∀ (ν : ℕ), t ν < t (ν + 1) → ∀ (r : ℕ) (b : K) (cs : List K) (j : ℕ), blP t ν (C b :: (List.replicate r X ++ cs.map C)) j = blP t ν (List.replicate r X ++ (b :: cs).map C) j := by
    intro ν hν r b cs j
    refine Polynomial.funext fun y => ?_
    rw [eval_blP, eval_blP]
    refine congrFun (blL_perm ht hν ?_) j
    rw [List.map_cons, List.map_append, List.map_append, List.map_cons, List.map_cons]
    exact List.perm_middle.symm
  induction r generalizing cs with
  | zero =>
    by_cases hc : m ≤ cs.count a
    · have : blP t (μ + m) (List.replicate 0 X ++ cs.map C) j - blP t μ (List.replicate 0 X ++ cs.map C) j = 0 := by
        refine Polynomial.funext fun y => ?_
        rw [eval_sub, eval_blP, eval_blP, eval_zero, sub_eq_zero]
        have e : (List.replicate 0 X ++ cs.map C).map (eval y) = cs := by
          simp [Function.comp_def]
        rw [e, blL_eq ht h0 h1 hm ha cs hc]
      rw [this]
      exact dvd_zero _
    · rw [show 0 + cs.count a + 1 - m = 0 by omega, pow_zero]
      exact one_dvd _
  | succ r ih =>
    have haff : ∀ ν, t ν < t (ν + 1) → blP t ν (List.replicate (r + 1) X ++ cs.map C) j =
        (X - C a) * blP t ν (List.replicate r X ++ ((a + 1) :: cs).map C) j + (C (a + 1) - X) * blP t ν (List.replicate r X ++ (a :: cs).map C) j := by
      intro ν hν
      rw [← hperm ν hν, ← hperm ν hν, List.replicate_succ, List.cons_append]
      simp only [blP]
      rw [C_add, C_1]
      ring
    rw [haff _ hs1, haff _ hs2]
    have i1 := ih ((a + 1) :: cs)
    have i2 := ih (a :: cs)
    rw [List.count_cons_self] at i2
    rw [List.count_cons_of_ne (by simp)] at i1
    have e : ∀ A B A' B' u v : K[X], u * A + v * B - (u * A' + v * B') = u * (A - A') + v * (B - B') := fun _ _ _ _ _ _ => by ring
    rw [e]
    refine dvd_add ?_ (Dvd.dvd.mul_left (by rw [show r + 1 + cs.count a + 1 - m = r + (cs.count a + 1) + 1 - m by omega]; exact i2) _)
    by_cases hk : m ≤ r + cs.count a + 1
    · rw [show r + 1 + cs.count a + 1 - m = (r + cs.count a + 1 - m) + 1 by omega, pow_succ']
      exact mul_dvd_mul_left _ i1
    · rw [show r + 1 + cs.count a + 1 - m = 0 by omega, pow_zero]
      exact one_dvd _

/-- a basis function of degree `p` has `p - m` continuous derivatives at a knot of multiplicity `m` -/
theorem piece_jump {t : ℕ → K} {p L : ℕ} {x : ℕ → K} {m μ : ℕ → ℕ} (H : Spans t p L x m μ) (hm : ∀ i, i + 1 < L → 1 ≤ m (i + 1)) (i : ℕ) (hi : i + 1 < L) (j : ℕ) :
    (X - C (x (i + 1))) ^ (p + 1 - m (i + 1)) ∣ piece t p (μ (i + 1)) j - piece t p (μ i) j := by
  have hstep := H.step i hi
  have h0 : t (μ i) < x (i + 1) := by rw [H.left i (by omega)]; exact H.lt i (by omega)
  have h1 : x (i + 1) < t (μ i + m (i + 1) + 1) := by rw [← hstep, H.right (i + 1) hi]; exact H.lt (i + 1) hi
  have := jump_aux H.mono h0 h1 (hm i hi) (H.inner i hi) j p []
  rw [List.map_nil, List.append_nil, List.count_nil, Nat.add_zero, ← hstep] at this
  exact this

end Splinepy.CurrySchoenberg
