import Verif.Spec.BSpline
import Mathlib.Algebra.BigOperators.Ring.Finset
import Mathlib.Algebra.Order.BigOperators.Group.Finset
import Mathlib.Tactic.FieldSimp
import Mathlib.Tactic.Ring
import Mathlib.Tactic.Linarith
import Mathlib.Tactic.LinearCombination

/-!
Discrete B-splines: proof of the Oslo algorithm for knot insertion, in the form used by `py_knot_insertion_matrix.cpp`.
-/
namespace Splinepy.Blossom
open Finset

variable {K : Type*} [Field K]

/-- one step of the recursion, raising the degree from `d` to `d + 1` with evaluation point `a` -/
def R (t : ℕ → K) (d : ℕ) (a : K) (v : ℕ → K) (j : ℕ) : K :=
  (a - t j) / (t (j + d + 1) - t j) * v j + (t (j + d + 2) - a) / (t (j + d + 2) - t (j + 1)) * v (j + 1)

/-- blossom of the basis functions of the span `μ`: evaluation point `y k` in step `k` -/
def bl (t : ℕ → K) (μ : ℕ) (y : ℕ → K) : ℕ → ℕ → K
  | 0 => fun j => if j = μ then 1 else 0
  | d + 1 => R t d (y d) (bl t μ y d)

theorem bl_succ (t : ℕ → K) (μ : ℕ) (y : ℕ → K) (d : ℕ) : bl t μ y (d + 1) = R t d (y d) (bl t μ y d) := rfl

theorem bl_congr (t : ℕ → K) (μ : ℕ) (y z : ℕ → K) (d : ℕ) (h : ∀ k < d, y k = z k) : bl t μ y d = bl t μ z d := by
  induction d with
  | zero => rfl
  | succ d ih => rw [bl_succ, bl_succ, ih (fun k hk => h k (by omega)), h d (by omega)]

/-- support -/
def Supp (μ d : ℕ) (v : ℕ → K) : Prop := ∀ j, v j ≠ 0 → j ≤ μ ∧ μ ≤ j + d

theorem supp_R {t : ℕ → K} {μ d : ℕ} {v : ℕ → K} (a : K) (h : Supp μ d v) : Supp μ (d + 1) (R t d a v) := by
  intro j hj
  by_cases h1 : v j = 0
  · by_cases h2 : v (j + 1) = 0
    · exact absurd (by simp [R, h1, h2]) hj
    · have := h _ h2; omega
  · have := h _ h1; omega

theorem supp_bl (t : ℕ → K) (μ : ℕ) (y : ℕ → K) (d : ℕ) : Supp μ d (bl t μ y d) := by
  induction d with
  | zero =>
    intro j hj
    by_cases h : j = μ
    · omega
    · exact absurd (by simp [bl, h]) hj
  | succ d ih => exact supp_R _ ih

variable [LinearOrder K] [IsStrictOrderedRing K]

/-- symmetry of two consecutive steps -/
theorem R_swap {t : ℕ → K} (ht : Monotone t) {μ : ℕ} (hμ : t μ < t (μ + 1)) {d : ℕ} {v : ℕ → K} (hv : Supp μ d v) (a b : K) :
    R t (d + 1) a (R t d b v) = R t (d + 1) b (R t d a v) := by
  funext j
  unfold R
  have e1 : j + (d + 1) + 1 = j + d + 2 := by omega
  have e2 : j + (d + 1) + 2 = j + d + 3 := by omega
  have e3 : j + 1 + d + 1 = j + d + 2 := by omega
  have e4 : j + 1 + d + 2 = j + d + 3 := by omega
  rw [e1, e2, e3, e4]
  by_cases h1 : v (j + 1) = 0
  · rw [h1]; simp only [div_eq_mul_inv]; ring
  · have hs := hv _ h1
    have k1 : t (j + 1) ≤ t μ := ht hs.1
    have k2 : t (μ + 1) ≤ t (j + d + 2) := ht (by omega)
    have k3 : t j ≤ t (j + 1) := ht (by omega)
    have k4 : t (j + d + 2) ≤ t (j + d + 3) := ht (by omega)
    have d1 : t (j + d + 2) - t (j + 1) ≠ 0 := by
      have : t (j + 1) < t (j + d + 2) := by linarith
      exact (sub_pos.2 this).ne'
    have d0 : t (j + d + 2) - t j ≠ 0 := by
      have : t j < t (j + d + 2) := by linarith
      exact (sub_pos.2 this).ne'
    have d3 : t (j + d + 3) - t (j + 1) ≠ 0 := by
      have : t (j + 1) < t (j + d + 3) := by linarith
      exact (sub_pos.2 this).ne'
    have key : (a - t j) / (t (j + d + 2) - t j) * ((t (j + d + 2) - b) / (t (j + d + 2) - t (j + 1))) +
        (t (j + d + 3) - a) / (t (j + d + 3) - t (j + 1)) * ((b - t (j + 1)) / (t (j + d + 2) - t (j + 1))) =
        (b - t j) / (t (j + d + 2) - t j) * ((t (j + d + 2) - a) / (t (j + d + 2) - t (j + 1))) +
        (t (j + d + 3) - b) / (t (j + d + 3) - t (j + 1)) * ((a - t (j + 1)) / (t (j + d + 2) - t (j + 1))) := by
      field_simp
      ring
    have hj0 : (a - t j) / (t (j + d + 2) - t j) * ((b - t j) / (t (j + d + 1) - t j)) =
        (b - t j) / (t (j + d + 2) - t j) * ((a - t j) / (t (j + d + 1) - t j)) := by
      simp only [div_eq_mul_inv]; ring
    have hj2 : (t (j + d + 3) - a) / (t (j + d + 3) - t (j + 1)) * ((t (j + d + 3) - b) / (t (j + d + 3) - t (j + 1 + 1))) =
        (t (j + d + 3) - b) / (t (j + d + 3) - t (j + 1)) * ((t (j + d + 3) - a) / (t (j + d + 3) - t (j + 1 + 1))) := by
      simp only [div_eq_mul_inv]; ring
    linear_combination (v (j + 1)) * key + v j * hj0 + v (j + 1 + 1) * hj2

omit [LinearOrder K] [IsStrictOrderedRing K] in
/-- a step is affine in the evaluation point -/
theorem R_affine (t : ℕ → K) (d : ℕ) (a b x : K) (v : ℕ → K) (j : ℕ) :
    R t d b v j * (x - a) + R t d a v j * (b - x) = (b - a) * R t d x v j := by
  unfold R
  simp only [div_eq_mul_inv]
  ring

/-- Oslo setting: `s` refines `t` (via `ι`), `sp i` is the old span of the new knot `i`, for `i ≤ ν`. -/
structure Refines (t s : ℕ → K) (ι sp : ℕ → ℕ) (ν : ℕ) : Prop where
  mono_t : Monotone t
  mono_s : Monotone s
  emb : StrictMono ι
  eq : ∀ j, s (ι j) = t j
  span : ∀ i ≤ ν, t (sp i) ≤ s i ∧ s i < t (sp i + 1)

/-- all arguments equal to a knot of multiplicity `m`: first `m` steps, seen from the left span -/
theorem bl_const_left {t : ℕ → K} {μ m : ℕ} {a : K} (h0 : t μ < a)
    (ha : ∀ k, 1 ≤ k → k ≤ m → t (μ + k) = a) (k : ℕ) (hk : k ≤ m) :
    bl t μ (fun _ => a) k = fun j => if j = μ then 1 else 0 := by
  induction k with
  | zero => rfl
  | succ k ih =>
    rw [bl_succ, ih (by omega)]
    funext j
    unfold R
    have hk1 := ha (k + 1) (by omega) hk
    by_cases h1 : j = μ
    · subst h1
      rw [show j + k + 1 = j + (k + 1) by omega, hk1]
      simp
      exact (sub_pos.2 h0).ne'
    · by_cases h2 : j + 1 = μ
      · rw [show j + k + 2 = μ + (k + 1) by omega, hk1]
        simp [h1]
      · simp [h1, h2]

/-- … and from the right span -/
theorem bl_const_right {t : ℕ → K} {μ m : ℕ} {a : K} (h0 : a < t (μ + m + 1))
    (ha : ∀ k, 1 ≤ k → k ≤ m → t (μ + k) = a) (k : ℕ) (hk : k ≤ m) :
    bl t (μ + m) (fun _ => a) k = fun j => if j + k = μ + m then 1 else 0 := by
  induction k with
  | zero => rfl
  | succ k ih =>
    rw [bl_succ, ih (by omega)]
    funext j
    unfold R
    beta_reduce
    by_cases h1 : j + k = μ + m
    · have e : t j = a := by
        have := ha (m - k) (by omega) (by omega)
        rwa [show μ + (m - k) = j by omega] at this
      rw [if_pos h1, if_neg (by omega), if_neg (by omega), e]
      simp
    · by_cases h2 : j + 1 + k = μ + m
      · rw [if_neg h1, if_pos h2, if_pos (by omega)]
        have e : t (j + 1) = a := by
          have := ha (m - k) (by omega) (by omega)
          rwa [show μ + (m - k) = j + 1 by omega] at this
        rw [e, show j + k + 2 = μ + m + 1 by omega]
        rw [div_self (sub_pos.2 h0).ne']; simp
      · rw [if_neg h1, if_neg h2, if_neg (by omega)]; simp

theorem bl_const_eq {t : ℕ → K} {μ m : ℕ} {a : K} (h0 : t μ < a) (h1 : a < t (μ + m + 1))
    (ha : ∀ k, 1 ≤ k → k ≤ m → t (μ + k) = a) (k : ℕ) (hk : m ≤ k) :
    bl t μ (fun _ => a) k = bl t (μ + m) (fun _ => a) k := by
  induction k, hk using Nat.le_induction with
  | base =>
    rw [bl_const_left h0 ha m (Nat.le_refl m), bl_const_right h1 ha m (Nat.le_refl m)]
    funext j
    have : (j = μ) ↔ (j + m = μ + m) := by omega
    simp only [this]
  | succ k _ ih => rw [bl_succ, bl_succ, ih]

/-- row of the insertion matrix for degree `d`: coefficient of old basis functions in new control point `i` -/
def row (t s : ℕ → K) (sp : ℕ → ℕ) (i d : ℕ) : ℕ → K := bl t (sp i) (fun k => s (i + 1 + k)) d

theorem span_unique {t : ℕ → K} (ht : Monotone t) {μ μ' : ℕ} {a : K} (h : t μ ≤ a ∧ a < t (μ + 1))
    (h' : t μ' ≤ a ∧ a < t (μ' + 1)) : μ = μ' := by
  by_contra hne
  rcases Nat.lt_or_gt_of_ne hne with hlt | hlt
  · have := ht (show μ + 1 ≤ μ' by omega); linarith [h.2, h'.1]
  · have := ht (show μ' + 1 ≤ μ by omega); linarith [h.1, h'.2]

theorem span_mono {t : ℕ → K} (ht : Monotone t) {μ μ' : ℕ} {a b : K} (hab : a ≤ b) (h : t μ ≤ a ∧ a < t (μ + 1))
    (h' : t μ' ≤ b ∧ b < t (μ' + 1)) : μ ≤ μ' := by
  by_contra hne
  have := ht (show μ' + 1 ≤ μ by omega); linarith [h.1, h'.2]

/-- the second recursion of discrete B-splines -/
theorem row_shift {t s : ℕ → K} {ι sp : ℕ → ℕ} {ν : ℕ} (H : Refines t s ι sp ν) (i d : ℕ) (hi : i + 1 ≤ ν)
    (hd : s (i + 1) < s (i + d + 2)) :
    row t s sp i (d + 1) = R t d (s (i + 1)) (row t s sp (i + 1) d) := by
  have hs0 := H.span i (by omega)
  have hs1 := H.span (i + 1) hi
  have hspan1 : t (sp (i + 1)) < t (sp (i + 1) + 1) := lt_of_le_of_lt hs1.1 hs1.2
  have hle : sp i ≤ sp (i + 1) := span_mono H.mono_t (H.mono_s (Nat.le_succ i)) hs0 hs1
  rcases Nat.eq_or_lt_of_le hle with heq | hlt
  · -- both knots in the same old span
    clear hd
    induction d with
    | zero => simp only [row, bl, heq]
    | succ d ih =>
      have h1 : row t s sp i (d + 2) = R t (d + 1) (s (i + 1 + (d + 1))) (row t s sp i (d + 1)) := rfl
      have h2 : row t s sp (i + 1) (d + 1) = R t d (s (i + 1 + 1 + d)) (row t s sp (i + 1) d) := rfl
      rw [h1, h2, ih, show i + 1 + 1 + d = i + 1 + (d + 1) by omega]
      exact R_swap H.mono_t hspan1 (supp_bl _ _ _ _) _ _
  · obtain ⟨m, hm⟩ : ∃ m, sp (i + 1) = sp i + m := ⟨sp (i + 1) - sp i, by omega⟩
    -- old knots between the two spans are equal to the new knot
    have hin : ∀ k, 1 ≤ k → k ≤ m → i + k ≤ ι (sp i + k) := by
      intro k hk hkm
      induction k, hk using Nat.le_induction with
      | base =>
        by_contra hc
        have h1 := H.mono_s (show ι (sp i + 1) ≤ i by omega)
        rw [H.eq] at h1
        linarith [hs0.2]
      | succ k hk ih =>
        have h1 := ih (by omega)
        have h2 := H.emb (show sp i + k < sp i + (k + 1) by omega)
        omega
    have ha : ∀ k, 1 ≤ k → k ≤ m → t (sp i + k) = s (i + 1) := by
      intro k hk hkm
      apply le_antisymm
      · have h1 := H.mono_t (show sp i + k ≤ sp (i + 1) by omega)
        exact le_trans h1 hs1.1
      · have h1 := H.mono_s (show i + 1 ≤ ι (sp i + k) by have := hin k hk hkm; omega)
        rwa [H.eq] at h1
    have hms : ∀ k, 1 ≤ k → k ≤ m → s (i + k) = s (i + 1) := by
      intro k hk hkm
      apply le_antisymm
      · have h1 := H.mono_s (hin k hk hkm)
        rw [H.eq, ha k hk hkm] at h1
        exact h1
      · exact H.mono_s (by omega)
    have h0 : t (sp i) < s (i + 1) := by
      have := ha 1 (by omega) (by omega)
      rw [← this]; exact lt_of_le_of_lt hs0.1 hs0.2
    have hmd : m < d + 2 := by
      by_contra hc
      have h1 := hms (d + 2) (by omega) (by omega)
      rw [show i + (d + 2) = i + d + 2 by omega] at h1
      rw [h1] at hd
      exact lt_irrefl _ hd
    clear hle
    induction d with
    | zero =>
      have e1 : row t s sp i 1 = bl t (sp i) (fun _ => s (i + 1)) 1 := by
        apply bl_congr; intro k hk
        have : k = 0 := by omega
        subst this; rfl
      have e2 : R t 0 (s (i + 1)) (row t s sp (i + 1) 0) = bl t (sp i + m) (fun _ => s (i + 1)) 1 := by
        rw [bl_succ]; unfold row; rw [hm]; rfl
      rw [e1, e2]
      exact bl_const_eq h0 (by rw [← hm]; exact hs1.2) ha 1 (by omega)
    | succ d ih =>
      by_cases hcase : s (i + 1) < s (i + d + 2)
      · have h1 : row t s sp i (d + 2) = R t (d + 1) (s (i + 1 + (d + 1))) (row t s sp i (d + 1)) := rfl
        have h2 : row t s sp (i + 1) (d + 1) = R t d (s (i + 1 + 1 + d)) (row t s sp (i + 1) d) := rfl
        have hmd' : m < d + 2 := by
          by_contra hc
          have h1 := hms (d + 2) (by omega) (by omega)
          rw [show i + (d + 2) = i + d + 2 by omega] at h1
          rw [h1] at hcase
          exact lt_irrefl _ hcase
        rw [h1, h2, ih hcase hmd', show i + 1 + 1 + d = i + 1 + (d + 1) by omega]
        exact R_swap H.mono_t hspan1 (supp_bl _ _ _ _) _ _
      · have hall : ∀ k, k ≤ d + 1 → s (i + 1 + k) = s (i + 1) := by
          intro k hk
          apply le_antisymm
          · have h1 := H.mono_s (show i + 1 + k ≤ i + d + 2 by omega)
            exact le_trans h1 (not_lt.1 hcase)
          · exact H.mono_s (by omega)
        have e1 : row t s sp i (d + 2) = bl t (sp i) (fun _ => s (i + 1)) (d + 2) := by
          apply bl_congr; intro k hk; exact hall k (by omega)
        have e2 : row t s sp (i + 1) (d + 1) = bl t (sp i + m) (fun _ => s (i + 1)) (d + 1) := by
          unfold row; rw [hm]
          apply bl_congr; intro k hk
          have := hall (k + 1) (by omega)
          rwa [show i + 1 + (k + 1) = i + 1 + 1 + k by omega] at this
        rw [e1, e2]
        change _ = bl t (sp i + m) (fun _ => s (i + 1)) (d + 2)
        exact bl_const_eq h0 (by rw [← hm]; exact hs1.2) ha (d + 2) (by omega)

/-- Oslo algorithm: polynomial pieces of the old basis functions in terms of the new ones, for every evaluation point -/
theorem oslo {t s : ℕ → K} {ι sp : ℕ → ℕ} {ν : ℕ} (H : Refines t s ι sp ν) (hν : s ν < s (ν + 1)) (x : K) (d : ℕ) (hd : d ≤ ν)
    (j : ℕ) :
    bl t (sp ν) (fun _ => x) d j = ∑ i ∈ range (ν + 1), row t s sp i d j * bl s ν (fun _ => x) d i := by
  induction d generalizing j with
  | zero =>
    simp only [row, bl]
    rw [sum_eq_single ν]
    · simp
    · intro i _ hi; simp [hi]
    · intro h; simp at h
  | succ d ih =>
    have ih' := fun j => ih (by omega) j
    have hsupp := supp_bl s ν (fun _ => x) d
    set h : ℕ → K := bl s ν (fun _ => x) d with hh
    have h00 : h 0 = 0 := by
      by_contra hc
      have := hsupp 0 hc; omega
    have hlast : h (ν + 1) = 0 := by
      by_contra hc
      have := hsupp _ hc; omega
    -- left side
    have hL : bl t (sp ν) (fun _ => x) (d + 1) j = ∑ i ∈ range (ν + 1), R t d x (row t s sp i d) j * h i := by
      rw [bl_succ]
      unfold R
      rw [ih' j, ih' (j + 1), mul_sum, mul_sum, ← sum_add_distrib]
      apply sum_congr rfl
      intro i _; ring
    -- right side
    have hR : ∑ i ∈ range (ν + 1), row t s sp i (d + 1) j * bl s ν (fun _ => x) (d + 1) i =
        ∑ i ∈ range (ν + 1), row t s sp i (d + 1) j * ((x - s i) / (s (i + d + 1) - s i)) * h i +
        ∑ i ∈ range (ν + 1), row t s sp i (d + 1) j * ((s (i + d + 2) - x) / (s (i + d + 2) - s (i + 1))) * h (i + 1) := by
      rw [← sum_add_distrib]
      apply sum_congr rfl
      intro i _
      rw [bl_succ]; unfold R; rw [← hh]; ring
    rw [hL, hR, sum_range_succ (fun i => row t s sp i (d + 1) j * ((s (i + d + 2) - x) / (s (i + d + 2) - s (i + 1))) * h (i + 1)),
      hlast, mul_zero, add_zero, sum_range_succ' (fun i => R t d x (row t s sp i d) j * h i),
      sum_range_succ' (fun i => row t s sp i (d + 1) j * ((x - s i) / (s (i + d + 1) - s i)) * h i), h00, mul_zero, mul_zero,
      add_zero, add_zero, ← sum_add_distrib]
    apply sum_congr rfl
    intro i hi
    rw [mem_range] at hi
    by_cases hz : h (i + 1) = 0
    · rw [hz]; ring
    · have hs := hsupp _ hz
      have hlt : s (i + 1) < s (i + d + 2) := by
        have h1 := H.mono_s hs.1
        have h2 := H.mono_s (show ν + 1 ≤ i + d + 2 by omega)
        linarith
      have e1 : row t s sp (i + 1) (d + 1) = R t d (s (i + d + 2)) (row t s sp (i + 1) d) := by
        have : row t s sp (i + 1) (d + 1) = R t d (s (i + 1 + 1 + d)) (row t s sp (i + 1) d) := rfl
        rw [this, show i + 1 + 1 + d = i + d + 2 by omega]
      have e2 := row_shift H i d (by omega) hlt
      have haff := R_affine t d (s (i + 1)) (s (i + d + 2)) x (row t s sp (i + 1) d) j
      rw [e1, e2, show i + 1 + d + 1 = i + d + 2 by omega]
      have hne : s (i + d + 2) - s (i + 1) ≠ 0 := (sub_pos.2 hlt).ne'
      have hx : R t d x (row t s sp (i + 1) d) j =
          (R t d (s (i + d + 2)) (row t s sp (i + 1) d) j * (x - s (i + 1)) +
            R t d (s (i + 1)) (row t s sp (i + 1) d) j * (s (i + d + 2) - x)) / (s (i + d + 2) - s (i + 1)) := by
        rw [haff, mul_div_cancel_left₀ _ hne]
      rw [hx]
      simp only [div_eq_mul_inv]
      ring

omit [IsStrictOrderedRing K] in
/-- non-zero coefficients belong to old basis functions whose support contains that of the new one -/
theorem row_ne_zero {t s : ℕ → K} {ι sp : ℕ → ℕ} {ν : ℕ} (H : Refines t s ι sp ν) (i : ℕ) (hi : i ≤ ν) (d j : ℕ)
    (h : row t s sp i d j ≠ 0) : t j ≤ s i ∧ i + d + 1 ≤ ι (j + d + 1) := by
  have hs := H.span i hi
  refine ⟨le_trans (H.mono_t (supp_bl t (sp i) _ d j h).1) hs.1, ?_⟩
  induction d generalizing j with
  | zero =>
    have hj : j = sp i := by
      have := supp_bl t (sp i) (fun k => s (i + 1 + k)) 0 j h; omega
    subst hj
    by_contra hc
    have h1 := H.mono_s (show ι (sp i + 0 + 1) ≤ i by omega)
    rw [H.eq] at h1
    exact absurd h1 (not_le.2 hs.2)
  | succ d ih =>
    have hrec : row t s sp i (d + 1) j = (s (i + 1 + d) - t j) / (t (j + d + 1) - t j) * row t s sp i d j +
        (t (j + d + 2) - s (i + 1 + d)) / (t (j + d + 2) - t (j + 1)) * row t s sp i d (j + 1) := rfl
    rw [hrec] at h
    by_cases h1 : row t s sp i d j = 0
    · rw [h1, mul_zero, zero_add] at h
      have h2 : row t s sp i d (j + 1) ≠ 0 := fun hc => h (by rw [hc, mul_zero])
      have h3 := ih (j + 1) h2
      rcases Nat.eq_or_lt_of_le h3 with he | hl
      · exfalso
        apply h
        have := H.eq (j + 1 + d + 1)
        rw [← he, show j + 1 + d + 1 = j + d + 2 by omega, show i + d + 1 = i + 1 + d by omega] at this
        rw [this, sub_self, zero_div, zero_mul]
      · rw [show j + (d + 1) + 1 = j + 1 + d + 1 by omega]; omega
    · have h2 := ih j h1
      have h3 := H.emb (show j + d + 1 < j + (d + 1) + 1 by omega)
      omega

/-- coefficients are not negative -/
theorem row_nonneg {t s : ℕ → K} {ι sp : ℕ → ℕ} {ν : ℕ} (H : Refines t s ι sp ν) (i : ℕ) (hi : i ≤ ν) (d j : ℕ) :
    0 ≤ row t s sp i d j := by
  have hs := H.span i hi
  induction d generalizing j with
  | zero => simp only [row, bl]; split <;> simp
  | succ d ih =>
    have hrec : row t s sp i (d + 1) j = (s (i + 1 + d) - t j) / (t (j + d + 1) - t j) * row t s sp i d j +
        (t (j + d + 2) - s (i + 1 + d)) / (t (j + d + 2) - t (j + 1)) * row t s sp i d (j + 1) := rfl
    rw [hrec]
    apply add_nonneg
    · by_cases h1 : row t s sp i d j = 0
      · rw [h1, mul_zero]
      · have h2 := (row_ne_zero H i hi d j h1).1
        have h3 := H.mono_s (show i ≤ i + 1 + d by omega)
        have h4 := H.mono_t (show j ≤ j + d + 1 by omega)
        exact mul_nonneg (div_nonneg (by linarith) (by linarith)) (ih j)
    · by_cases h1 : row t s sp i d (j + 1) = 0
      · rw [h1, mul_zero]
      · have h2 := (row_ne_zero H i hi d (j + 1) h1).2
        have h3 := H.mono_s (show i + 1 + d ≤ ι (j + 1 + d + 1) by omega)
        rw [H.eq, show j + 1 + d + 1 = j + d + 2 by omega] at h3
        have h4 := H.mono_t (show j + 1 ≤ j + d + 2 by omega)
        exact mul_nonneg (div_nonneg (by linarith) (by linarith)) (ih (j + 1))

/-- blossom values of a span sum up to one -/
theorem bl_sum {t : ℕ → K} (ht : Monotone t) {μ : ℕ} (hμ : t μ < t (μ + 1)) (y : ℕ → K) (d : ℕ) (hd : d ≤ μ) :
    ∑ j ∈ range (μ + 1), bl t μ y d j = 1 := by
  induction d with
  | zero =>
    simp only [bl]
    rw [sum_eq_single μ] <;> simp +contextual
  | succ d ih =>
    have ih' := ih (by omega)
    have hsupp := supp_bl t μ y d
    set v := bl t μ y d with hv
    have h0 : v 0 = 0 := by by_contra hc; have := hsupp 0 hc; omega
    have hl : v (μ + 1) = 0 := by by_contra hc; have := hsupp _ hc; omega
    rw [bl_succ, ← hv]
    unfold R
    rw [sum_add_distrib, sum_range_succ (fun j => (t (j + d + 2) - y d) / (t (j + d + 2) - t (j + 1)) * v (j + 1)), hl, mul_zero,
      add_zero, sum_range_succ' (fun j => (y d - t j) / (t (j + d + 1) - t j) * v j), h0, mul_zero, add_zero, ← sum_add_distrib,
      ← ih', sum_range_succ' v, h0, add_zero]
    apply sum_congr rfl
    intro j hj
    rw [mem_range] at hj
    by_cases hz : v (j + 1) = 0
    · rw [hz]; ring
    · have hs := hsupp _ hz
      have h1 := ht hs.1
      have h2 := ht (show μ + 1 ≤ j + d + 2 by omega)
      have hne : t (j + d + 2) - t (j + 1) ≠ 0 := (sub_pos.2 (by linarith)).ne'
      rw [show j + 1 + d + 1 = j + d + 2 by omega, ← add_mul, ← add_div]
      rw [show y d - t (j + 1) + (t (j + d + 2) - y d) = t (j + d + 2) - t (j + 1) by ring, div_self hne, one_mul]

omit [IsStrictOrderedRing K] in
/-- the Cox-de Boor basis functions are the diagonal blossom of the span of the parameter -/
theorem basis_eq_bl {t : ℕ → K} (ht : Monotone t) {μ : ℕ} {x : K} (hx : t μ ≤ x ∧ x < t (μ + 1)) (d j : ℕ) :
    Spec.basis t d j x = bl t μ (fun _ => x) d j := by
  induction d generalizing j with
  | zero =>
    simp only [Spec.basis, bl]
    by_cases h : j = μ
    · subst h; rw [if_pos hx, if_pos rfl]
    · rw [if_neg h, if_neg]
      intro hj
      rcases Nat.lt_or_gt_of_ne h with hlt | hlt
      · exact absurd (lt_of_lt_of_le hj.2 (le_trans (ht (show j + 1 ≤ μ by omega)) hx.1)) (lt_irrefl _)
      · exact absurd (lt_of_lt_of_le hx.2 (le_trans (ht (show μ + 1 ≤ j by omega)) hj.1)) (lt_irrefl _)
  | succ d ih => simp only [Spec.basis, bl_succ, R, ih]

/-- knot insertion preserves curves -/
theorem curve_eq {t s : ℕ → K} {ι sp : ℕ → ℕ} {ν : ℕ} (H : Refines t s ι sp ν) {x : K} (hx : s ν ≤ x ∧ x < s (ν + 1))
    (hx' : t (sp ν) ≤ x ∧ x < t (sp ν + 1)) (p n m : ℕ) (hp : p ≤ ν) (hn : ν < n) (_hm : sp ν < m) (c : ℕ → K) :
    Spec.curve t p m c x = Spec.curve s p n (fun i => ∑ j ∈ range m, row t s sp i p j * c j) x := by
  unfold Spec.curve
  simp only [basis_eq_bl H.mono_t hx', basis_eq_bl H.mono_s hx]
  have h1 : ∀ f : ℕ → K, ∑ i ∈ range n, f i * bl s ν (fun _ => x) p i = ∑ i ∈ range (ν + 1), f i * bl s ν (fun _ => x) p i := by
    intro f
    symm
    apply sum_subset (range_subset_range.2 (by omega))
    intro i _ hi
    rw [mem_range, not_lt] at hi
    have : bl s ν (fun _ => x) p i = 0 := by
      by_contra hc; have := supp_bl s ν (fun _ => x) p i hc; omega
    rw [this, mul_zero]
  rw [h1]
  simp only [oslo H (lt_of_le_of_lt hx.1 hx.2) x p hp, mul_sum, sum_mul]
  rw [sum_comm]
  apply sum_congr rfl
  intro i _
  apply sum_congr rfl
  intro j _
  ring

end Splinepy.Blossom
