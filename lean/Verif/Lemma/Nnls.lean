import Mathlib.Algebra.BigOperators.Intervals
import Mathlib.Algebra.Order.BigOperators.Ring.Finset
import Mathlib.Tactic.FieldSimp
import Mathlib.Tactic.LinearCombination
import Mathlib.Tactic.Linarith
import Mathlib.Tactic.Positivity
import Mathlib.Tactic.ByContra
import Mathlib.Tactic.Push
import Verif.Model.Nnls

/-! Facts about the Householder transformations and the plane rotations of `Model/Nnls.lean` -/

namespace Splinepy.Lsq

variable {K : Type} [Field K] [LinearOrder K] [IsStrictOrderedRing K]

/-- `sqrt` is an exact square root -/
def Spec.SquareRoot (sqrt : K → K) : Prop := ∀ x, 0 ≤ x → 0 ≤ sqrt x ∧ sqrt x * sqrt x = x

omit [IsStrictOrderedRing K] in
/-- a left fold over consecutive numbers keeps an invariant -/
theorem fold_inv {S : Type} (f : S → ℕ → S) (P : ℕ → S → Prop) (a : ℕ) : ∀ (n : ℕ) (s : S), P a s → (∀ j s, a ≤ j → j < a + n → P j s → P (j + 1) (f s j)) →
    P (a + n) ((List.range' a n).foldl f s) := by
  intro n
  induction n with
  | zero => intro s h _; simpa using h
  | succ n ih =>
    intro s h hs
    rw [List.range'_concat, List.foldl_append]
    simp only [List.foldl_cons, List.foldl_nil, Nat.one_mul]
    exact hs (a + n) _ (by omega) (by omega) (ih s h fun j s h1 h2 h3 => hs j s h1 (by omega) h3)

omit [IsStrictOrderedRing K] in
theorem fold_max (u : ℕ → K) (l : List ℕ) : ∀ (c : K), c ≤ l.foldl (fun cl j => max |u j| cl) c ∧ ∀ j ∈ l, |u j| ≤ l.foldl (fun cl j => max |u j| cl) c := by
  induction l with
  | nil => intro c; simp
  | cons x l ih =>
    intro c
    obtain ⟨h1, h2⟩ := ih (max |u x| c)
    refine ⟨(le_max_right _ _).trans h1, fun j hj => ?_⟩
    rcases List.mem_cons.1 hj with rfl | h
    · exact (le_max_left _ _).trans h1
    · exact h2 j h

omit [IsStrictOrderedRing K] in
theorem le_largest {p m i : ℕ} (u : ℕ → K) (h1 : p ≤ i) (h2 : i < m) : |u i| ≤ largest p m u := by
  rcases Nat.eq_or_lt_of_le h1 with rfl | h
  · exact (fold_max u _ _).1
  · refine (fold_max u _ _).2 i ?_
    rw [List.mem_range'_1]; omega

omit [LinearOrder K] [IsStrictOrderedRing K] in
theorem dot_split {p m : ℕ} (h : p < m) (u v : ℕ → K) : dotFrom p m u v = u p * v p + ∑ i ∈ Finset.Ico (p + 1) m, u i * v i :=
  Finset.sum_eq_sum_Ico_succ_bot h _

omit [LinearOrder K] [IsStrictOrderedRing K] in
theorem dot_join {p m : ℕ} (h : p ≤ m) (u v : ℕ → K) : dotFrom 0 m u v = dotFrom 0 p u v + dotFrom p m u v :=
  (Finset.sum_Ico_consecutive _ (Nat.zero_le p) h).symm

omit [LinearOrder K] [IsStrictOrderedRing K] in
theorem dot_comm (p m : ℕ) (u v : ℕ → K) : dotFrom p m u v = dotFrom p m v u :=
  Finset.sum_congr rfl fun _ _ => mul_comm _ _

omit [LinearOrder K] [IsStrictOrderedRing K] in
theorem dot_congr {p m : ℕ} {u v u' v' : ℕ → K} (h : ∀ i, p ≤ i → i < m → u i = u' i ∧ v i = v' i) : dotFrom p m u v = dotFrom p m u' v' := by
  refine Finset.sum_congr rfl fun i hi => ?_
  obtain ⟨h1, h2⟩ := Finset.mem_Ico.1 hi
  obtain ⟨e1, e2⟩ := h i h1 h2
  rw [e1, e2]

omit [LinearOrder K] [IsStrictOrderedRing K] in
theorem dot_zero {p m : ℕ} {u v : ℕ → K} (h : ∀ i, p ≤ i → i < m → u i = 0) : dotFrom p m u v = 0 := by
  refine Finset.sum_eq_zero fun i hi => ?_
  obtain ⟨h1, h2⟩ := Finset.mem_Ico.1 hi
  rw [h i h1 h2, zero_mul]

theorem dot_self_nonneg (p m : ℕ) (u : ℕ → K) : 0 ≤ dotFrom p m u u :=
  Finset.sum_nonneg fun i _ => mul_self_nonneg (u i)

/-- the effect of the transformation constructed for the column `u` with the pivot `p` -/
structure House (p m : ℕ) (u u' : ℕ → K) (T : (ℕ → K) → ℕ → K) : Prop where
  others : ∀ i, i ≠ p → u' i = u i
  outside : ∀ c i, i < p ∨ m ≤ i → T c i = c i
  isometry : ∀ c d, dotFrom p m (T c) (T d) = dotFrom p m c d
  image : ∀ i, p ≤ i → i < m → T u i = if i = p then u' p else 0
  fixed : ∀ c, (∀ i, p ≤ i → i < m → c i = 0) → T c = c

/-- `h12` constructs and applies an orthogonal transformation that maps the column to a multiple of a unit vector. -/
theorem house {sqrt : K → K} (hs : Spec.SquareRoot sqrt) {p m : ℕ} (hp : p < m) (u : ℕ → K) :
    House p m u (construct sqrt p m u).1 (reflect p m (construct sqrt p m u).1 (construct sqrt p m u).2) := by
  by_cases hm : m ≤ p + 1
  · have e1 : construct sqrt p m u = (u, 0) := by unfold construct; rw [if_pos hm]
    have e2 : ∀ (v : ℕ → K) (up : K) (c : ℕ → K), reflect p m v up c = c := fun v up c => by unfold reflect; rw [if_pos hm]
    rw [e1]
    refine ⟨fun _ _ => rfl, fun c i _ => by rw [e2], fun c d => by rw [e2, e2], fun i h1 h2 => ?_, fun c _ => e2 _ _ c⟩
    have : i = p := by omega
    rw [e2, if_pos this, this]
  by_cases hl : largest p m u ≤ 0
  · have e1 : construct sqrt p m u = (u, 0) := by unfold construct; rw [if_neg hm]; simp only; rw [if_pos hl]
    have hz : ∀ i, p ≤ i → i < m → u i = 0 := fun i h1 h2 => abs_nonpos_iff.1 ((le_largest u h1 h2).trans hl)
    have hup : |u p| ≤ 0 := (le_largest u le_rfl hp).trans hl
    have e2 : ∀ up c, reflect p m u up c = c := fun up c => by unfold reflect; rw [if_neg hm, if_pos hup]
    rw [e1]
    refine ⟨fun _ _ => rfl, fun c i _ => by rw [e2], fun c d => by rw [e2, e2], fun i h1 h2 => ?_, fun c _ => e2 _ c⟩
    show _ = if i = p then u p else 0
    rw [e2, hz i h1 h2, hz p le_rfl hp]; simp
  · push Not at hl
    obtain ⟨L, hL⟩ : ∃ L, L = largest p m u := ⟨_, rfl⟩
    rw [← hL] at hl
    obtain ⟨S, hS⟩ : ∃ S, S = ∑ i ∈ Finset.Ico (p + 1) m, u i * u i := ⟨_, rfl⟩
    have hT : dotFrom p m u u = u p * u p + S := by rw [dot_split hp, hS]
    have hS0 : 0 ≤ S := by rw [hS]; exact Finset.sum_nonneg fun i _ => mul_self_nonneg _
    obtain ⟨q, hq⟩ : ∃ q, q = u p * (1 / L) * (u p * (1 / L)) + ∑ j ∈ Finset.Ico (p + 1) m, u j * (1 / L) * (u j * (1 / L)) := ⟨_, rfl⟩
    have hq2 : q = (u p * u p + S) * (1 / L * (1 / L)) := by
      rw [hq, hS, add_mul, Finset.sum_mul]
      congr 1
      · ring
      · exact Finset.sum_congr rfl fun j _ => by ring
    have hq0 : 0 ≤ q := by rw [hq2]; have := mul_self_nonneg (u p); positivity
    obtain ⟨C, hC⟩ : ∃ C, C = if u p > 0 then -(L * sqrt q) else L * sqrt q := ⟨_, rfl⟩
    have e1 : construct sqrt p m u = (Function.update u p C, u p - C) := by
      unfold construct; rw [if_neg hm]; simp only; rw [← hL, if_neg (not_le.2 hl), ← hq, ← hC]
    obtain ⟨h1, h2⟩ := hs q hq0
    have hCC : C * C = u p * u p + S := by
      have : L * sqrt q * (L * sqrt q) = u p * u p + S := by
        have : L * sqrt q * (L * sqrt q) = L * L * (sqrt q * sqrt q) := by ring
        rw [this, h2, hq2]; field_simp
      rw [hC]; split_ifs
      · linear_combination this
      · exact this
    have hLq : 0 ≤ L * sqrt q := mul_nonneg hl.le h1
    have hsign : u p * C ≤ 0 := by
      rw [hC]; split_ifs with h
      · have := mul_nonneg h.le hLq
        linarith [mul_neg (u p) (L * sqrt q)]
      · exact mul_nonpos_of_nonpos_of_nonneg (not_lt.1 h) hLq
    have hpos : 0 < u p * u p + S := by
      by_contra hc
      push Not at hc
      have h0 : dotFrom p m u u = 0 := le_antisymm (by rw [hT]; exact hc) (dot_self_nonneg _ _ _)
      have hz : ∀ i, p ≤ i → i < m → u i = 0 := by
        intro i h1 h2
        have := (Finset.sum_eq_zero_iff_of_nonneg fun i _ => mul_self_nonneg (u i)).1 h0 i (Finset.mem_Ico.2 ⟨h1, h2⟩)
        exact mul_self_eq_zero.1 this
      have : ∀ (n : ℕ), n ≤ m - (p + 1) → (List.range' (p + 1) n).foldl (fun cl j => max |u j| cl) |u p| = 0 := by
        intro n
        induction n with
        | zero => intro _; simp [hz p le_rfl hp]
        | succ n ih =>
          intro hn
          rw [List.range'_concat, List.foldl_append, ih (by omega)]
          simp [hz (p + 1 + n) (by omega) (by omega)]
      rw [hL] at hl
      exact absurd (this _ le_rfl) hl.ne'
    have hC0 : C ≠ 0 := by rintro rfl; rw [mul_zero] at hCC; exact hpos.ne hCC
    obtain ⟨B, hB⟩ : ∃ B, B = (u p - C) * C := ⟨_, rfl⟩
    have hB0 : B < 0 := by
      have : B = u p * C - (u p * u p + S) := by rw [hB, ← hCC]; ring
      linarith
    rw [e1]
    simp only
    -- the transformation as an affine update
    obtain ⟨σ, hσ⟩ : ∃ σ : (ℕ → K) → K, σ = fun c => c p * (u p - C) + ∑ i ∈ Finset.Ico (p + 1) m, c i * u i := ⟨_, rfl⟩
    obtain ⟨v, hv⟩ : ∃ v : ℕ → K, v = fun i => if i = p then u p - C else if p < i ∧ i < m then u i else 0 := ⟨_, rfl⟩
    have hsum : ∀ c : ℕ → K, ∑ i ∈ Finset.Ico (p + 1) m, c i * (Function.update u p C) i = ∑ i ∈ Finset.Ico (p + 1) m, c i * u i := fun c => by
      refine Finset.sum_congr rfl fun i hi => ?_
      rw [Function.update_of_ne]
      have := (Finset.mem_Ico.1 hi).1
      omega
    have key : ∀ c, reflect p m (Function.update u p C) (u p - C) c = fun i => c i + σ c / B * v i := by
      intro c
      unfold reflect
      rw [if_neg hm, Function.update_self, if_neg (not_le.2 (abs_pos.2 hC0))]
      simp only
      rw [← hB, if_neg (not_le.2 hB0), hsum c]
      have hσc : c p * (u p - C) + ∑ i ∈ Finset.Ico (p + 1) m, c i * u i = σ c := by rw [hσ]
      rw [hσc]
      funext i
      by_cases h0 : σ c = 0
      · rw [if_pos h0, h0]; ring
      · rw [if_neg h0]
        rw [hv]
        by_cases hi : i = p
        · simp only [if_pos hi]; ring
        · simp only [if_neg hi]
          by_cases hi2 : p < i ∧ i < m
          · rw [if_pos hi2, if_pos hi2, Function.update_of_ne hi]; ring
          · rw [if_neg hi2, if_neg hi2]; ring
    have hcv : ∀ c, dotFrom p m c v = σ c := fun c => by
      rw [dot_split hp, hσ, hv]
      simp only [if_true]
      congr 1
      refine Finset.sum_congr rfl fun i hi => ?_
      obtain ⟨h1, h2⟩ := Finset.mem_Ico.1 hi
      rw [if_neg (by omega), if_pos ⟨by omega, h2⟩]
    have hvv : dotFrom p m v v = -2 * B := by
      rw [hcv, hσ]
      have h1 : v p = u p - C := by rw [hv]; simp
      have h2 : ∑ i ∈ Finset.Ico (p + 1) m, v i * u i = S := by
        rw [hS]
        refine Finset.sum_congr rfl fun i hi => ?_
        obtain ⟨h1, h2⟩ := Finset.mem_Ico.1 hi
        rw [hv]; simp only
        rw [if_neg (by omega), if_pos ⟨by omega, h2⟩]
      simp only [h1, h2]
      rw [hB]; linear_combination -hCC
    have hσu : σ u = -B := by
      rw [hσ]; simp only; rw [← hS, hB]; linear_combination -hCC
    have hB1 := hB0.ne
    refine ⟨fun i hi => by simp only [Function.update_of_ne hi], fun c i hi => ?_, fun c d => ?_, fun i h1 h2 => ?_, fun c hc => ?_⟩
    · rw [key, hv]; simp only
      rw [if_neg (by omega), if_neg (by omega)]; ring
    · rw [key, key]
      have : dotFrom p m (fun i => c i + σ c / B * v i) (fun i => d i + σ d / B * v i) =
          dotFrom p m c d + σ d / B * dotFrom p m c v + σ c / B * dotFrom p m d v + σ c / B * (σ d / B) * dotFrom p m v v := by
        unfold dotFrom
        rw [Finset.mul_sum, Finset.mul_sum, Finset.mul_sum, ← Finset.sum_add_distrib, ← Finset.sum_add_distrib, ← Finset.sum_add_distrib]
        exact Finset.sum_congr rfl fun i _ => by ring
      rw [this, hcv, hcv, hvv]; field_simp; ring
    · rw [key, hσu, hv]; simp only
      by_cases hi : i = p
      · subst hi; simp only [if_true, Function.update_self]; field_simp; ring
      · rw [if_neg hi, if_neg hi, if_pos ⟨by omega, h2⟩]; field_simp; ring
    · have h0 : σ c = 0 := by
        rw [hσ]; simp only
        rw [hc p le_rfl hp, Finset.sum_eq_zero]
        · ring
        · intro i hi
          obtain ⟨h1, h2⟩ := Finset.mem_Ico.1 hi
          rw [hc i (by omega) h2, zero_mul]
      rw [key, h0]; funext i; ring

/-- `dsrotg` computes a rotation that maps the pair to `(r, 0)`. -/
theorem rotation {sqrt : K → K} (hs : Spec.SquareRoot sqrt) (da db : K) :
    (rotg sqrt da db).2.1 * (rotg sqrt da db).2.1 + (rotg sqrt da db).2.2 * (rotg sqrt da db).2.2 = 1 ∧
    (rotg sqrt da db).2.1 * da + (rotg sqrt da db).2.2 * db = (rotg sqrt da db).1 ∧ (rotg sqrt da db).2.1 * db - (rotg sqrt da db).2.2 * da = 0 ∧
    (db ≠ 0 → (rotg sqrt da db).1 ≠ 0) := by
  unfold rotg
  simp only
  by_cases h0 : |da| + |db| = 0
  · rw [if_pos h0]
    have h1 : da = 0 := abs_nonpos_iff.1 (by linarith [abs_nonneg db])
    have h2 : db = 0 := abs_nonpos_iff.1 (by linarith [abs_nonneg da])
    subst h1 h2
    simp
  · rw [if_neg h0]
    obtain ⟨L, hL⟩ : ∃ L, L = |da| + |db| := ⟨_, rfl⟩
    rw [← hL] at h0 ⊢
    obtain ⟨q, hq⟩ : ∃ q, q = da / L * (da / L) + db / L * (db / L) := ⟨_, rfl⟩
    rw [← hq]
    have hq0 : 0 ≤ q := by rw [hq]; exact add_nonneg (mul_self_nonneg _) (mul_self_nonneg _)
    obtain ⟨h1, h2⟩ := hs q hq0
    obtain ⟨r, hr⟩ : ∃ r, r = if (if |da| > |db| then da else db) < 0 then -(L * sqrt q) else L * sqrt q := ⟨_, rfl⟩
    rw [← hr]
    have hrr : r * r = da * da + db * db := by
      have : L * sqrt q * (L * sqrt q) = da * da + db * db := by
        have : L * sqrt q * (L * sqrt q) = L * L * (sqrt q * sqrt q) := by ring
        rw [this, h2, hq]; field_simp
      rw [hr]; generalize (if |da| > |db| then da else db) = t
      split_ifs
      · linear_combination this
      · exact this
    have hr0 : r ≠ 0 := by
      rintro rfl
      rw [mul_zero] at hrr
      have h3 : da * da = 0 := le_antisymm (by linarith [mul_self_nonneg db]) (mul_self_nonneg _)
      have h4 : db * db = 0 := by linarith
      rw [mul_self_eq_zero] at h3 h4
      rw [h3, h4] at hL; simp at hL; exact h0 hL
    refine ⟨?_, ?_, ?_, fun _ => hr0⟩
    · have : da / r * (da / r) + db / r * (db / r) = (da * da + db * db) / (r * r) := by field_simp
      rw [this, ← hrr]; field_simp
    · have : da / r * da + db / r * db = (da * da + db * db) / r := by field_simp
      rw [this, ← hrr]; field_simp
    · field_simp; ring

omit [LinearOrder K] [IsStrictOrderedRing K] in
/-- a rotation of two rows keeps the inner products -/
theorem rot_dot {c s : K} (h : c * c + s * s = 1) {i m : ℕ} (hi : i + 1 < m) (u v : ℕ → K) : dotFrom 0 m (rot c s i u) (rot c s i v) = dotFrom 0 m u v := by
  rw [← sub_eq_zero]
  unfold dotFrom
  rw [← Finset.sum_sub_distrib]
  have hsub : ({i, i + 1} : Finset ℕ) ⊆ Finset.Ico 0 m := by
    intro k hk
    rw [Finset.mem_insert, Finset.mem_singleton] at hk
    rw [Finset.mem_Ico]; omega
  rw [← Finset.sum_subset hsub, Finset.sum_pair (by omega)]
  · unfold rot
    rw [if_pos rfl, if_pos rfl, if_neg (by omega), if_pos rfl, if_neg (by omega), if_pos rfl]
    linear_combination (u i * v i + u (i + 1) * v (i + 1)) * h
  · intro k _ hk
    rw [Finset.mem_insert, Finset.mem_singleton, not_or] at hk
    unfold rot
    rw [if_neg hk.1, if_neg hk.2, if_neg hk.1, if_neg hk.2, sub_self]

end Splinepy.Lsq
