import Verif.Lemma.Blossom
import Verif.Lemma.Slice

/-!
Mirrored knot vectors have the mirrored basis functions.
-/
namespace Splinepy.Mirror
open Splinepy.Blossom Splinepy.Spec Splinepy.Slice

variable {K : Type} [Field K] [LinearOrder K] [IsStrictOrderedRing K]

omit [LinearOrder K] [IsStrictOrderedRing K] in
theorem bl_mirror {t t' : ℕ → K} {c : K} {N μ : ℕ} (h : ∀ i < N, t' i = c - t (N - 1 - i)) (hμ : μ + 1 < N) (x : K) (d j : ℕ) (hj : j + d + 1 < N) :
    bl t' (N - 2 - μ) (fun _ => c - x) d (N - 2 - d - j) = bl t μ (fun _ => x) d j := by
  induction d generalizing j with
  | zero =>
    unfold bl
    have : (N - 2 - 0 - j = N - 2 - μ) ↔ j = μ := by omega
    simp only [this]
  | succ d ih =>
    rw [bl_succ, bl_succ]
    unfold R
    have e1 := ih (j + 1) (by omega)
    have e2 := ih j (by omega)
    rw [show N - 2 - d - (j + 1) = N - 2 - (d + 1) - j by omega] at e1
    rw [show N - 2 - d - j = N - 2 - (d + 1) - j + 1 by omega] at e2
    rw [e1, e2, h _ (show N - 2 - (d + 1) - j < N by omega), h _ (show N - 2 - (d + 1) - j + d + 1 < N by omega), h _ (show N - 2 - (d + 1) - j + d + 2 < N by omega),
      h _ (show N - 2 - (d + 1) - j + 1 < N by omega)]
    rw [show N - 1 - (N - 2 - (d + 1) - j) = j + d + 2 by omega, show N - 1 - (N - 2 - (d + 1) - j + d + 1) = j + 1 by omega,
      show N - 1 - (N - 2 - (d + 1) - j + d + 2) = j by omega, show N - 1 - (N - 2 - (d + 1) - j + 1) = j + d + 1 by omega]
    rw [show c - x - (c - t (j + d + 2)) = t (j + d + 2) - x by ring, show c - t (j + 1) - (c - t (j + d + 2)) = t (j + d + 2) - t (j + 1) by ring,
      show c - t j - (c - x) = x - t j by ring, show c - t j - (c - t (j + d + 1)) = t (j + d + 1) - t j by ring]
    ring

omit [IsStrictOrderedRing K] in
theorem basisC_eq_bl {t : ℕ → K} (ht : Monotone t) {n μ : ℕ} {x : K} (h : (x ≠ t n ∧ t μ ≤ x ∧ x < t (μ + 1)) ∨ (x = t n ∧ t μ < x ∧ x = t (μ + 1))) (d j : ℕ) :
    basisC t n d j x = bl t μ (fun _ => x) d j := by
  induction d generalizing j with
  | zero =>
    unfold basisC bl
    by_cases hj : j = μ
    · subst hj
      rw [if_pos h, if_pos rfl]
    · rw [if_neg hj, if_neg]
      rintro (⟨a1, a2, a3⟩ | ⟨a1, a2, a3⟩) <;> rcases h with ⟨b1, b2, b3⟩ | ⟨b1, b2, b3⟩
      · rcases Nat.lt_or_gt_of_ne hj with hl | hl
        · exact absurd (lt_of_lt_of_le a3 (le_trans (ht (show j + 1 ≤ μ by omega)) b2)) (lt_irrefl _)
        · exact absurd (lt_of_lt_of_le b3 (le_trans (ht (show μ + 1 ≤ j by omega)) a2)) (lt_irrefl _)
      · exact a1 b1
      · exact b1 a1
      · rcases Nat.lt_or_gt_of_ne hj with hl | hl
        · exact absurd (lt_of_le_of_lt (ht (show j + 1 ≤ μ by omega)) b2) (by rw [← a3]; exact lt_irrefl _)
        · exact absurd (lt_of_le_of_lt (ht (show μ + 1 ≤ j by omega)) a2) (by rw [← b3]; exact lt_irrefl _)
  | succ d ih => simp only [basisC, bl_succ, R, ih]

/-- the knots around a parameter -/
theorem around {kv : List K} (hs : kv.Pairwise (· ≤ ·)) (x : K) :
    (∀ i, i < (kv.filter (· < x)).length → knotSeq kv i < x) ∧
    (∀ i, (kv.filter (· < x)).length ≤ i → i < (kv.filter (· < x)).length + kv.count x → knotSeq kv i = x) ∧
    (∀ i, (kv.filter (· < x)).length + kv.count x ≤ i → i < kv.length → x < knotSeq kv i) := by
  have h := sorted_split hs x
  have hg : ∀ i, knotSeq kv i = kv.getD i (kv.getLastD 0) := fun _ => rfl
  refine ⟨fun i hi => ?_, fun i h1 h2 => ?_, fun i h1 h2 => ?_⟩
  · rw [hg]
    generalize kv.getLastD 0 = z
    rw [h, List.append_assoc, List.getD_append _ _ _ _ hi, List.getD_eq_getElem _ _ hi]
    have := List.getElem_mem hi
    simpa using (List.mem_filter.1 this).2
  · rw [hg]
    generalize kv.getLastD 0 = z
    rw [h, List.append_assoc, List.getD_append_right _ _ _ _ h1, List.getD_append _ _ _ _ (by rw [List.length_replicate]; omega),
      List.getD_eq_getElem _ _ (by rw [List.length_replicate]; omega), List.getElem_replicate]
  · rw [hg]
    generalize kv.getLastD 0 = z
    have hl : kv.length = (kv.filter (· < x)).length + kv.count x + (kv.filter (x < ·)).length := by
      conv_lhs => rw [h]
      rw [List.length_append, List.length_append, List.length_replicate]
    rw [h, List.getD_append_right _ _ _ _ (by simpa using h1)]
    have hi : i - (kv.filter (· < x) ++ List.replicate (kv.count x) x).length < (kv.filter (x < ·)).length := by
      simp only [List.length_append, List.length_replicate]
      omega
    rw [List.getD_eq_getElem _ _ hi]
    have := List.getElem_mem hi
    simpa using (List.mem_filter.1 this).2

/-- the mirrored basis function at the mirrored parameter -/
theorem basisC_mirror {kv kv' : List K} {p : ℕ} (hs : kv.Pairwise (· ≤ ·)) (hs' : kv'.Pairwise (· ≤ ·)) (hN : 2 * (p + 1) ≤ kv.length)
    (hlu : knotSeq kv p < knotSeq kv (kv.length - p - 1))
    (hk : ∀ i < kv.length, knotSeq kv' i = knotSeq kv p + knotSeq kv (kv.length - p - 1) - knotSeq kv (kv.length - 1 - i))
    {x : K} (h1 : knotSeq kv p ≤ x) (h2 : x ≤ knotSeq kv (kv.length - p - 1))
    (hm : knotSeq kv p < x → x < knotSeq kv (kv.length - p - 1) → kv.count x ≤ p) (j : ℕ) (hj : j < kv.length - p - 1) :
    basisC (knotSeq kv') (kv.length - p - 1) p (kv.length - p - 1 - 1 - j) (knotSeq kv p + knotSeq kv (kv.length - p - 1) - x) =
      basisC (knotSeq kv) (kv.length - p - 1) p j x := by
  set N := kv.length with hNdef
  set c := knotSeq kv p + knotSeq kv (N - p - 1) with hc
  have ht := KnotInsertion.knotSeq_monotone hs
  have ht' := KnotInsertion.knotSeq_monotone hs'
  obtain ⟨r1, r2, r3⟩ := around hs x
  set a := (kv.filter (· < x)).length with ha
  set m := kv.count x with hmd
  have hn' : knotSeq kv' (N - p - 1) = knotSeq kv (N - p - 1) := by
    rw [hk _ (by omega), show N - 1 - (N - p - 1) = p by omega]
    ring
  have ha1 : a ≤ N - p - 1 := by
    by_contra hcon
    exact absurd (r1 (N - p - 1) (by omega)) (not_lt.2 h2)
  have ham : p < a + m := by
    by_contra hcon
    have := r3 p (by omega) (by omega)
    exact absurd this (not_lt.2 h1)
  have key : ∀ μ, μ + 1 < N → ((c - x ≠ knotSeq kv' (N - p - 1) ∧ knotSeq kv' (N - 2 - μ) ≤ c - x ∧ c - x < knotSeq kv' (N - 2 - μ + 1)) ∨
      (c - x = knotSeq kv' (N - p - 1) ∧ knotSeq kv' (N - 2 - μ) < c - x ∧ c - x = knotSeq kv' (N - 2 - μ + 1))) →
      basisC (knotSeq kv') (N - p - 1) p (N - p - 1 - 1 - j) (c - x) = bl (knotSeq kv) μ (fun _ => x) p j := by
    intro μ h3 h4
    rw [basisC_eq_bl ht' h4, show N - p - 1 - 1 - j = N - 2 - p - j by omega]
    exact bl_mirror hk h3 x p j (by omega)
  have hk' : ∀ μ, μ + 1 < N → knotSeq kv' (N - 2 - μ) = c - knotSeq kv (μ + 1) ∧ knotSeq kv' (N - 2 - μ + 1) = c - knotSeq kv μ := by
    intro μ h3
    rw [hk _ (by omega), hk _ (by omega), show N - 1 - (N - 2 - μ) = μ + 1 by omega, show N - 1 - (N - 2 - μ + 1) = μ by omega]
    exact ⟨rfl, rfl⟩
  rcases eq_or_lt_of_le h1 with e1 | e1
  · -- lower end
    have hm1 : 1 ≤ m := by
      have : x ∈ kv := by
        rw [← e1]
        unfold knotSeq
        rw [List.getD_eq_getElem _ _ (by omega)]
        exact List.getElem_mem _
      exact List.count_pos_iff.2 this
    have hlt : x < knotSeq kv (N - p - 1) := by rw [← e1]; exact hlu
    have hamn : a + m ≤ N - p - 1 := by
      by_contra hcon
      by_cases h5 : a ≤ N - p - 1
      · exact absurd (r2 _ h5 (by omega)) hlt.ne'
      · omega
    have hr : knotSeq kv (a + m - 1) = x := r2 _ (by omega) (by omega)
    have hr' : x < knotSeq kv (a + m - 1 + 1) := r3 _ (by omega) (by omega)
    rw [basisC_eq_bl ht (Or.inl ⟨hlt.ne, hr.le, hr'⟩)]
    refine key _ (by omega) (Or.inr ?_)
    obtain ⟨q1, q2⟩ := hk' (a + m - 1) (by omega)
    rw [q1, q2, hn', hr, ← e1, hc]
    refine ⟨by ring, ?_, rfl⟩
    rw [← e1] at hr'
    linarith
  · have hapos : 1 ≤ a := by
      by_contra hcon
      have h0 : a = 0 := by omega
      exact absurd (le_trans (r2 p (by omega) (by omega)).ge le_rfl) (not_le.2 e1)
    rcases eq_or_lt_of_le h2 with e2 | e2
    · -- upper end
      have hm1 : 1 ≤ m := by
        have : x ∈ kv := by
          rw [e2]
          unfold knotSeq
          rw [List.getD_eq_getElem _ _ (by omega)]
          exact List.getElem_mem _
        exact List.count_pos_iff.2 this
      have hr : knotSeq kv (a - 1) < x := r1 _ (by omega)
      have hr' : knotSeq kv (a - 1 + 1) = x := r2 _ (by omega) (by omega)
      rw [basisC_eq_bl ht (Or.inr ⟨e2, hr, hr'.symm⟩)]
      refine key _ (by omega) (Or.inl ?_)
      obtain ⟨q1, q2⟩ := hk' (a - 1) (by omega)
      rw [q1, q2, hn', hr', e2]
      rw [e2] at hr
      refine ⟨?_, le_rfl, by linarith⟩
      rw [hc]
      intro h
      linarith
    · -- inside
      have hmp := hm e1 e2
      have hr : knotSeq kv (a - 1) < x := r1 _ (by omega)
      have hamn : a + m ≤ N - p - 1 := by
        by_contra hcon
        exact absurd (r2 (N - p - 1) (by omega) (by omega)) e2.ne'
      have hr' : x < knotSeq kv (a - 1 + m + 1) := r3 _ (by omega) (by omega)
      have hmid : ∀ k, 1 ≤ k → k ≤ m → knotSeq kv (a - 1 + k) = x := fun k k1 k2 => r2 _ (by omega) (by omega)
      have hle : knotSeq kv (a - 1 + m) ≤ x := by
        rcases Nat.eq_zero_or_pos m with h0 | h0
        · rw [h0, Nat.add_zero]; exact hr.le
        · exact (hmid m h0 le_rfl).le
      rw [basisC_eq_bl ht (Or.inl ⟨e2.ne, hle, hr'⟩), ← bl_const_eq hr hr' hmid p hmp]
      refine key _ (by omega) (Or.inl ?_)
      obtain ⟨q1, q2⟩ := hk' (a - 1) (by omega)
      have hge : x ≤ knotSeq kv (a - 1 + 1) := by
        rcases Nat.eq_zero_or_pos m with h0 | h0
        · rw [h0, Nat.add_zero] at hr'; exact hr'.le
        · exact (hmid 1 le_rfl h0).ge
      rw [q1, q2, hn']
      refine ⟨?_, by linarith, by linarith⟩
      rw [hc]
      intro h
      linarith

omit [LinearOrder K] [IsStrictOrderedRing K] in
/-- Bernstein polynomials -/
theorem bernstein_mirror (p j : ℕ) (hj : j ≤ p) (x : K) : bernstein p (p - j) 0 1 (0 + 1 - x) = bernstein p j (0 : K) 1 x := by
  unfold bernstein
  rw [Nat.choose_symm hj, show p - (p - j) = j by omega]
  simp only [sub_zero, zero_add, div_one]
  ring

end Splinepy.Mirror
