import Verif.Props.DetSpline
import Verif.Props.Unique
import Verif.Lemma.DetKnots

/-!
C88 for splines with knot vectors.
-/
namespace Splinepy.DetSpline
open Splinepy.Spec Finset Splinepy.CurrySchoenberg

set_option linter.unusedSectionVars false

/-! ### Specification -/

/-- `jac u` is the matrix of the partial derivatives of the spline at the parameter `u` of its domain; at the ends of the domain the derivatives are one-sided. -/
def Spec.JacobianOn (s : Index.Spline ℝ (List ℝ)) (n : ℕ) (jac : List ℝ → Matrix (Fin n) (Fin n) ℝ) : Prop :=
  ∀ u, InDomain s u → ∀ k i : Fin n, HasDerivWithinAt (fun x => point s (u.set i x) k) (jac u k i) {x | InDomain s (u.set i x)} (u.getD i 0)

/-- A clamped knot vector of degree `p` for functions with continuous derivative: non-decreasing, the first and the last knot occur `p + 1` times, all others less than `p` times. -/
structure Spec.Smooth (p : ℕ) (kv : List ℝ) : Prop where
  sorted : kv.Pairwise (· ≤ ·)
  two : kv.head? ≠ kv.getLast?
  first : ∀ a, kv.head? = some a → kv.count a = p + 1
  last : ∀ b, kv.getLast? = some b → kv.count b = p + 1
  inner : ∀ k ∈ kv, kv.head? ≠ some k → kv.getLast? ≠ some k → kv.count k < p

/-! ### sorted lists as repeated values -/

theorem exists_rep (kv : List ℝ) (hs : kv.Pairwise (· ≤ ·)) (hne : kv ≠ []) : ∃ (L : ℕ) (x : ℕ → ℝ) (m : ℕ → ℕ), (∀ i < L, x i < x (i + 1)) ∧ (∀ i ≤ L, 1 ≤ m i) ∧ kv = rep x m (L + 1) := by
  induction kv using List.reverseRecOn with
  | nil => exact absurd rfl hne
  | append_singleton kv a ih =>
    rw [List.pairwise_append] at hs
    obtain ⟨h1, -, h3⟩ := hs
    by_cases hn : kv = []
    · subst hn
      exact ⟨0, fun _ => a, fun _ => 1, by simp, by simp, by simp [rep]⟩
    · obtain ⟨L, x, m, hx, hm, e⟩ := ih h1 hn
      have hmem : x L ∈ kv := by
        rw [e, rep_succ, List.mem_append]
        right
        rw [List.mem_replicate]
        exact ⟨by have := hm L (le_refl _); omega, rfl⟩
      have hle : x L ≤ a := h3 _ hmem a (by simp)
      rcases lt_or_eq_of_le hle with hlt | heq
      · refine ⟨L + 1, fun i => if i ≤ L then x i else a, fun i => if i ≤ L then m i else 1, ?_, ?_, ?_⟩
        · intro i hi
          simp only
          rw [if_pos (by omega)]
          by_cases h : i + 1 ≤ L
          · rw [if_pos h]; exact hx i (by omega)
          · rw [if_neg h]
            obtain rfl : i = L := by omega
            exact hlt
        · intro i _
          simp only
          split
          · exact hm i (by omega)
          · exact le_refl _
        · rw [rep_succ]
          simp only [show ¬ (L + 1 ≤ L) by omega, if_false, List.replicate_one]
          congr 1
          rw [e]
          unfold rep
          apply List.flatMap_congr
          intro i hi
          have := List.mem_range.1 hi
          simp only
          rw [if_pos (by omega), if_pos (by omega)]
      · refine ⟨L, x, fun i => if i = L then m L + 1 else m i, hx, ?_, ?_⟩
        · intro i hi
          simp only
          split
          · omega
          · exact hm i hi
        · rw [rep_succ]
          simp only [if_true]
          rw [List.replicate_succ', ← List.append_assoc, heq]
          congr 1
          rw [e, rep_succ]
          subst heq
          congr 1
          unfold rep
          apply List.flatMap_congr
          intro i hi
          have := List.mem_range.1 hi
          simp only
          rw [if_neg (by omega)]

theorem rep_count {x : ℕ → ℝ} {L : ℕ} (hx : ∀ i < L, x i < x (i + 1)) (m : ℕ → ℕ) {n i : ℕ} (hn : n ≤ L + 1) (hi : i ≤ L) : (rep x m n).count (x i) = if i < n then m i else 0 := by
  induction n with
  | zero => simp [rep]
  | succ n ih =>
    rw [rep_succ, List.count_append, ih (by omega), List.count_replicate]
    by_cases h : i = n
    · subst h
      simp
    · have hne : ¬ ((x n == x i) = true) := by
        rw [beq_iff_eq]
        rcases Nat.lt_or_gt_of_ne h with h' | h'
        · exact (x_strict hx h' (by omega)).ne'
        · exact (x_strict hx h' (by omega)).ne
      rw [if_neg hne, Nat.add_zero]
      by_cases h2 : i < n
      · rw [if_pos h2, if_pos (by omega)]
      · rw [if_neg h2, if_neg (by omega)]

theorem mem_rep_iff {x : ℕ → ℝ} {m : ℕ → ℕ} {L : ℕ} (hm : ∀ i ≤ L, 1 ≤ m i) (a : ℝ) : a ∈ rep x m (L + 1) ↔ ∃ i ≤ L, a = x i := by
  constructor
  · intro h
    obtain ⟨i, hi, e⟩ := mem_rep x m h
    exact ⟨i, by omega, e⟩
  · rintro ⟨i, hi, rfl⟩
    unfold rep
    refine List.mem_flatMap.2 ⟨i, List.mem_range.2 (by omega), List.mem_replicate.2 ⟨by have := hm i hi; omega, rfl⟩⟩

theorem strict_range {x : ℕ → ℝ} {L : ℕ} (hx : ∀ i < L, x i < x (i + 1)) : ((List.range (L + 1)).map x).Pairwise (· < ·) := by
  rw [List.pairwise_map, List.pairwise_iff_getElem]
  intro i j hi hj hij
  rw [List.length_range] at hi hj
  rw [List.getElem_range, List.getElem_range]
  exact x_strict hx hij (by omega)

theorem eq_of_strict {l l' : List ℝ} (h : l.Pairwise (· < ·)) (h' : l'.Pairwise (· < ·)) (hm : ∀ a, a ∈ l ↔ a ∈ l') : l = l' := by
  have hp : l.Perm l' := (List.perm_ext_iff_of_nodup (h.imp fun h => h.ne) (h'.imp fun h => h.ne)).2 hm
  exact hp.eq_of_pairwise (le := (· < ·)) (fun a b _ _ h1 h2 => absurd (lt_trans h1 h2) (lt_irrefl _)) h h'

theorem rep_dedup {x : ℕ → ℝ} {m : ℕ → ℕ} {L : ℕ} (hx : ∀ i < L, x i < x (i + 1)) (hm : ∀ i ≤ L, 1 ≤ m i) : (rep x m (L + 1)).dedup = (List.range (L + 1)).map x := by
  refine eq_of_strict ?_ (strict_range hx) fun a => ?_
  · have h1 : (rep x m (L + 1)).dedup.Pairwise (· ≤ ·) := (rep_sorted hx m (le_refl _)).sublist (List.dedup_sublist _)
    have h2 : (rep x m (L + 1)).dedup.Pairwise (· ≠ ·) := List.nodup_dedup _
    exact (h1.and h2).imp fun h => lt_of_le_of_ne h.1 h.2
  · rw [List.mem_dedup, mem_rep_iff hm, List.mem_map]
    constructor
    · rintro ⟨i, hi, rfl⟩
      exact ⟨i, List.mem_range.2 (by omega), rfl⟩
    · rintro ⟨i, hi, rfl⟩
      exact ⟨i, by have := List.mem_range.1 hi; omega, rfl⟩

theorem rep_unique {x : ℕ → ℝ} {m : ℕ → ℕ} {L p : ℕ} (hx : ∀ i < L, x i < x (i + 1)) (hm : ∀ i ≤ L, 1 ≤ m i) (h0 : m 0 = p + 1) (hl : m L = p + 1) {eps : ℝ} (heps : 0 < eps)
    (hL : 0 < L) (hsep : Unique.Spec.Separated eps (rep x m (L + 1))) : Unique.uniqueKnots eps (rep x m (L + 1)) p = (List.range (L + 1)).map x := by
  obtain ⟨g1, g2⟩ := Unique.unique_knots_exact (rep x m (L + 1)) p eps heps (rep_sorted hx m (le_refl _)) hsep
  refine eq_of_strict g1 (strict_range hx) fun a => ?_
  rw [g2]
  have hlen : (rep x m (L + 1)).length = off m L + (p + 1) := by rw [rep_length, off_succ, hl]
  have h1 : off m 1 = p + 1 := by rw [off_succ, h0]; simp [off]
  have h2 := off_mono m (show 1 ≤ L by omega)
  constructor
  · intro h
    have := ((List.take_sublist _ _).trans (List.drop_sublist _ _)).subset h
    obtain ⟨i, hi, rfl⟩ := (mem_rep_iff hm _).1 this
    exact List.mem_map.2 ⟨i, List.mem_range.2 (by omega), rfl⟩
  · intro h
    obtain ⟨i, hi, rfl⟩ := List.mem_map.1 h
    have hi' : i ≤ L := by have := List.mem_range.1 hi; omega
    -- index of a copy
    obtain ⟨j, hj1, hj2, hj3, hj4⟩ : ∃ j, off m i ≤ j ∧ j < off m (i + 1) ∧ p ≤ j ∧ j < (rep x m (L + 1)).length - p := by
      rcases Nat.eq_zero_or_pos i with rfl | hpos
      · exact ⟨p, by simp [off], by rw [Nat.zero_add]; omega, le_refl _, by omega⟩
      · refine ⟨off m i, le_refl _, ?_, ?_, ?_⟩
        · rw [off_succ]; have := hm i hi'; omega
        · have := off_mono m (show 1 ≤ i by omega); omega
        · have := off_mono m hi'; omega
    rw [List.mem_iff_getElem?]
    refine ⟨j - p, ?_⟩
    rw [List.getElem?_take, if_pos (by omega), List.getElem?_drop, show p + (j - p) = j by omega]
    have := rep_getD x m (n := L + 1) (by omega) hj1 hj2 0
    rw [List.getD_eq_getElem?_getD, List.getElem?_eq_getElem (by omega)] at this
    rw [List.getElem?_eq_getElem (by omega)]
    simpa using this

theorem rep_head {x : ℕ → ℝ} {m : ℕ → ℕ} {L : ℕ} (hm : ∀ i ≤ L, 1 ≤ m i) : (rep x m (L + 1)).head? = some (x 0) := by
  have h : off m 0 < off m (0 + 1) := by rw [off_succ]; have := hm 0 (by omega); omega
  have h2 := off_mono m (show 0 + 1 ≤ L + 1 by omega)
  have h3 : (rep x m (L + 1)).getD 0 0 = x 0 := rep_getD x m (by omega) (by simp [off]) (by omega) 0
  rw [List.getD_eq_getElem?_getD] at h3
  rw [List.head?_eq_getElem?, List.getElem?_eq_getElem (by rw [rep_length]; omega)] at *
  simpa using h3

theorem rep_last {x : ℕ → ℝ} {m : ℕ → ℕ} {L : ℕ} (hm : ∀ i ≤ L, 1 ≤ m i) : (rep x m (L + 1)).getLast? = some (x L) := by
  rw [rep_succ]
  obtain ⟨k, hk⟩ : ∃ k, m L = k + 1 := ⟨m L - 1, by have := hm L (le_refl _); omega⟩
  rw [hk, List.replicate_succ', ← List.append_assoc, List.getLast?_concat]

/-- a smooth knot vector in terms of repeated values -/
theorem Spec.Smooth.grid {p : ℕ} {kv : List ℝ} (h : Spec.Smooth p kv) : ∃ L x m, Grid1 p kv L x m := by
  have hne : kv ≠ [] := by rintro rfl; exact h.two rfl
  obtain ⟨L, x, m, hx, hm, e⟩ := exists_rep kv h.sorted hne
  have hh : kv.head? = some (x 0) := by rw [e]; exact rep_head hm
  have hl : kv.getLast? = some (x L) := by rw [e]; exact rep_last hm
  have hcount : ∀ i ≤ L, kv.count (x i) = m i := by
    intro i hi
    rw [e, rep_count hx m (le_refl _) hi, if_pos (by omega)]
  have hL : 0 < L := by
    rcases Nat.eq_zero_or_pos L with rfl | hpos
    · exact absurd (hh.trans hl.symm) h.two
    · exact hpos
  refine ⟨L, x, m, hL, hx, hm, ?_, ?_, ?_, e⟩
  · rw [← hcount 0 (by omega), h.first _ hh]
  · rw [← hcount L (le_refl _), h.last _ hl]
  · intro i h1 h2
    rw [← hcount i (by omega)]
    refine h.inner (x i) (by rw [e]; exact (mem_rep_iff hm _).2 ⟨i, by omega, rfl⟩) ?_ ?_
    · rw [hh]
      intro e'
      exact (x_strict hx h1 (by omega)).ne (Option.some.inj e')
    · rw [hl]
      intro e'
      exact (x_strict hx h2 (le_refl _)).ne' (Option.some.inj e')

/-! ### the knots of the determinant -/

/-- multiplicities of the knots of the determinant -/
def detMult (p n L : ℕ) (m : ℕ → ℕ) (i : ℕ) : ℕ := if 0 < i ∧ i < L then m i + (p * n - 1) + 1 - p else p * n - 1 + 1

theorem determinantKnots_eq {p n : ℕ} {kv : List ℝ} {L : ℕ} {x : ℕ → ℝ} {m : ℕ → ℕ} (H : Grid1 p kv L x m) (hp : 2 ≤ p * n) (hn : 0 < n) {eps : ℝ} (heps : 0 < eps)
    (hsep : Unique.Spec.Separated eps kv) : determinantKnots eps n p kv = some (rep x (detMult p n L m) (L + 1)) := by
  have hpp : p ≤ p * n := Nat.le_mul_of_pos_right p hn
  have hmul : knotMultiplicities kv = (List.range (L + 1)).map m := by
    unfold knotMultiplicities
    rw [H.eq, rep_dedup H.lt H.one, List.map_map]
    apply List.map_congr_left
    intro i hi
    have := List.mem_range.1 hi
    rw [Function.comp, rep_count H.lt m (le_refl _) (by omega), if_pos this]
  have hinc : increased ((p * n - 1 : ℤ) - p) (knotMultiplicities kv) = (List.range (L + 1)).map fun i => (detMult p n L m i : ℤ) := by
    rw [hmul]
    unfold increased
    apply List.ext_getElem
    · simp only [List.length_mapIdx, List.length_map, List.length_range]
    · intro i h1 h2
      have hi : i < L + 1 := by simpa using h2
      simp only [List.getElem_mapIdx, List.getElem_map, List.getElem_range, List.length_map, List.length_range, detMult]
      have := H.one i (by omega)
      by_cases h : 0 < i ∧ i < L
      · rw [if_pos ⟨h.1, by omega⟩, if_pos h]
        push_cast [Nat.cast_sub (show p ≤ m i + (p * n - 1) + 1 by omega), Nat.cast_sub (show 1 ≤ p * n by omega)]
        ring
      · rw [if_neg (by omega), if_neg h]
        have hme : m i = p + 1 := by
          rcases Nat.eq_zero_or_pos i with rfl | hpos
          · exact H.first
          · obtain rfl : i = L := by omega
            exact H.last
        rw [hme]
        push_cast [Nat.cast_sub (show 1 ≤ p * n by omega)]
        ring
  unfold determinantKnots npRepeat
  rw [hinc]
  have hany : ¬ (((List.range (L + 1)).map fun i => (detMult p n L m i : ℤ)).any (· < 0)) = true := by
    simp
  rw [if_neg hany]
  have hu : Unique.uniqueKnots eps kv p = (List.range (L + 1)).map x := by
    have := H.eq
    subst this
    exact rep_unique H.lt H.one H.first H.last heps H.pos hsep
  rw [hu, if_pos (by simp)]
  congr 1
  rw [List.zipWith_map, List.zipWith_self]
  simp only [Int.toNat_natCast]
  rw [rep, List.flatMap_def]

/-- the determinant's knots form a grid of the new degree, with inner knots of at most the degree -/
structure DetGrid (p n L : ℕ) (x : ℕ → ℝ) (m : ℕ → ℕ) : Prop where
  one : ∀ i ≤ L, 1 ≤ detMult p n L m i
  first : detMult p n L m 0 = p * n - 1 + 1
  last : detMult p n L m L = p * n - 1 + 1
  inner : ∀ i, 0 < i → i < L → detMult p n L m i ≤ p * n - 1
  order : ∀ i, 0 < i → i < L → p - m i = p * n - 1 + 1 - detMult p n L m i

theorem detGrid {p n : ℕ} {kv : List ℝ} {L : ℕ} {x : ℕ → ℝ} {m : ℕ → ℕ} (H : Grid1 p kv L x m) (hp : 2 ≤ p * n) (hn : 0 < n) : DetGrid p n L x m := by
  have hpp : p ≤ p * n := Nat.le_mul_of_pos_right p hn
  refine ⟨fun i hi => ?_, by simp [detMult], by simp [detMult], fun i h1 h2 => ?_, fun i h1 h2 => ?_⟩
  · unfold detMult
    have := H.one i hi
    split <;> omega
  · have := H.inner i h1 h2
    rw [detMult, if_pos ⟨h1, h2⟩]
    omega
  · have := H.inner i h1 h2
    rw [detMult, if_pos ⟨h1, h2⟩]
    omega

theorem block (M : ℕ → ℕ) (n j : ℕ) (h : j < off M n) : ∃ i < n, off M i ≤ j ∧ j < off M (i + 1) := by
  induction n with
  | zero => simp [off] at h
  | succ n ih =>
    by_cases h' : j < off M n
    · obtain ⟨i, hi, h1, h2⟩ := ih h'
      exact ⟨i, by omega, h1, h2⟩
    · exact ⟨n, by omega, by omega, h⟩

/-- the B-splines of the determinant are determined at the Greville abscissae -/
theorem det_determined {D L : ℕ} {x : ℕ → ℝ} {M : ℕ → ℕ} (hD : 1 ≤ D) (hL : 0 < L) (hx : ∀ i < L, x i < x (i + 1)) (hM : ∀ i ≤ L, 1 ≤ M i) (h0 : M 0 = D + 1) (hl : M L = D + 1)
    (hin : ∀ i, 0 < i → i < L → M i ≤ D) {tol : ℝ} (hsep : ∀ i < L, D * tol ≤ x (i + 1) - x i) :
    Greville.Spec.IsKnotVector (rep x M (L + 1)) D ∧ Greville.Spec.Clamped (rep x M (L + 1)) D ∧
    Determined (fun y j => basisC (knotSeq (rep x M (L + 1))) ((rep x M (L + 1)).length - D - 1) D j y) ((rep x M (L + 1)).length - D - 1) (Greville.greville (rep x M (L + 1)) D tol) := by
  have hlen : (rep x M (L + 1)).length = off M L + (D + 1) := by rw [rep_length, off_succ, hl]
  have h1 : off M 1 = D + 1 := by rw [off_succ, h0]; simp [off]
  have h2 := off_mono M (show 1 ≤ L by omega)
  have hs := rep_sorted hx M (le_refl (L + 1))
  have hmono := KnotInsertion.knotSeq_monotone hs
  have hk : Greville.Spec.IsKnotVector (rep x M (L + 1)) D := ⟨hs, hD, by omega⟩
  have hc : Greville.Spec.Clamped (rep x M (L + 1)) D := by
    constructor
    · intro i hi
      have h1' : off M (0 + 1) = D + 1 := h1
      rw [rep_getD x M (i := 0) (by omega) (by simp [off]) (by omega), rep_getD x M (i := 0) (by omega) (by simp [off]) (by omega)]
    · intro i hi1 hi2
      rw [hlen] at hi1 hi2 ⊢
      rw [rep_getD x M (i := L) (by omega) (by omega) (by rw [off_succ, hl]; omega), rep_getD x M (i := L) (by omega) (by omega) (by rw [off_succ, hl]; omega)]
  have hstep : ∀ j, 1 ≤ j → j < (rep x M (L + 1)).length - D - 1 → ∃ i < L, knotSeq (rep x M (L + 1)) j = x i ∧ x (i + 1) ≤ knotSeq (rep x M (L + 1)) (j + D) := by
    intro j hj1 hj2
    obtain ⟨i, hi, g1, g2⟩ := block M L j (by omega)
    refine ⟨i, hi, rep_knot x M (by omega) g1 g2, ?_⟩
    have hle : off M (i + 1) ≤ j + D := by
      rcases Nat.eq_zero_or_pos i with rfl | hpos
      · rw [Nat.zero_add, h1]; omega
      · rw [off_succ]
        have := hin i hpos hi
        omega
    have e : knotSeq (rep x M (L + 1)) (off M (i + 1)) = x (i + 1) := rep_knot x M (by omega) (le_refl _) (by rw [off_succ M (i + 1)]; have := hM (i + 1) (by omega); omega)
    rw [← e]
    exact hmono hle
  refine ⟨hk, hc, Greville.greville_determined hk hc ?_ ?_⟩
  · intro j hj1 hj2
    obtain ⟨i, hi, e, hle⟩ := hstep j hj1 hj2
    rw [e]
    exact lt_of_lt_of_le (hx i hi) hle
  · intro j hj1 hj2
    obtain ⟨i, hi, e, hle⟩ := hstep j hj1 hj2
    rw [e]
    have := hsep i hi
    linarith

/-! ### the spline in product form -/

/-- coefficient of a control point -/
noncomputable def coef (s : Index.Spline ℝ (List ℝ)) (g k : ℕ) : ℝ := (s.controlPoints.getD g []).getD k 0

theorem Grid1.valid {p : ℕ} {kv : List ℝ} {L : ℕ} {x : ℕ → ℝ} {m : ℕ → ℕ} (hL : 0 < L) (hx : ∀ i < L, x i < x (i + 1)) (h0 : m 0 = p + 1) (hl : m L = p + 1)
    (e : kv = rep x m (L + 1)) : (⟨p, some kv⟩ : Direction ℝ).Valid := by
  intro kv' hkv'
  obtain rfl : kv = kv' := Option.some.inj hkv'
  have hlen : kv.length = off m L + (p + 1) := by rw [e, rep_length, off_succ, hl]
  have h1 : off m 1 = p + 1 := by rw [off_succ, h0]; simp [off]
  have h2 := off_mono m (show 1 ≤ L by omega)
  refine ⟨by rw [e]; exact rep_sorted hx m (le_refl _), by simp only; omega, ?_⟩
  simp only [Direction.lower, Direction.upper]
  have a0 : knotSeq kv p = x 0 := by
    rw [e]
    exact rep_knot x m (by omega) (by simp [off]) (by rw [Nat.zero_add]; omega)
  have a1 : knotSeq kv (kv.length - p - 1) = x L := by
    rw [hlen, e]
    exact rep_knot x m (by omega) (by omega) (by rw [off_succ, hl]; omega)
  rw [a0, a1]
  exact x_strict hx hL (le_refl _)

theorem point_sum {n : ℕ} (s : Index.Spline ℝ (List ℝ)) (kvs : List (List ℝ)) (hk : s.knotVectors = some kvs) (h1 : s.degrees.length = n) (h2 : kvs.length = n)
    (hv : ∀ d ∈ directions s, d.Valid) (hw : ∀ ws, s.weights = some ws → ∃ w, w ≠ 0 ∧ ws = List.replicate (netSize s).prod w) (u : List ℝ) (hu : InDomain s u) (k : ℕ) :
    point s u k = ∑ g ∈ range (List.ofFn fun l : Fin n => nsize s.degrees kvs l).prod,
      coef s g k * ∏ l : Fin n, nb s.degrees kvs l ((digits (List.ofFn fun l : Fin n => nsize s.degrees kvs l) g).getD l 0) (u.getD l 0) := by
  have hul := ((inDomain_iff s kvs hk h1 h2 u).1 hu).1
  have hsum := basisValues_sum hv hu
  have hprod : ∀ g, basisProduct (basisValues s u) (digits (netSize s) g) =
      ∏ l : Fin n, nb s.degrees kvs l ((digits (List.ofFn fun l : Fin n => nsize s.degrees kvs l) g).getD l 0) (u.getD l 0) := by
    intro g
    rw [basisValues_ofFn s kvs hk h1 h2 u hul, netSize_ofFn s kvs hk h1 h2, basisProduct_ofFn _ _ (by rw [digits_length', List.length_ofFn])]
  have hev : ∀ c : ℕ → ℝ, tensorEval (basisValues s u) (netSize s) ((List.range (netSize s).prod).map c) = ∑ g ∈ range (List.ofFn fun l : Fin n => nsize s.degrees kvs l).prod,
      c g * ∏ l : Fin n, nb s.degrees kvs l ((digits (List.ofFn fun l : Fin n => nsize s.degrees kvs l) g).getD l 0) (u.getD l 0) := by
    intro c
    rw [tensorEval_eq_sum, netSize_ofFn s kvs hk h1 h2]
    refine Finset.sum_congr rfl fun g hg => ?_
    rw [getD_map_range _ _ _ (mem_range.1 hg), mul_comm, ← hprod, netSize_ofFn s kvs hk h1 h2]
  unfold point value
  cases hws : s.weights with
  | none =>
    simp only
    rw [hev]
    rfl
  | some ws =>
    obtain ⟨w, h0, rfl⟩ := hw ws hws
    simp only
    have hden : tensorEval (basisValues s u) (netSize s) (List.replicate (netSize s).prod w) = w := by
      have e : List.replicate (netSize s).prod w = (List.range (netSize s).prod).map fun _ => w := by simp
      rw [e, hev, ← Finset.mul_sum]
      have : ∑ g ∈ range (List.ofFn fun l : Fin n => nsize s.degrees kvs l).prod,
          ∏ l : Fin n, nb s.degrees kvs l ((digits (List.ofFn fun l : Fin n => nsize s.degrees kvs l) g).getD l 0) (u.getD l 0) = 1 := by
        rw [← hsum, netSize_ofFn s kvs hk h1 h2]
        refine Finset.sum_congr rfl fun g _ => ?_
        rw [← hprod, netSize_ofFn s kvs hk h1 h2]
      rw [this, mul_one]
    have e2 : ((List.range (netSize s).prod).map fun i => (List.replicate (netSize s).prod w).getD i 0 * (s.controlPoints.getD i []).getD k 0) =
        (List.range (netSize s).prod).map fun g => w * coef s g k := by
      apply List.map_congr_left
      intro g hg
      rw [List.getD_eq_getElem (List.replicate _ _) 0 (by simpa using hg)]
      simp [coef]
    rw [hden, e2, hev, div_eq_iff h0, Finset.sum_mul]
    refine Finset.sum_congr rfl fun g _ => by ring

/-! ### the Jacobian in product form -/

section
variable {n : ℕ} {ds : List ℕ} {kvs : List (List ℝ)} {L : Fin n → ℕ} {x : Fin n → ℕ → ℝ} {m : Fin n → ℕ → ℕ}

/-- factor of direction `l` in the derivative with respect to direction `a` -/
noncomputable def factor (ds : List ℕ) (kvs : List (List ℝ)) (L : Fin n → ℕ) (x : Fin n → ℕ → ℝ) (m : Fin n → ℕ → ℕ) (l a : Fin n) (j : ℕ) (y : ℝ) : ℝ :=
  if l = a then dbasis (x l) (m l) (L l) (ds.getD l 0) j y else nb ds kvs l j y

theorem getD_set_self {u : List ℝ} {i : ℕ} (h : i < u.length) (y : ℝ) : (u.set i y).getD i 0 = y := by
  rw [List.getD_eq_getElem _ 0 (by simpa using h), List.getElem_set_self]

theorem getD_set_ne {u : List ℝ} {i l : ℕ} (h : l ≠ i) (y : ℝ) : (u.set i y).getD l 0 = u.getD l 0 := by
  rw [List.getD_eq_getElem?_getD, List.getElem?_set_ne (fun e => h e.symm), ← List.getD_eq_getElem?_getD]

theorem hasDeriv_sum (H : ∀ l : Fin n, Grid1 (ds.getD l 0) (kvs.getD l []) (L l) (x l) (m l)) (G : ℕ) (c : ℕ → ℝ) (J : ℕ → Fin n → ℕ) (u : List ℝ) (hu : u.length = n) (a : Fin n)
    (S : Set ℝ) (hS : ∀ j, HasDerivWithinAt (fun y => nb ds kvs a j y) (dbasis (x a) (m a) (L a) (ds.getD a 0) j (u.getD a 0)) S (u.getD a 0)) :
    HasDerivWithinAt (fun y => ∑ g ∈ range G, c g * ∏ l : Fin n, nb ds kvs l (J g l) ((u.set a y).getD l 0))
      (∑ g ∈ range G, c g * ∏ l : Fin n, factor ds kvs L x m l a (J g l) (u.getD l 0)) S (u.getD a 0) := by
  refine HasDerivWithinAt.fun_sum fun g _ => HasDerivWithinAt.const_mul _ ?_
  have e1 : (fun y => ∏ l : Fin n, nb ds kvs l (J g l) ((u.set a y).getD l 0)) = fun y => nb ds kvs a (J g a) y * ∏ l ∈ univ.erase a, nb ds kvs l (J g l) (u.getD l 0) := by
    funext y
    rw [← Finset.mul_prod_erase univ _ (mem_univ a), getD_set_self (by omega)]
    congr 1
    refine Finset.prod_congr rfl fun l hl => ?_
    rw [getD_set_ne (fun e => (Finset.ne_of_mem_erase hl) (Fin.ext e))]
  have e2 : ∏ l : Fin n, factor ds kvs L x m l a (J g l) (u.getD l 0) = dbasis (x a) (m a) (L a) (ds.getD a 0) (J g a) (u.getD a 0) * ∏ l ∈ univ.erase a, nb ds kvs l (J g l) (u.getD l 0) := by
    rw [← Finset.mul_prod_erase univ _ (mem_univ a), factor, if_pos rfl]
    congr 1
    refine Finset.prod_congr rfl fun l hl => ?_
    rw [factor, if_neg (Finset.ne_of_mem_erase hl)]
  rw [e1, e2]
  exact (hS (J g a)).mul_const _

end

/-- domain in terms of the grids -/
theorem inDomain_grid {n : ℕ} (s : Index.Spline ℝ (List ℝ)) (kvs : List (List ℝ)) (hk : s.knotVectors = some kvs) (h1 : s.degrees.length = n) (h2 : kvs.length = n) {L : Fin n → ℕ}
    {x : Fin n → ℕ → ℝ} {m : Fin n → ℕ → ℕ} (H : ∀ l : Fin n, Grid1 (s.degrees.getD l 0) (kvs.getD l []) (L l) (x l) (m l)) (u : List ℝ) :
    InDomain s u ↔ u.length = n ∧ ∀ l : Fin n, x l 0 ≤ u.getD l 0 ∧ u.getD l 0 ≤ x l (L l) := by
  rw [inDomain_iff s kvs hk h1 h2]
  have e : ∀ l : Fin n, (knotSeq (kvs.getD l []) (s.degrees.getD l 0) ≤ u.getD l 0 ∧ u.getD l 0 ≤ knotSeq (kvs.getD l []) (nsize s.degrees kvs l)) ↔
      (x l 0 ≤ u.getD l 0 ∧ u.getD l 0 ≤ x l (L l)) := by
    intro l
    rw [(H l).lower, nsize, (H l).upper]
  rw [forall_congr' e]

theorem set_inDomain {n : ℕ} (s : Index.Spline ℝ (List ℝ)) (kvs : List (List ℝ)) (hk : s.knotVectors = some kvs) (h1 : s.degrees.length = n) (h2 : kvs.length = n) {L : Fin n → ℕ}
    {x : Fin n → ℕ → ℝ} {m : Fin n → ℕ → ℕ} (H : ∀ l : Fin n, Grid1 (s.degrees.getD l 0) (kvs.getD l []) (L l) (x l) (m l)) (u : List ℝ) (hu : InDomain s u) (a : Fin n) (y : ℝ) :
    InDomain s (u.set a y) ↔ x a 0 ≤ y ∧ y ≤ x a (L a) := by
  rw [inDomain_grid s kvs hk h1 h2 H] at hu ⊢
  constructor
  · rintro ⟨-, g⟩
    have := g a
    rwa [getD_set_self (by omega)] at this
  · intro h
    refine ⟨by rw [List.length_set]; exact hu.1, fun l => ?_⟩
    by_cases hl : l = a
    · subst hl
      rw [getD_set_self (by omega)]
      exact h
    · rw [getD_set_ne (fun e => hl (Fin.ext e))]
      exact hu.2 l

theorem directions_valid {n : ℕ} (s : Index.Spline ℝ (List ℝ)) (kvs : List (List ℝ)) (hk : s.knotVectors = some kvs) (h1 : s.degrees.length = n) (h2 : kvs.length = n)
    (H : ∀ l : Fin n, (⟨s.degrees.getD l 0, some (kvs.getD l [])⟩ : Direction ℝ).Valid) : ∀ d ∈ directions s, d.Valid := by
  intro d hd
  unfold directions at hd
  rw [hk] at hd
  obtain ⟨i, hi, rfl⟩ := List.getElem_of_mem hd
  simp only [List.length_zipWith, h1, h2, Nat.min_self] at hi
  have := H ⟨i, hi⟩
  simp only at this
  rw [List.getD_eq_getElem kvs _ (by omega), List.getD_eq_getElem s.degrees _ (by omega)] at this
  rw [List.getElem_zipWith]
  exact this

theorem jac_entry {n : ℕ} (s : Index.Spline ℝ (List ℝ)) (kvs : List (List ℝ)) (hk : s.knotVectors = some kvs) (h1 : s.degrees.length = n) (h2 : kvs.length = n) {L : Fin n → ℕ}
    {x : Fin n → ℕ → ℝ} {m : Fin n → ℕ → ℕ} (H : ∀ l : Fin n, Grid1 (s.degrees.getD l 0) (kvs.getD l []) (L l) (x l) (m l))
    (hw : ∀ ws, s.weights = some ws → ∃ w, w ≠ 0 ∧ ws = List.replicate (netSize s).prod w) (jac : List ℝ → Matrix (Fin n) (Fin n) ℝ) (hj : Spec.JacobianOn s n jac)
    (u : List ℝ) (hu : InDomain s u) (k a : Fin n) :
    jac u k a = ∑ g ∈ range (List.ofFn fun l : Fin n => nsize s.degrees kvs l).prod,
      coef s g k * ∏ l : Fin n, factor s.degrees kvs L x m l a ((digits (List.ofFn fun l : Fin n => nsize s.degrees kvs l) g).getD l 0) (u.getD l 0) := by
  have hu' := (inDomain_grid s kvs hk h1 h2 H u).1 hu
  have hv := directions_valid s kvs hk h1 h2 fun l => Grid1.valid (H l).pos (H l).lt (H l).first (H l).last (H l).eq
  obtain ⟨i, hi⟩ := onPiece_exists (H a).pos (hu'.2 a).1 (hu'.2 a).2
  have hsub : {v | OnPiece (L a) (x a) i v} ⊆ {v | InDomain s (u.set a v)} := fun v hv => (set_inDomain s kvs hk h1 h2 H u hu a v).2 ((H a).piece_subset i v hv)
  have d1 := (hj u hu k a).mono hsub
  have d2 := hasDeriv_sum H (List.ofFn fun l : Fin n => nsize s.degrees kvs l).prod (fun g => coef s g k)
    (fun g l => (digits (List.ofFn fun l : Fin n => nsize s.degrees kvs l) g).getD l 0) u hu'.1 a {v | OnPiece (L a) (x a) i v} (fun j => (H a).piece_within j i _ hi)
  refine ((H a).piece_unique i _ hi).eq_deriv _ (d1.congr (fun v hv' => ?_) ?_) d2
  · exact (point_sum s kvs hk h1 h2 hv hw _ (hsub hv') k).symm
  · exact (point_sum s kvs hk h1 h2 hv hw _ (hsub hi) k).symm

/-- Every such spline has a Jacobian on its domain. -/
theorem jacobianOn_exists {n : ℕ} (s : Index.Spline ℝ (List ℝ)) (kvs : List (List ℝ)) (hk : s.knotVectors = some kvs) (h1 : s.degrees.length = n)
    (hw : ∀ ws, s.weights = some ws → ∃ w, w ≠ 0 ∧ ws = List.replicate (netSize s).prod w) (hs : List.Forall₂ Spec.Smooth s.degrees kvs) : ∃ jac, Spec.JacobianOn s n jac := by
  have h2 : kvs.length = n := by rw [← hs.length_eq, h1]
  have hgrid : ∀ l : Fin n, ∃ L x m, Grid1 (s.degrees.getD l 0) (kvs.getD l []) L x m := by
    intro l
    have := (List.forall₂_iff_get.1 hs).2 l (by omega) (by omega)
    rw [List.getD_eq_getElem kvs _ (by omega), List.getD_eq_getElem s.degrees _ (by omega)]
    exact Spec.Smooth.grid this
  choose L x m H using hgrid
  have hv := directions_valid s kvs hk h1 h2 fun l => Grid1.valid (H l).pos (H l).lt (H l).first (H l).last (H l).eq
  refine ⟨fun u k a => ∑ g ∈ range (List.ofFn fun l : Fin n => nsize s.degrees kvs l).prod,
      coef s g k * ∏ l : Fin n, factor s.degrees kvs L x m l a ((digits (List.ofFn fun l : Fin n => nsize s.degrees kvs l) g).getD l 0) (u.getD l 0), fun u hu k a => ?_⟩
  have hu' := (inDomain_grid s kvs hk h1 h2 H u).1 hu
  have hset : {v | InDomain s (u.set a v)} = Set.Icc (x a 0) (x a (L a)) := Set.ext fun v => set_inDomain s kvs hk h1 h2 H u hu a v
  have d2 := hasDeriv_sum H (List.ofFn fun l : Fin n => nsize s.degrees kvs l).prod (fun g => coef s g k)
    (fun g l => (digits (List.ofFn fun l : Fin n => nsize s.degrees kvs l) g).getD l 0) u hu'.1 a {v | InDomain s (u.set a v)}
    (fun j => by rw [hset]; exact (H a).domain_within j _ (hu'.2 a).1 (hu'.2 a).2)
  have hmem : u.getD a 0 ∈ {v | InDomain s (u.set a v)} := by rw [hset]; exact hu'.2 a
  exact d2.congr (fun v hv' => point_sum s kvs hk h1 h2 hv hw _ hv' k) (point_sum s kvs hk h1 h2 hv hw _ hmem k)

/-! ### the determinant is a spline -/

theorem det_tens {n : ℕ} (h0 : 0 < n) (s : Index.Spline ℝ (List ℝ)) (kvs : List (List ℝ)) (hk : s.knotVectors = some kvs) (h1 : s.degrees.length = n) (h2 : kvs.length = n) {L : Fin n → ℕ}
    {x : Fin n → ℕ → ℝ} {m : Fin n → ℕ → ℕ} (H : ∀ l : Fin n, Grid1 (s.degrees.getD l 0) (kvs.getD l []) (L l) (x l) (m l))
    (hw : ∀ ws, s.weights = some ws → ∃ w, w ≠ 0 ∧ ws = List.replicate (netSize s).prod w) (hd : ∀ l : Fin n, 2 ≤ s.degrees.getD l 0 * n) (jac : List ℝ → Matrix (Fin n) (Fin n) ℝ)
    (hj : Spec.JacobianOn s n jac) (Ds : List ℕ) (knots : List (List ℝ)) (hD : ∀ l : Fin n, Ds.getD l 0 = s.degrees.getD l 0 * n - 1)
    (hK : ∀ l : Fin n, knots.getD l [] = rep (x l) (detMult (s.degrees.getD l 0) n (L l) (m l)) (L l + 1)) : Tens n Ds knots (fun u => (jac u).det) := by
  set J : ℕ → Fin n → ℕ := fun g l => (digits (List.ofFn fun l : Fin n => nsize s.degrees kvs l) g).getD l 0 with hJ
  set G := (List.ofFn fun l : Fin n => nsize s.degrees kvs l).prod with hG
  have hDG : ∀ l : Fin n, DetGrid (s.degrees.getD l 0) n (L l) (x l) (m l) := fun l => detGrid (H l) (hd l) h0
  have hlow : ∀ l : Fin n, knotSeq (knots.getD l []) (Ds.getD l 0) = x l 0 := by
    intro l
    rw [hK, hD]
    refine rep_knot _ _ (by omega) (by simp [off]) ?_
    rw [off_succ, (hDG l).first]
    omega
  have hupp : ∀ l : Fin n, knotSeq (knots.getD l []) (nsize Ds knots l) = x l (L l) := by
    intro l
    rw [nsize, hK, hD, rep_length, off_succ, (hDG l).last]
    refine rep_knot _ _ (by omega) (by omega) ?_
    rw [off_succ, (hDG l).last]
    omega
  -- one summand of the determinant
  have hone : ∀ (φ : Fin n → ℕ), Tens n Ds knots (fun u => ∏ l : Fin n, ∏ k : Fin n, factor s.degrees kvs L x m l k (J (φ k) l) (u.getD l 0)) := by
    intro φ
    have hpp : ∀ l : Fin n, PP (L l) (x l) (s.degrees.getD l 0 * n - 1) (fun i => s.degrees.getD l 0 - m l i) (fun y => ∏ k : Fin n, factor s.degrees kvs L x m l k (J (φ k) l) y) := by
      intro l
      have := PP.prod (L := L l) (x := x l) (r := fun i => s.degrees.getD l 0 - m l i) univ (fun k : Fin n => s.degrees.getD l 0 - if l = k then 1 else 0)
        (fun k y => factor s.degrees kvs L x m l k (J (φ k) l) y) (fun k _ => by
          by_cases hlk : l = k
          · simp only [factor, if_pos hlk]
            exact pp_dbasis (H l).lt (H l).one (H l).first _
          · simp only [factor, if_neg hlk, Nat.sub_zero]
            have hb := pp_basis (H l).lt (H l).one (H l).first (H l).last (J (φ k) l)
            rw [← (H l).eq] at hb
            exact hb.weaken fun i _ => by omega)
      have hsum : ∑ k : Fin n, (s.degrees.getD l 0 - if l = k then 1 else 0) = s.degrees.getD l 0 * n - 1 := by
        have hp : 1 ≤ s.degrees.getD l 0 := by
          by_contra hc
          have hz : s.degrees.getD l 0 = 0 := by omega
          have := hd l
          rw [hz] at this
          omega
        have : ∑ k : Fin n, (s.degrees.getD l 0 - if l = k then 1 else 0) + ∑ k : Fin n, (if l = k then 1 else 0) = s.degrees.getD l 0 * n := by
          rw [← Finset.sum_add_distrib, Finset.sum_congr rfl (g := fun _ => s.degrees.getD l 0) fun k _ => by split <;> omega]
          simp [mul_comm]
        simp only [Finset.sum_ite_eq, mem_univ, if_true] at this
        omega
      rwa [hsum] at this
    have hcomb : ∀ l : Fin n, ∃ a : ℕ → ℝ, ∀ y, x l 0 ≤ y → y ≤ x l (L l) → ∏ k : Fin n, factor s.degrees kvs L x m l k (J (φ k) l) y = ∑ j ∈ range (nsize Ds knots l), nb Ds knots l j y * a j := by
      intro l
      obtain ⟨c, hc⟩ := PP.combination (H l).pos (H l).lt (hDG l).one (hDG l).first (hDG l).last (fun i hi => (hDG l).order (i + 1) (by omega) hi) (hpp l)
      refine ⟨c, fun y g1 g2 => ?_⟩
      rw [hc y g1 g2]
      simp only [nsize, nb, hK, hD]
    choose a ha using hcomb
    refine Tens.prod (fun l y => ∏ k : Fin n, factor s.degrees kvs L x m l k (J (φ k) l) y) a fun l y g1 g2 => ?_
    rw [hlow] at g1
    rw [hupp] at g2
    exact ha l y g1 g2
  have hall : Tens n Ds knots (fun u => ∑ σ : Equiv.Perm (Fin n), ∑ φ ∈ Fintype.piFinset fun _ : Fin n => range G,
      (((Equiv.Perm.sign σ : ℤ) : ℝ) * ∏ k : Fin n, coef s (φ k) (σ k)) * ∏ l : Fin n, ∏ k : Fin n, factor s.degrees kvs L x m l k (J (φ k) l) (u.getD l 0)) :=
    Tens.sum _ _ fun σ _ => Tens.sum _ _ fun φ _ => Tens.smul _ (hone φ)
  obtain ⟨c, hc⟩ := hall
  refine ⟨c, fun u hu hin => ?_⟩
  rw [← hc u hu hin]
  have hdom : InDomain s u := by
    rw [inDomain_grid s kvs hk h1 h2 H]
    refine ⟨hu, fun l => ?_⟩
    have := hin l
    rwa [hlow, hupp] at this
  simp only
  rw [Matrix.det_apply']
  refine Finset.sum_congr rfl fun σ _ => ?_
  have e : ∏ k : Fin n, jac u (σ k) k = ∏ k : Fin n, ∑ g ∈ range G, coef s g (σ k) * ∏ l : Fin n, factor s.degrees kvs L x m l k (J g l) (u.getD l 0) :=
    Finset.prod_congr rfl fun k _ => jac_entry s kvs hk h1 h2 H hw jac hj u hdom (σ k) k
  rw [e, Finset.prod_univ_sum, Finset.mul_sum]
  refine Finset.sum_congr rfl fun φ _ => ?_
  rw [Finset.prod_mul_distrib, Finset.prod_comm, mul_assoc]

/-! ### interpolation -/

theorem interpolate_tens {n : ℕ} (h0 : 0 < n) (Ds : List ℕ) (knots nodes : List (List ℝ)) (h1 : Ds.length = n) (h2 : knots.length = n) (h3 : nodes.length = n) (F : List ℝ → ℝ)
    (hF : Tens n Ds knots F) (hlen : ∀ l : Fin n, (nodes.getD l []).length = nsize Ds knots l)
    (hdet : ∀ l : Fin n, Determined (fun y j => nb Ds knots l j y) (nsize Ds knots l) (nodes.getD l []))
    (hin : ∀ l : Fin n, ∀ y ∈ nodes.getD l [], knotSeq (knots.getD l []) (Ds.getD l 0) ≤ y ∧ y ≤ knotSeq (knots.getD l []) (nsize Ds knots l))
    (solve : List (List ℝ) → List ℝ → Option (List ℝ)) (hs : Spec.Solver solve) :
    ∃ c : List ℝ, interpolate F solve ⟨Ds, some knots, none, []⟩ nodes = some ⟨Ds, some knots, none, c.map fun y => [y]⟩ ∧
      c.length = (netSize (⟨Ds, some knots, none, []⟩ : Index.Spline ℝ (List ℝ))).prod ∧
      ∀ u, InDomain (⟨Ds, some knots, none, []⟩ : Index.Spline ℝ (List ℝ)) u → tensorEval (basisValues (⟨Ds, some knots, none, []⟩ : Index.Spline ℝ (List ℝ)) u)
        (netSize (⟨Ds, some knots, none, []⟩ : Index.Spline ℝ (List ℝ))) c = F u := by
  set S : Index.Spline ℝ (List ℝ) := ⟨Ds, some knots, none, []⟩ with hS
  have hnet : netSize S = List.ofFn fun l : Fin n => nsize Ds knots l := netSize_ofFn S knots rfl h1 h2
  have hne : nodes ≠ [] := by
    rintro rfl
    simp at h3
    omega
  unfold interpolate
  rw [Integrate.rows_eq _ hne, Option.bind_some]
  generalize hQ : firstFastest nodes = Q
  have hQlen : Q.length = (netSize S).prod := by
    rw [← hQ, firstFastest_length, hnet]
    congr 1
    apply List.ext_getElem
    · simp [h3]
    · intro i g1 g2
      have hi : i < n := by simpa using g2
      have := hlen ⟨i, hi⟩
      rw [List.getD_eq_getElem nodes _ (by omega)] at this
      simpa using this
  have hQin : ∀ q ∈ Q, InDomain S q := by
    intro q hq
    rw [← hQ, mem_firstFastest] at hq
    have hl := hq.length_eq
    rw [inDomain_iff S knots rfl h1 h2]
    refine ⟨by omega, fun l => ?_⟩
    refine hin l _ ?_
    have := (List.forall₂_iff_get.1 hq).2 l (by omega) (by omega)
    rw [List.getD_eq_getElem q 0 (by omega), List.getD_eq_getElem nodes [] (by omega)]
    simpa using this
  have hrow : ∀ r < Q.length, ∀ j < Q.length, ((Q.map (matrixRow S)).getD r []).getD j 0 = basisProduct (basisValues S (Q.getD r [])) (digits (netSize S) j) := by
    intro r hr j hj
    rw [List.getD_eq_getElem (Q.map _) [] (by simpa using hr), List.getElem_map, matrixRow, getD_map_range _ _ _ (by omega), List.getD_eq_getElem Q [] hr]
  have hall : ∀ c : ℕ → ℝ, (∀ q ∈ Q, ∑ g ∈ range (netSize S).prod, basisProduct (basisValues S q) (digits (netSize S) g) * c g = 0) → ∀ g < (netSize S).prod, c g = 0 := by
    intro c hc
    rw [hnet]
    refine tensor_determined (List.ofFn fun l : Fin n => fun y j => nb Ds knots l j y) (List.ofFn fun l : Fin n => nsize Ds knots l) nodes (by simp) (by simp [h3]) ?_ c ?_
    · intro i g1 g2 g3
      have hi : i < n := by simpa using g1
      have := hdet ⟨i, hi⟩
      rw [List.getD_eq_getElem nodes _ g3] at this
      simpa using this
    · intro q hq
      rw [hQ] at hq
      have hql := ((inDomain_iff S knots rfl h1 h2 q).1 (hQin q hq)).1
      have e := hc q hq
      rw [hnet] at e
      refine Eq.trans (Finset.sum_congr rfl fun g _ => ?_) e
      congr 2
      rw [basisValues_ofFn S knots rfl h1 h2 q hql]
      apply List.ext_getElem
      · simp [hql]
      · intro i g1 g2
        have hi : i < n := by simpa using g2
        funext j
        simp only [List.getElem_zipWith, List.getElem_ofFn]
        rw [List.getD_eq_getElem q 0 (by omega)]
  have huniq := exists_unique_solution (Q.map (matrixRow S)) (Q.map F) (by
    intro c hc
    rw [List.length_map] at hc ⊢
    rw [hQlen]
    refine hall c fun q hq => ?_
    obtain ⟨r, hr, rfl⟩ := List.getElem_of_mem hq
    have := hc r hr
    rw [hQlen] at this
    refine Eq.trans (Finset.sum_congr rfl fun j hj => ?_) this
    rw [hrow r hr j (by rw [hQlen]; exact mem_range.1 hj), List.getD_eq_getElem Q [] hr])
  obtain ⟨c, hc, hsol⟩ := hs _ _ (by
    intro row hrow
    obtain ⟨q, -, rfl⟩ := List.mem_map.1 hrow
    simp only [matrixRow, List.length_map, List.length_range]
    omega) (by simp) huniq
  have hclen : c.length = (netSize S).prod := by rw [hsol.1, List.length_map, hQlen]
  refine ⟨c, by rw [hc]; rfl, hclen, fun u hu => ?_⟩
  -- the coefficients of `F`
  obtain ⟨c', hc'⟩ := hF
  have hform : ∀ q, InDomain S q → F q = ∑ g ∈ range (netSize S).prod, basisProduct (basisValues S q) (digits (netSize S) g) * c' g := by
    intro q hq
    obtain ⟨g1, g2⟩ := (inDomain_iff S knots rfl h1 h2 q).1 hq
    rw [hc' q g1 g2, hnet]
    refine Finset.sum_congr rfl fun g _ => ?_
    rw [basisValues_ofFn S knots rfl h1 h2 q g1, basisProduct_ofFn _ _ (by rw [digits_length', List.length_ofFn])]
  have hzero := hall (fun g => c.getD g 0 - c' g) (fun q hq => by
    obtain ⟨r, hr, rfl⟩ := List.getElem_of_mem hq
    have e1 := hsol.2 r (by simpa using hr)
    rw [list_sum_range, hclen, List.getD_eq_getElem (Q.map F) 0 (by simpa using hr), List.getElem_map, hform _ (hQin _ hq)] at e1
    simp only [mul_sub, Finset.sum_sub_distrib]
    rw [sub_eq_zero, ← e1]
    refine Finset.sum_congr rfl fun g hg => ?_
    rw [hrow r hr g (by rw [hQlen]; exact mem_range.1 hg), List.getD_eq_getElem Q [] hr])
  rw [hform u hu, tensorEval_eq_sum]
  refine Finset.sum_congr rfl fun g hg => ?_
  have := hzero g (mem_range.1 hg)
  rw [sub_eq_zero] at this
  rw [this]

/-- C88: for a spline with clamped knot vectors and continuous derivative, non-rational or with equal weights, from and into the same dimension, `determinant_spline` returns a spline on
the same domain whose value is the determinant of the Jacobian of the spline at every parameter of the domain. Distinct knots are assumed to be further apart than the tolerances. -/
theorem determinant_spline_knots_evaluates_partial (eps tol : ℝ) (heps : 0 < eps) (n : ℕ) (s : Index.Spline ℝ (List ℝ)) (kvs : List (List ℝ)) (hn : s.degrees.length = n) (h0 : 0 < n)
    (hk : s.knotVectors = some kvs) (hw : ∀ ws, s.weights = some ws → ∃ w, w ≠ 0 ∧ ws = List.replicate (netSize s).prod w) (hd : ∀ d ∈ s.degrees, 2 ≤ d * n)
    (hkv : List.Forall₂ Spec.Smooth s.degrees kvs) (hsep : ∀ kv ∈ kvs, Unique.Spec.Separated eps kv)
    (htol : List.Forall₂ (fun d kv => Unique.Spec.Separated (((d * n - 1 : ℕ) : ℝ) * tol) kv) s.degrees kvs)
    (jac : List ℝ → Matrix (Fin n) (Fin n) ℝ) (hj : Spec.JacobianOn s n jac) (solve : List (List ℝ) → List ℝ → Option (List ℝ)) (hs : Spec.Solver solve) :
    ∃ d, determinantSpline eps tol n (fun q => (jac q).det) solve s = some d ∧ d.degrees = s.degrees.map (· * n - 1) ∧ d.weights = none ∧
      (∀ a ∈ directions d, a.Valid) ∧ d.controlPoints.length = (netSize d).prod ∧ (∀ p ∈ d.controlPoints, p.length = 1) ∧
      (∀ u, InDomain d u ↔ InDomain s u) ∧ ∀ u, InDomain s u → point d u 0 = (jac u).det := by
  have h2 : kvs.length = n := by rw [← hkv.length_eq, hn]
  have hgrid : ∀ l : Fin n, ∃ L x m, Grid1 (s.degrees.getD l 0) (kvs.getD l []) L x m := by
    intro l
    have := (List.forall₂_iff_get.1 hkv).2 l (by omega) (by omega)
    rw [List.getD_eq_getElem kvs _ (by omega), List.getD_eq_getElem s.degrees _ (by omega)]
    exact Spec.Smooth.grid this
  choose L x m H using hgrid
  have hd' : ∀ l : Fin n, 2 ≤ s.degrees.getD l 0 * n := by
    intro l
    rw [List.getD_eq_getElem s.degrees _ (by omega)]
    exact hd _ (List.getElem_mem _)
  have hDG : ∀ l : Fin n, DetGrid (s.degrees.getD l 0) n (L l) (x l) (m l) := fun l => detGrid (H l) (hd' l) h0
  have hkn : ∀ l : Fin n, determinantKnots eps n (s.degrees.getD l 0) (kvs.getD l []) = some (rep (x l) (detMult (s.degrees.getD l 0) n (L l) (m l)) (L l + 1)) := by
    intro l
    refine determinantKnots_eq (H l) (hd' l) h0 heps (hsep _ ?_)
    rw [List.getD_eq_getElem kvs _ (by omega)]
    exact List.getElem_mem _
  set knots : List (List ℝ) := List.ofFn fun l : Fin n => rep (x l) (detMult (s.degrees.getD l 0) n (L l) (m l)) (L l + 1) with hknots
  have hmap : ((s.degrees.zip kvs).mapM fun a => determinantKnots eps n a.1 a.2) = some knots := by
    rw [Grid.mapM_eq_some_map' _ (fun a => (determinantKnots eps n a.1 a.2).getD []) _ (fun a ha => ?_)]
    · congr 1
      apply List.ext_getElem
      · simp [hknots, hn, h2]
      · intro i g1 g2
        have hi : i < n := by simpa [hknots] using g2
        have := hkn ⟨i, hi⟩
        simp only at this
        rw [List.getD_eq_getElem kvs _ (by omega), List.getD_eq_getElem s.degrees _ (by omega)] at this
        simp only [List.getElem_map, List.getElem_zip, this, Option.getD_some, hknots, List.getElem_ofFn]
        rw [List.getD_eq_getElem s.degrees _ (by omega)]
    · obtain ⟨i, hi, rfl⟩ := List.getElem_of_mem ha
      have hi' : i < n := by simpa [hn, h2] using hi
      have := hkn ⟨i, hi'⟩
      simp only at this
      rw [List.getD_eq_getElem kvs _ (by omega), List.getD_eq_getElem s.degrees _ (by omega)] at this
      simp only [List.getElem_zip, this, Option.getD_some]
  have hK : ∀ l : Fin n, knots.getD l [] = rep (x l) (detMult (s.degrees.getD l 0) n (L l) (m l)) (L l + 1) := by
    intro l
    rw [List.getD_eq_getElem knots _ (by simp [hknots])]
    simp [hknots]
  set Ds := determinantDegrees n s.degrees with hDs
  have hD : ∀ l : Fin n, Ds.getD l 0 = s.degrees.getD l 0 * n - 1 := by
    intro l
    rw [List.getD_eq_getElem s.degrees _ (by omega), List.getD_eq_getElem Ds _ (by simp [hDs, determinantDegrees]; omega)]
    simp [hDs, determinantDegrees]
  have hDl : Ds.length = n := by simp [hDs, determinantDegrees, hn]
  have hKl : knots.length = n := by simp [hknots]
  have htens := det_tens h0 s kvs hk hn h2 H hw hd' jac hj Ds knots hD hK
  have hdt : ∀ l : Fin n, _ := fun l => det_determined (D := s.degrees.getD l 0 * n - 1) (tol := tol) (by have := hd' l; omega) (H l).pos (H l).lt (hDG l).one (hDG l).first (hDG l).last (hDG l).inner
    (fun i hi => by
      have e := (List.forall₂_iff_get.1 htol).2 l (by omega) (by omega)
      simp only [List.get_eq_getElem] at e
      have hlt := (H l).lt i hi
      have hmem : ∀ i ≤ L l, x l i ∈ kvs[(l : ℕ)]'(by omega) := by
        intro i hi
        have := (H l).eq
        rw [List.getD_eq_getElem kvs _ (by omega)] at this
        rw [this, mem_rep_iff (H l).one]
        exact ⟨i, hi, rfl⟩
      have := e (x l (i + 1)) (hmem _ (by omega)) (x l i) (hmem _ (by omega)) hlt.ne'
      rw [abs_of_pos (by linarith)] at this
      rw [List.getD_eq_getElem s.degrees _ (by omega)]
      exact this)
  have hlow : ∀ l : Fin n, knotSeq (knots.getD l []) (Ds.getD l 0) = x l 0 := by
    intro l
    rw [hK, hD]
    refine rep_knot _ _ (by omega) (by simp [off]) ?_
    rw [off_succ, (hDG l).first]
    omega
  have hupp : ∀ l : Fin n, knotSeq (knots.getD l []) (nsize Ds knots l) = x l (L l) := by
    intro l
    rw [nsize, hK, hD, rep_length, off_succ, (hDG l).last]
    refine rep_knot _ _ (by omega) (by omega) ?_
    rw [off_succ, (hDG l).last]
    omega
  have hnodes : ∀ l : Fin n, (List.zipWith (fun d kv => Greville.greville kv d tol) Ds knots).getD l [] = Greville.greville (knots.getD l []) (Ds.getD l 0) tol := by
    intro l
    rw [List.getD_eq_getElem _ _ (by simp [hDl, hKl]), List.getElem_zipWith, List.getD_eq_getElem knots _ (by omega), List.getD_eq_getElem Ds _ (by omega)]
  obtain ⟨c, hc, hclen, hval⟩ := interpolate_tens h0 Ds knots (List.zipWith (fun d kv => Greville.greville kv d tol) Ds knots) hDl hKl (by simp [hDl, hKl]) (fun q => (jac q).det) htens
    (fun l => by rw [hnodes, (Greville.greville_sorted _ _ _ (by rw [hK, hD]; exact (hdt l).1)).1]; rfl)
    (fun l => by
      rw [hnodes]
      unfold nb nsize
      rw [hK, hD]
      exact (hdt l).2.2)
    (fun l y hy => by
      rw [hnodes] at hy
      have := (Greville.greville_bounds _ _ tol (by rw [hK, hD]; exact (hdt l).1) (by rw [hK, hD]; exact (hdt l).2.1)).2.2 y hy
      have hsz := (hdt l).1.size
      rw [← hK, ← hD] at hsz
      rw [← Greville.getD_knotSeq (by omega), ← Greville.getD_knotSeq (by unfold nsize; omega)]
      exact this)
    solve hs
  have hdom : ∀ cs, ∀ u, InDomain (⟨Ds, some knots, none, cs⟩ : Index.Spline ℝ (List ℝ)) u ↔ InDomain s u := by
    intro cs u
    rw [inDomain_iff ⟨Ds, some knots, none, cs⟩ knots rfl hDl hKl, inDomain_grid s kvs hk hn h2 H]
    refine and_congr_right fun _ => forall_congr' fun l => ?_
    simp only
    rw [hlow, hupp]
  refine ⟨⟨Ds, some knots, none, c.map fun y => [y]⟩, ?_, rfl, rfl, ?_, ?_, ?_, hdom _, ?_⟩
  · unfold determinantSpline
    rw [if_neg (by simp [hn])]
    simp only
    rw [if_neg, hk]
    · simp only
      rw [hmap, Option.bind_some]
      exact hc
    · simp only [List.any_eq_true, beq_iff_eq, not_exists, not_and]
      intro d h
      obtain ⟨e, he, rfl⟩ := List.mem_map.1 h
      have := hd e he
      omega
  · refine directions_valid ⟨Ds, some knots, none, c.map fun y => [y]⟩ knots rfl hDl hKl fun l => ?_
    simp only
    rw [hK, hD]
    exact Grid1.valid (H l).pos (H l).lt (hDG l).first (hDG l).last rfl
  · simp only [List.length_map]
    exact hclen
  · intro p hp
    obtain ⟨y, -, rfl⟩ := List.mem_map.1 hp
    rfl
  · intro u hu
    have := hval u ((hdom _ u).2 hu)
    rw [← this]
    unfold point value
    simp only
    rw [show netSize (⟨Ds, some knots, none, c.map fun y => [y]⟩ : Index.Spline ℝ (List ℝ)) = netSize ⟨Ds, some knots, none, []⟩ from rfl,
      show basisValues (⟨Ds, some knots, none, c.map fun y => [y]⟩ : Index.Spline ℝ (List ℝ)) u = basisValues ⟨Ds, some knots, none, []⟩ u from rfl]
    congr 1
    apply List.ext_getElem
    · simp [hclen]
    · intro i g1 g2
      simp only [List.getElem_map, List.getElem_range]
      rw [List.getD_eq_getElem _ [] (by simpa using g2), List.getElem_map]
      rfl

/-- C88: the documented use, "dmin > 0 --> spline is not tangled", for splines with knot vectors: when all control points of the determinant spline are positive, the Jacobian has a
positive determinant everywhere in the parametric domain. -/
theorem determinant_spline_knots_positive_partial (eps tol : ℝ) (heps : 0 < eps) (n : ℕ) (s d : Index.Spline ℝ (List ℝ)) (kvs : List (List ℝ)) (hn : s.degrees.length = n) (h0 : 0 < n)
    (hk : s.knotVectors = some kvs) (hw : ∀ ws, s.weights = some ws → ∃ w, w ≠ 0 ∧ ws = List.replicate (netSize s).prod w) (hd : ∀ d ∈ s.degrees, 2 ≤ d * n)
    (hkv : List.Forall₂ Spec.Smooth s.degrees kvs) (hsep : ∀ kv ∈ kvs, Unique.Spec.Separated eps kv)
    (htol : List.Forall₂ (fun d kv => Unique.Spec.Separated (((d * n - 1 : ℕ) : ℝ) * tol) kv) s.degrees kvs)
    (jac : List ℝ → Matrix (Fin n) (Fin n) ℝ) (hj : Spec.JacobianOn s n jac) (solve : List (List ℝ) → List ℝ → Option (List ℝ)) (hs : Spec.Solver solve)
    (he : determinantSpline eps tol n (fun q => (jac q).det) solve s = some d) (hpos : ∀ p ∈ d.controlPoints, ∀ x ∈ p, 0 < x) (u : List ℝ) (hu : InDomain s u) : 0 < (jac u).det := by
  obtain ⟨d', he', -, hwt, hvalid, hlen, hone, hdom, hval⟩ :=
    determinant_spline_knots_evaluates_partial eps tol heps n s kvs hn h0 hk hw hd hkv hsep htol jac hj solve hs
  obtain rfl : d = d' := Option.some.inj (he.symm.trans he')
  rw [← hval u hu]
  have hu' := (hdom u).2 hu
  have hnn := basisValues_nonneg hvalid hu'
  have hsum := basisValues_sum hvalid hu'
  unfold point value
  rw [hwt]
  simp only
  rw [tensorEval_eq_sum]
  have hposg : ∀ g ∈ range (netSize d).prod, 0 < ((List.range (netSize d).prod).map fun i => (d.controlPoints.getD i []).getD 0 0).getD g 0 := by
    intro g hg
    have hg' := mem_range.1 hg
    rw [getD_map_range _ _ _ hg', List.getD_eq_getElem d.controlPoints [] (by omega)]
    have h1 := hone _ (List.getElem_mem (l := d.controlPoints) (n := g) (by omega))
    rw [List.getD_eq_getElem _ 0 (by omega)]
    exact hpos _ (List.getElem_mem (by omega)) _ (List.getElem_mem _)
  refine lt_of_le_of_ne (Finset.sum_nonneg fun g hg => mul_nonneg (basisProduct_nonneg _ _ hnn) (hposg g hg).le) fun e => ?_
  have hz := (Finset.sum_eq_zero_iff_of_nonneg fun g hg => mul_nonneg (basisProduct_nonneg _ _ hnn) (hposg g hg).le).1 e.symm
  have : ∑ g ∈ range (netSize d).prod, basisProduct (basisValues d u) (digits (netSize d) g) = 0 :=
    Finset.sum_eq_zero fun g hg => (mul_eq_zero.1 (hz g hg)).resolve_right (hposg g hg).ne'
  rw [hsum] at this
  exact one_ne_zero this

/-- a biquadratic patch in the plane with the inner knot 1/2 in the first direction -/
noncomputable def exampleKnots : List (List ℝ) := [[0, 0, 0, 1 / 2, 1, 1, 1], [0, 0, 0, 1, 1, 1]]

/-- control points of the patch -/
noncomputable def exampleKnotsPatch : Index.Spline ℝ (List ℝ) :=
  ⟨[2, 2], some exampleKnots, none, [[0, 0], [1, 1], [2, 0], [3, 0], [0, 2], [1, 3], [2, 2], [3, 2], [0, 4], [1, 5], [2, 5], [3, 4]]⟩

theorem exampleKnots_smooth : List.Forall₂ Spec.Smooth [2, 2] exampleKnots := by
  refine List.Forall₂.cons ⟨?_, ?_, ?_, ?_, ?_⟩ (List.Forall₂.cons ⟨?_, ?_, ?_, ?_, ?_⟩ List.Forall₂.nil) <;> norm_num [List.count_cons]

theorem exampleKnots_separated : ∀ kv ∈ exampleKnots, Unique.Spec.Separated (1 / 10) kv := by
  intro kv hkv
  simp only [exampleKnots, List.mem_cons, List.not_mem_nil, or_false] at hkv
  rcases hkv with rfl | rfl <;>
  · intro a ha b hb hab
    simp only [List.mem_cons, List.not_mem_nil, or_false] at ha hb
    rcases ha with rfl | rfl | rfl | rfl | rfl | rfl | rfl <;> rcases hb with rfl | rfl | rfl | rfl | rfl | rfl | rfl <;> first | exact absurd rfl hab | norm_num [abs_of_pos, abs_of_neg]

example : ∃ jac solve d, Spec.JacobianOn exampleKnotsPatch 2 jac ∧ Spec.Solver solve ∧
    determinantSpline (1 / 10) (1 / 30) 2 (fun q => (jac q).det) solve exampleKnotsPatch = some d ∧ d.degrees = [3, 3] ∧ ∀ u, InDomain exampleKnotsPatch u → point d u 0 = (jac u).det := by
  obtain ⟨jac, hj⟩ := jacobianOn_exists exampleKnotsPatch exampleKnots rfl (n := 2) rfl (by intro ws h; cases h) exampleKnots_smooth
  obtain ⟨solve, hs⟩ := solver_exists
  obtain ⟨d, h1, h2, -, -, -, -, -, h3⟩ := determinant_spline_knots_evaluates_partial (1 / 10) (1 / 30) (by norm_num) 2 exampleKnotsPatch exampleKnots rfl (by decide) rfl
    (by intro ws h; cases h) (by decide) exampleKnots_smooth exampleKnots_separated
    (by
      have h := exampleKnots_separated
      have e : (((2 * 2 - 1 : ℕ) : ℝ) * (1 / 30)) = 1 / 10 := by norm_num
      refine List.Forall₂.cons ?_ (List.Forall₂.cons ?_ List.Forall₂.nil)
      · rw [e]
        exact h _ (by simp [exampleKnots])
      · rw [e]
        exact h _ (by simp [exampleKnots])) jac hj solve hs
  exact ⟨jac, solve, d, hj, hs, h1, h2, h3⟩

end Splinepy.DetSpline
