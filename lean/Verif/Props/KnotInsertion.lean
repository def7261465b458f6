import Verif.Lemma.KnotInsertion
import Mathlib.Algebra.Order.Ring.Rat
import Mathlib.Algebra.Field.Rat

/-!
Properties of the knot insertion matrix (C01, C02): it exists, has the right shape, does not change the curve, and its rows are convex
combinations of neighbouring control points.
-/
namespace Splinepy.KnotInsertion
open Splinepy.Blossom Splinepy.Spec
set_option linter.unusedSectionVars false

variable {K : Type} [Field K] [LinearOrder K] [IsStrictOrderedRing K] {p : ℕ} {old ins new : List K} {tol : K}

theorem list_sum_range (m : ℕ) (f : ℕ → K) : ((List.range m).map f).sum = ∑ j ∈ Finset.range m, f j := by
  induction m with
  | zero => rfl
  | succ m ih => rw [List.range_succ, List.map_append, List.sum_append, ih, Finset.sum_range_succ]; simp

theorem mulVec_map (n m : ℕ) (f : ℕ → ℕ → K) (c : ℕ → K) (i : ℕ) (hi : i < n) :
    mulVec ((List.range n).map (fun i => (List.range m).map (f i))) c i = ∑ j ∈ Finset.range m, f i j * c j := by
  unfold mulVec
  rw [List.getD_eq_getElem?_getD, List.getElem?_map, List.getElem?_range hi]
  simp only [Option.map_some, Option.getD_some]
  have : ((List.range m).map (f i)).mapIdx (fun j a => a * c j) = (List.range m).map (fun j => f i j * c j) := by
    apply List.ext_getElem <;> simp
  rw [this, list_sum_range]

theorem getD_map (n m : ℕ) (f : ℕ → ℕ → K) (i j : ℕ) (hi : i < n) (hj : j < m) :
    (((List.range n).map (fun i => (List.range m).map (f i))).getD i []).getD j 0 = f i j := by
  have h1 : ((List.range n).map (fun i => (List.range m).map (f i))).getD i [] = (List.range m).map (f i) := by
    rw [List.getD_eq_getElem?_getD, List.getElem?_map, List.getElem?_range hi]; rfl
  rw [h1, List.getD_eq_getElem?_getD, List.getElem?_map, List.getElem?_range hj]
  rfl

/-- every parameter of the domain lies in a span of the refined knot vector, which lies in a span of the old one -/
theorem exists_span (H : Insertion p old ins new tol) {sp ι : ℕ → ℕ} (hι : ∀ j < old.length, ι j < new.length)
    (hR : Refines (knotSeq old) (knotSeq new) ι sp (new.length - p - 2)) {x : K} (h1 : knotSeq old p ≤ x)
    (h2 : x < knotSeq old (old.length - p - 1)) :
    ∃ ν, p ≤ ν ∧ ν < new.length - p - 1 ∧ (knotSeq new ν ≤ x ∧ x < knotSeq new (ν + 1)) ∧
      (knotSeq old (sp ν) ≤ x ∧ x < knotSeq old (sp ν + 1)) := by
  have hn := Ins.newLength H
  have hl := H.length
  have hp : knotSeq new p ≤ x := by
    have h3 := hR.mono_s (hR.emb.id_le p)
    simp only [id_eq, hR.eq] at h3
    exact le_trans h3 h1
  have hι' : ∀ k ≤ p, ι (old.length - p - 1 + k) ≤ new.length - p - 1 + k := by
    intro k hk
    have h4 : ∀ q, ∀ k, k + q = p → ι (old.length - p - 1 + k) ≤ new.length - p - 1 + k := by
      intro q
      induction q with
      | zero =>
        intro k hk
        have := hι (old.length - p - 1 + k) (by omega)
        omega
      | succ q ih =>
        intro k hk
        have h5 := ih (k + 1) (by omega)
        have h6 := hR.emb (show old.length - p - 1 + k < old.length - p - 1 + (k + 1) by omega)
        omega
    exact h4 (p - k) k (by omega)
  have hend : x < knotSeq new (new.length - p - 1) := by
    have h3 := hR.mono_s (hι' 0 (by omega))
    simp only [add_zero, hR.eq] at h3
    exact lt_of_lt_of_le h2 h3
  classical
  set ν := Nat.findGreatest (fun k => knotSeq new k ≤ x) (new.length - p - 2) with hν
  have hν1 : knotSeq new ν ≤ x := Nat.findGreatest_spec (P := fun k => knotSeq new k ≤ x) (show p ≤ new.length - p - 2 by omega) hp
  have hν2 : p ≤ ν := Nat.le_findGreatest (by omega) hp
  have hν3 : ν ≤ new.length - p - 2 := Nat.findGreatest_le _
  have hν4 : x < knotSeq new (ν + 1) := by
    rcases Nat.eq_or_lt_of_le hν3 with h | h
    · rw [h, show new.length - p - 2 + 1 = new.length - p - 1 by omega]; exact hend
    · exact not_le.1 (Nat.findGreatest_is_greatest (P := fun k => knotSeq new k ≤ x) (Nat.lt_succ_self ν) h)
  refine ⟨ν, hν2, by omega, ⟨hν1, hν4⟩, le_trans (hR.span ν hν3).1 hν1, ?_⟩
  have h5 := (hR.span ν hν3).2
  rw [← hR.eq] at h5
  have h6 : ν < ι (sp ν + 1) := by
    by_contra hc
    exact absurd (lt_of_lt_of_le h5 (hR.mono_s (show ι (sp ν + 1) ≤ ν by omega))) (lt_irrefl _)
  have h7 := hR.mono_s (show ν + 1 ≤ ι (sp ν + 1) by omega)
  rw [hR.eq] at h7
  exact lt_of_lt_of_le hν4 h7

/-- the old basis functions are combinations of the refined ones, with the columns of the matrix as coefficients -/
theorem basis_refined (H : Insertion p old ins new tol) :
    ∃ rows base, insertionMatrix old new p tol = some (rows, base) ∧
      ∀ x, knotSeq old p ≤ x → x < knotSeq old (old.length - p - 1) → ∀ j < old.length - p - 1,
        basis (knotSeq old) p j x =
          ∑ i ∈ Finset.range (new.length - p - 1), (rows.getD i []).getD j 0 * basis (knotSeq new) p i x := by
  obtain ⟨base, sp, ι, he, hb, hι, hlen, hR⟩ := insertionMatrix_spec H
  refine ⟨_, base, he, ?_⟩
  intro x h1 h2 j hj
  obtain ⟨ν, hν1, hν2, hν3, hν4⟩ := exists_span H hι hR h1 h2
  have hR' : Refines (knotSeq old) (knotSeq new) ι sp ν :=
    ⟨hR.mono_t, hR.mono_s, hR.emb, hR.eq, fun i hi => hR.span i (by omega)⟩
  rw [basis_eq_bl hR.mono_t hν4, oslo hR' (lt_of_le_of_lt hν3.1 hν3.2) x p hν1 j]
  have hsub : Finset.range (ν + 1) ⊆ Finset.range (new.length - p - 1) := Finset.range_subset_range.2 (by omega)
  rw [Finset.sum_subset hsub]
  · apply Finset.sum_congr rfl
    intro i hi
    rw [Finset.mem_range] at hi
    rw [getD_map _ _ _ _ _ hi hj, basis_eq_bl hR.mono_s hν3]
  · intro i _ hi
    rw [Finset.mem_range] at hi
    have : bl (knotSeq new) ν (fun _ => x) p i = 0 := by
      by_contra hc; have := supp_bl (knotSeq new) ν (fun _ => x) p i hc; omega
    rw [this, mul_zero]

/-- **C01.** Knot insertion does not change the curve: for every control vector `c` and every parameter `x` of the domain, the curve over the
old knots with coefficients `c` and the curve over the refined knots with coefficients `matrix * c` agree. -/
theorem knot_insertion_preserves_curve (H : Insertion p old ins new tol) :
    ∃ rows base, insertionMatrix old new p tol = some (rows, base) ∧
      ∀ (c : ℕ → K) (x : K), knotSeq old p ≤ x → x < knotSeq old (old.length - p - 1) →
        curve (knotSeq old) p (old.length - p - 1) c x = curve (knotSeq new) p (new.length - p - 1) (mulVec rows c) x := by
  obtain ⟨base, sp, ι, he, hb, hι, hlen, hR⟩ := insertionMatrix_spec H
  refine ⟨_, base, he, ?_⟩
  intro c x h1 h2
  obtain ⟨ν, hν1, hν2, hν3, hν4⟩ := exists_span H hι hR h1 h2
  have hR' : Refines (knotSeq old) (knotSeq new) ι sp ν :=
    ⟨hR.mono_t, hR.mono_s, hR.emb, hR.eq, fun i hi => hR.span i (by omega)⟩
  rw [curve_eq hR' hν3 hν4 p (new.length - p - 1) (old.length - p - 1) hν1 hν2 (hb ν hν2).2.2 c]
  unfold curve
  apply Finset.sum_congr rfl
  intro i hi
  rw [Finset.mem_range] at hi
  rw [mulVec_map _ _ _ _ _ hi]

/-- **C01**, right end of the domain: a spline that is clamped at its end takes the value of its last control point there, and the last
control point does not change. -/
theorem knot_insertion_preserves_end (H : Insertion p old ins new tol)
    (hend : knotSeq old (old.length - p - 1) = knotSeq old (old.length - 1)) :
    ∃ rows base, insertionMatrix old new p tol = some (rows, base) ∧
      ∀ c : ℕ → K, mulVec rows c (new.length - p - 2) = c (old.length - p - 2) := by
  obtain ⟨base, sp, ι, he, hb, hι, hlen, hR⟩ := insertionMatrix_spec H
  refine ⟨_, base, he, ?_⟩
  intro c
  have hn := Ins.newLength H
  have hl := H.length
  rw [mulVec_map _ _ _ _ _ (by omega)]
  have hι' : ∀ k ≤ p + 1, ι (old.length - p - 2 + k) ≤ new.length - p - 2 + k := by
    intro k hk
    have h4 : ∀ q, ∀ k, k + q = p + 1 → ι (old.length - p - 2 + k) ≤ new.length - p - 2 + k := by
      intro q
      induction q with
      | zero =>
        intro k hk
        have := hι (old.length - p - 2 + k) (by omega)
        omega
      | succ q ih =>
        intro k hk
        have h5 := ih (k + 1) (by omega)
        have h6 := hR.emb (show old.length - p - 2 + k < old.length - p - 2 + (k + 1) by omega)
        omega
    exact h4 (p + 1 - k) k (by omega)
  have hs := hR.span _ le_rfl
  have hsp := hb (new.length - p - 2) (by omega)
  have h7 := hR.mono_s (hι' 0 (by omega))
  simp only [add_zero, hR.eq] at h7
  have hspe : sp (new.length - p - 2) = old.length - p - 2 := by
    by_contra hne
    have h8 := hR.mono_t (show sp (new.length - p - 2) + 1 ≤ old.length - p - 2 by omega)
    exact absurd (lt_of_lt_of_le hs.2 (le_trans h8 h7)) (lt_irrefl _)
  set T := knotSeq old (old.length - p - 1) with hT
  have hTs : ∀ k, knotSeq new (new.length - p - 2 + 1 + k) = T := by
    intro k
    apply le_antisymm
    · have : knotSeq new (new.length - p - 2 + 1 + k) ≤ knotSeq new (new.length - 1 + (new.length - p - 2 + 1 + k)) := hR.mono_s (by omega)
      rw [knotSeq_beyond (show new.length - 1 ≤ new.length - 1 + (new.length - p - 2 + 1 + k) by omega), Ins.last H, ← hend] at this
      exact this
    · have h8 := hR.mono_s (hι' 1 (by omega))
      rw [hR.eq, show old.length - p - 2 + 1 = old.length - p - 1 by omega] at h8
      exact le_trans h8 (hR.mono_s (by omega))
  have hrow : row (knotSeq old) (knotSeq new) sp (new.length - p - 2) p = fun j => if j = old.length - p - 2 then 1 else 0 := by
    unfold row
    rw [bl_congr _ _ _ (fun _ => T) p (fun k _ => hTs k), hspe]
    refine bl_const_left (m := p) H.last_span ?_ p le_rfl
    intro k hk1 hk2
    apply le_antisymm
    · rw [← hT, hend]; exact hR.mono_t (by omega)
    · exact hR.mono_t (by omega)
  rw [hrow, Finset.sum_eq_single (old.length - p - 2)]
  · simp
  · intro j _ hj; simp [hj]
  · intro h; rw [Finset.mem_range] at h; omega

/-- **C02.** The matrix has one row per refined and one column per old basis function, entries are not negative, every row sums up to one,
and the entries of row `i` outside of `degree + 1` consecutive existing columns vanish. -/
theorem knot_insertion_rows_convex (H : Insertion p old ins new tol) :
    ∃ rows base, insertionMatrix old new p tol = some (rows, base) ∧ rows.length = new.length - p - 1 ∧
      ∀ r ∈ rows, r.length = old.length - p - 1 ∧ (∀ a ∈ r, 0 ≤ a) ∧ r.sum = 1 ∧
        ∃ first, first + p < old.length - p - 1 ∧ ∀ j (hj : j < r.length), r[j] ≠ 0 → first ≤ j ∧ j ≤ first + p := by
  obtain ⟨base, sp, ι, he, hb, hι, hlen, hR⟩ := insertionMatrix_spec H
  refine ⟨_, base, he, by simp, ?_⟩
  intro r hr
  rw [List.mem_map] at hr
  obtain ⟨i, hi, rfl⟩ := hr
  rw [List.mem_range] at hi
  obtain ⟨hb1, hb2, hb3⟩ := hb i hi
  refine ⟨by simp, ?_, ?_, sp i - p, by omega, ?_⟩
  · intro a ha
    rw [List.mem_map] at ha
    obtain ⟨j, _, rfl⟩ := ha
    exact row_nonneg hR i (by omega) p j
  · rw [list_sum_range]
    have hs := hR.span i (by omega)
    have h1 := bl_sum hR.mono_t (lt_of_le_of_lt hs.1 hs.2) (fun k => knotSeq new (i + 1 + k)) p hb2
    rw [← Finset.sum_subset (s₁ := Finset.range (sp i + 1)) (Finset.range_subset_range.2 (by omega))]
    · exact h1
    · intro j _ hj
      rw [Finset.mem_range] at hj
      by_contra hc
      have := supp_bl (knotSeq old) (sp i) _ p j hc
      omega
  · intro j hj hne
    simp only [List.getElem_map, List.getElem_range] at hne
    have := supp_bl (knotSeq old) (sp i) _ p j hne
    omega

/-- A quadratic spline with an inner knot, three knots are inserted, one of them twice and one of them already present. -/
example : Insertion 2 [0, 0, 0, 1, 2, 2, (2 : ℚ)] [1, 1 / 2, 1 / 2] [0, 0, 0, 1 / 2, 1 / 2, 1, 1, 2, 2, 2] (1 / 1000) where
  degree := by decide
  sorted_old := by decide +kernel
  sorted_new := by decide +kernel
  union := by decide +kernel
  length := by decide
  clamped := by decide +kernel
  last_span := by decide +kernel
  inside := by decide +kernel
  tol_pos := by decide +kernel
  separated := by decide +kernel

/-- Degree 0 is accepted by the function but the result is wrong: the rows of the refined constants are mixed.  The code relies on
`following_n_equal_knots`, which is never filled. -/
theorem degree_zero_violates :
    insertionMatrix [0, 1, (2 : ℚ)] [0, 1 / 2, 1, 2] 0 (1 / 1000) = none ∧
    insertionMatrix [0, 1, 2, (3 : ℚ)] [0, 1 / 2, 1, 2, 3] 0 (1 / 1000) = none ∧
    matrixRow [0, 1, (2 : ℚ)] [0, 1 / 2, 1, 2] 0 2 0 0 = some [1 / 2, 1 / 2] := by
  decide +kernel

/-- The hypothesis that the spline is clamped at its start is needed: otherwise the first row starts at a negative column. -/
theorem unclamped_violates : insertionMatrix [0, 1, 2, (3 : ℚ)] [0, 1, 3 / 2, 2, 3] 1 (1 / 1000) = none := by decide +kernel

end Splinepy.KnotInsertion
