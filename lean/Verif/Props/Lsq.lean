import Verif.Model.Lsq
import Verif.Props.NnlsOptimal
import Verif.Props.Slsqp
import Mathlib.Algebra.BigOperators.Field

/-!
# The quadratic subproblem of the fallback search is solved exactly

`ldp`, `lsi` and `lsq` return the optimum if they report success, and the report that the constraints are incompatible is true. Since the current point is inside of the bounds, that
report never occurs in the fallback search of `proximities`.
-/

namespace Splinepy.Lsq

variable {K : Type} [Field K] [LinearOrder K] [IsStrictOrderedRing K]

/-! ## Specification -/

/-- `x` meets the `m` constraints `g x >= h` with `n` unknowns -/
def Spec.Feasible (m n : ℕ) (g : ℕ → ℕ → K) (h x : ℕ → K) : Prop := ∀ j, j < m → h j ≤ ∑ i ∈ Finset.range n, g j i * x i

/-- the square of the norm of the first `n` coordinates -/
def Spec.normSq (n : ℕ) (x : ℕ → K) : K := ∑ i ∈ Finset.range n, x i * x i

/-- `x' L D L' x + 2 g' x`, twice the quadratic model of the objective -/
def Spec.model (l : Slsqp.Factors K) (g x : List K) : K := Slsqp.Spec.quad l x + 2 * (List.zipWith (· * ·) g x).sum

/-! ## Least distance -/

omit [LinearOrder K] [IsStrictOrderedRing K] in
theorem dot_range (m : ℕ) (u v : ℕ → K) : dotFrom 0 m u v = ∑ i ∈ Finset.range m, u i * v i := by
  unfold dotFrom
  rw [Finset.range_eq_Ico]

omit [IsStrictOrderedRing K] in
theorem step_mode (sqrt : K → K) (m n : ℕ) (s : State K) (k : ℕ) (h : (step sqrt m n s).loc = .done k) : s.loc = .done k ∨ k = 1 ∨ k = 3 := by
  unfold step at h
  cases hl : s.loc with
  | outer =>
    rw [hl] at h
    simp only at h
    unfold outer at h
    split_ifs at h
    · simp only [Loc.done.injEq] at h; omega
  | test =>
    rw [hl] at h
    simp only at h
    unfold test at h
    split at h
    · simp only [Loc.done.injEq] at h; omega
    · simp only at h
      split_ifs at h
      simp [add] at h
  | solve =>
    rw [hl] at h
    simp only at h
    unfold solve at h
    simp only at h
    split_ifs at h
    · simp only [Loc.done.injEq] at h; omega
    · split at h <;> simp at h
  | delete jj =>
    rw [hl] at h
    simp only at h
    unfold delete at h
    simp only at h
    split_ifs at h
    · simp only [Loc.done.injEq] at h; omega
    · split at h <;> simp at h
  | done k' =>
    rw [hl] at h
    left
    exact hl.symm.trans h

omit [IsStrictOrderedRing K] in
/-- the values of `mode` that `nnls` returns -/
theorem nnls_mode (sqrt : K → K) (m n : ℕ) (a : ℕ → ℕ → K) (b : ℕ → K) (mem : State K) (hm : 0 < m) (hn : 0 < n) (k mode : ℕ)
    (h : (nnls sqrt m n a b mem k).loc = .done mode) : mode = 1 ∨ mode = 3 := by
  induction k with
  | zero =>
    unfold nnls initial at h
    rw [if_neg (by omega)] at h
    simp at h
  | succ k ih =>
    unfold nnls at h
    rcases step_mode sqrt m n _ _ h with h | h
    · exact ih h
    · exact h

/-- what `nnls` leaves to `ldp` -/
theorem dual_problem {sqrt : K → K} (hs : Spec.SquareRoot sqrt) (m n : ℕ) (g : ℕ → ℕ → K) (h : ℕ → K) (mem : State K) (k : ℕ)
    (hd : (nnls sqrt (n + 1) m (dualMatrix n g h) (dualRhs n) mem k).loc = .done 1) :
    ∃ u v : ℕ → K, ∃ fac : K, u = (nnls sqrt (n + 1) m (dualMatrix n g h) (dualRhs n) mem k).x ∧ fac = 1 - dotFrom 0 m h u ∧
      v = (fun i => dotFrom 0 m (fun j => g j i) u) ∧ (∀ j, j < m → 0 ≤ u j) ∧ (∀ j, j < m → h j * fac ≤ ∑ i ∈ Finset.range n, g j i * v i) ∧
      (∀ y : ℕ → K, ∑ j ∈ Finset.range m, u j * ∑ i ∈ Finset.range n, g j i * y i = ∑ i ∈ Finset.range n, v i * y i) ∧
      ∑ i ∈ Finset.range n, v i * v i = (∑ j ∈ Finset.range m, u j * h j) * fac ∧
      rnorm sqrt (n + 1) (nnls sqrt (n + 1) m (dualMatrix n g h) (dualRhs n) mem k) * rnorm sqrt (n + 1) (nnls sqrt (n + 1) m (dualMatrix n g h) (dualRhs n) mem k) =
        ∑ i ∈ Finset.range n, v i * v i + fac * fac ∧ 0 ≤ rnorm sqrt (n + 1) (nnls sqrt (n + 1) m (dualMatrix n g h) (dualRhs n) mem k) := by
  obtain ⟨o1, o2, o3, _, o5, o6⟩ := nnls_optimal hs (n + 1) m (dualMatrix n g h) (dualRhs n) mem k hd
  generalize nnls sqrt (n + 1) m (dualMatrix n g h) (dualRhs n) mem k = s at *
  refine ⟨s.x, fun i => dotFrom 0 m (fun j => g j i) s.x, 1 - dotFrom 0 m h s.x, rfl, rfl, rfl, o1, ?_⟩
  obtain ⟨u, hu⟩ : ∃ u, u = s.x := ⟨_, rfl⟩
  obtain ⟨v, hv⟩ : ∃ v : ℕ → K, v = fun i => dotFrom 0 m (fun j => g j i) u := ⟨_, rfl⟩
  obtain ⟨fac, hfac⟩ : ∃ fac, fac = 1 - dotFrom 0 m h u := ⟨_, rfl⟩
  rw [← hu] at o1 o2 o3 o6 ⊢
  rw [← hv, ← hfac]
  have img : ∀ i, i < n → Splinepy.Lsq.Spec.image m (dualMatrix n g h) u i = v i := by
    intro i hi
    rw [hv]
    simp only
    rw [dot_range]
    unfold Spec.image dualMatrix
    refine Finset.sum_congr rfl fun j _ => ?_
    rw [if_pos hi, mul_comm]
  have imgn : Spec.image m (dualMatrix n g h) u n = 1 - fac := by
    rw [hfac, sub_sub_cancel, dot_range]
    unfold Spec.image dualMatrix
    refine Finset.sum_congr rfl fun j _ => ?_
    rw [if_neg (lt_irrefl _), mul_comm]
  have hdual : ∀ j, Spec.dual (n + 1) m (dualMatrix n g h) (dualRhs n) u j = h j * fac - ∑ i ∈ Finset.range n, g j i * v i := by
    intro j
    unfold Spec.dual
    rw [Finset.sum_range_succ, imgn]
    have e1 : dualMatrix n g h j n = h j := by unfold dualMatrix; rw [if_neg (lt_irrefl _)]
    have e2 : (dualRhs n n : K) = 1 := by unfold dualRhs; rw [if_pos rfl]
    have e3 : ∑ i ∈ Finset.range n, dualMatrix n g h j i * (dualRhs n i - Spec.image m (dualMatrix n g h) u i) = -∑ i ∈ Finset.range n, g j i * v i := by
      rw [← Finset.sum_neg_distrib]
      refine Finset.sum_congr rfl fun i hi => ?_
      have hi' := Finset.mem_range.1 hi
      rw [img i hi']
      unfold dualMatrix dualRhs
      rw [if_pos hi', if_neg (by omega)]
      ring
    rw [e1, e2, e3]
    ring
  have hswap : ∀ y : ℕ → K, ∑ j ∈ Finset.range m, u j * ∑ i ∈ Finset.range n, g j i * y i = ∑ i ∈ Finset.range n, v i * y i := by
    intro y
    simp only [Finset.mul_sum]
    rw [Finset.sum_comm]
    refine Finset.sum_congr rfl fun i _ => ?_
    rw [hv]
    simp only
    rw [dot_range, Finset.sum_mul]
    exact Finset.sum_congr rfl fun j _ => by ring
  refine ⟨fun j hj => ?_, hswap, ?_, ?_, o5⟩
  · have := o2 j hj
    rw [hdual] at this
    linarith
  · rw [← hswap v, Finset.sum_mul]
    refine Finset.sum_congr rfl fun j hj => ?_
    have := o3 j (Finset.mem_range.1 hj)
    rw [hdual] at this
    linear_combination -this
  · rw [o6]
    unfold Spec.distSq
    rw [Finset.sum_range_succ, imgn]
    have e2 : (dualRhs n n : K) = 1 := by unfold dualRhs; rw [if_pos rfl]
    rw [e2]
    congr 1
    · refine Finset.sum_congr rfl fun i hi => ?_
      have hi' := Finset.mem_range.1 hi
      rw [img i hi']
      unfold dualRhs
      rw [if_neg (by omega)]
      ring
    · ring

/-- `ldp`: with `mode = 1` the result is the feasible point of least norm; `mode = 4` is returned only if there is no feasible point; `mode = 3` is the limit of the iterations. -/
theorem ldp_spec {sqrt : K → K} (hs : Spec.SquareRoot sqrt) (m n : ℕ) (hn : 0 < n) (g : ℕ → ℕ → K) (h : ℕ → K) (mem : State K) :
    ((ldp sqrt m n g h mem).1 = 1 → Spec.Feasible m n g h (ldp sqrt m n g h mem).2 ∧
      ∀ y, Spec.Feasible m n g h y → Spec.normSq n (ldp sqrt m n g h mem).2 ≤ Spec.normSq n y) ∧
    ((ldp sqrt m n g h mem).1 = 4 → ∀ y, ¬Spec.Feasible m n g h y) ∧
    ((ldp sqrt m n g h mem).1 = 1 ∨ (ldp sqrt m n g h mem).1 = 3 ∨ (ldp sqrt m n g h mem).1 = 4) := by
  unfold ldp
  rw [if_neg (by omega)]
  by_cases hm : m = 0
  · rw [if_pos hm]
    refine ⟨fun _ => ⟨fun j hj => by omega, fun y _ => ?_⟩, fun h => absurd h (by norm_num), Or.inl rfl⟩
    have : Spec.normSq n (fun _ => (0 : K)) = 0 := by simp [Spec.normSq]
    rw [this]
    exact Finset.sum_nonneg fun i _ => mul_self_nonneg _
  rw [if_neg hm]
  simp only
  obtain ⟨mode, hmode⟩ := (nnls_stops sqrt (n + 1) m (dualMatrix n g h) (dualRhs n) mem).1
  rcases nnls_mode sqrt (n + 1) m _ _ mem (by omega) (by omega) _ mode hmode with rfl | rfl
  · obtain ⟨u, v, fac, hu, hfac, hv, u0, con, swap, vv, rr, r0⟩ := dual_problem hs m n g h mem _ hmode
    rw [hmode]
    simp only
    rw [← hu, ← hfac]
    have hsum : ∑ j ∈ Finset.range m, u j * h j = 1 - fac := by
      rw [hfac, sub_sub_cancel, dot_range]
      exact Finset.sum_congr rfl fun j _ => mul_comm _ _
    have hrr : rnorm sqrt (n + 1) (nnls sqrt (n + 1) m (dualMatrix n g h) (dualRhs n) mem (rounds m)) *
        rnorm sqrt (n + 1) (nnls sqrt (n + 1) m (dualMatrix n g h) (dualRhs n) mem (rounds m)) = fac := by
      rw [rr, vv, hsum]; ring
    have hweak : ∀ y, Spec.Feasible m n g h y → ∑ j ∈ Finset.range m, u j * h j ≤ ∑ i ∈ Finset.range n, v i * y i := by
      intro y hy
      rw [← swap y]
      exact Finset.sum_le_sum fun j hj => mul_le_mul_of_nonneg_left (hy j (Finset.mem_range.1 hj)) (u0 j (Finset.mem_range.1 hj))
    generalize rnorm sqrt (n + 1) (nnls sqrt (n + 1) m (dualMatrix n g h) (dualRhs n) mem (rounds m)) = r at *
    by_cases hr : r ≤ 0
    · rw [if_pos hr]
      refine ⟨fun h => absurd h (by norm_num), fun _ y hy => ?_, Or.inr (Or.inr rfl)⟩
      have : r = 0 := le_antisymm hr r0
      rw [this, mul_zero] at hrr
      have h1 := hweak y hy
      rw [hsum, ← hrr, sub_zero] at h1
      rw [← hrr, mul_zero] at vv
      have hv0 : ∀ i ∈ Finset.range n, v i * v i = 0 := (Finset.sum_eq_zero_iff_of_nonneg fun i _ => mul_self_nonneg (v i)).1 vv
      rw [Finset.sum_eq_zero fun i hi => by rw [mul_self_eq_zero.1 (hv0 i hi), zero_mul]] at h1
      exact absurd h1 (by norm_num)
    · rw [if_neg hr]
      push Not at hr
      have hf : 0 < fac := by rw [← hrr]; exact mul_pos hr hr
      rw [if_neg (by push Not; linarith)]
      have hx : (fun i => 1 / fac * dotFrom 0 m (fun j => g j i) u) = fun i => v i / fac := by
        funext i
        rw [hv]
        simp only
        ring
      rw [hx]
      refine ⟨fun _ => ⟨fun j hj => ?_, fun y hy => ?_⟩, fun h => absurd h (by norm_num), Or.inl rfl⟩
      · have e : ∑ i ∈ Finset.range n, g j i * (v i / fac) = (∑ i ∈ Finset.range n, g j i * v i) / fac := by
          rw [Finset.sum_div]
          exact Finset.sum_congr rfl fun i _ => by ring
        rw [e, le_div_iff₀ hf]
        exact con j hj
      · have h1 := hweak y hy
        have h2 : ∑ j ∈ Finset.range m, u j * h j = (∑ i ∈ Finset.range n, v i * v i) / fac := by rw [vv]; field_simp
        rw [h2] at h1
        have h3 : Spec.normSq n y = Spec.normSq n (fun i => v i / fac) + ∑ i ∈ Finset.range n, (y i - v i / fac) * (y i - v i / fac) +
            2 * ((∑ i ∈ Finset.range n, v i * y i - (∑ i ∈ Finset.range n, v i * v i) / fac) / fac) := by
          unfold Spec.normSq
          rw [Finset.sum_div, ← Finset.sum_sub_distrib, Finset.sum_div, Finset.mul_sum, ← Finset.sum_add_distrib, ← Finset.sum_add_distrib]
          refine Finset.sum_congr rfl fun i _ => ?_
          field_simp
          ring
        rw [h3]
        have h4 : 0 ≤ ∑ i ∈ Finset.range n, (y i - v i / fac) * (y i - v i / fac) := Finset.sum_nonneg fun i _ => mul_self_nonneg _
        have h5 : 0 ≤ (∑ i ∈ Finset.range n, v i * y i - (∑ i ∈ Finset.range n, v i * v i) / fac) / fac := div_nonneg (by linarith) hf.le
        linarith
  · rw [hmode]
    exact ⟨fun h => absurd h (by norm_num), fun h => absurd h (by norm_num), Or.inr (Or.inl rfl)⟩

/-! ## Least squares with inequalities -/

/-- the triangular matrix: the transformed columns without the vectors of the transformations that are stored below the diagonal -/
def upper (i : ℕ) (e : ℕ → ℕ → K) : ℕ → ℕ → K := fun k r => if k < i ∧ k < r then 0 else e k r

/-- the triangularisation of the first `i` columns -/
structure Reduced (n : ℕ) (E : ℕ → ℕ → K) (F : ℕ → K) (i : ℕ) (s : (ℕ → ℕ → K) × (ℕ → K)) : Prop where
  gram : ∀ j k, j < n → k < n → dotFrom 0 n (upper i s.1 j) (upper i s.1 k) = dotFrom 0 n (E j) (E k)
  gramB : ∀ j, j < n → dotFrom 0 n (upper i s.1 j) s.2 = dotFrom 0 n (E j) F
  gramBB : dotFrom 0 n s.2 s.2 = dotFrom 0 n F F

theorem triangularise_inv {sqrt : K → K} (hs : Spec.SquareRoot sqrt) {n : ℕ} {E : ℕ → ℕ → K} {F : ℕ → K} {i : ℕ} (hi : i < n) {s : (ℕ → ℕ → K) × (ℕ → K)}
    (h : Reduced n E F i s) : Reduced n E F (i + 1) (triangularise sqrt n s i) := by
  have H := house hs hi (s.1 i)
  obtain ⟨u, hu⟩ : ∃ u, u = (construct sqrt i n (s.1 i)).1 := ⟨_, rfl⟩
  obtain ⟨T, hT⟩ : ∃ T, T = reflect i n (construct sqrt i n (s.1 i)).1 (construct sqrt i n (s.1 i)).2 := ⟨_, rfl⟩
  rw [← hT, ← hu] at H
  have e2 : (triangularise sqrt n s i).2 = T s.2 := by unfold triangularise; rw [hT]
  have e1 : ∀ k, (triangularise sqrt n s i).1 k = if k = i then u else if i < k ∧ k < n then T (s.1 k) else s.1 k := by
    intro k
    unfold triangularise
    simp only
    rw [hT, hu]
  have hcol : ∀ k, k < n → ∀ r, r < n → upper (i + 1) (triangularise sqrt n s i).1 k r = T (upper i s.1 k) r := by
    intro k hk r hr
    by_cases h1 : k = i
    · have h2 : upper i s.1 k = s.1 i := by
        funext q
        unfold upper
        rw [if_neg (by omega), h1]
      rw [h2]
      unfold upper
      rw [e1, if_pos h1]
      by_cases h3 : i < r
      · rw [if_pos (by omega), H.image r h3.le hr, if_neg (by omega)]
      · rw [if_neg (by omega)]
        by_cases h4 : r = i
        · rw [h4, H.image i le_rfl hi, if_pos rfl]
        · rw [H.others r h4, H.outside _ r (by omega)]
    · by_cases h2 : i < k
      · have h3 : upper i s.1 k = s.1 k := by
          funext q
          unfold upper
          rw [if_neg (by omega)]
        rw [h3]
        unfold upper
        rw [if_neg (by omega), e1, if_neg h1, if_pos ⟨h2, hk⟩]
      · have h4 : (triangularise sqrt n s i).1 k r = s.1 k r := by rw [e1, if_neg h1, if_neg (by omega)]
        rw [H.fixed]
        · unfold upper
          rw [h4]
          by_cases h3 : k < r
          · rw [if_pos (by omega), if_pos (by omega)]
          · rw [if_neg (by omega), if_neg (by omega)]
        · intro q h3 _
          unfold upper
          rw [if_pos (by omega)]
  have hiso : ∀ c d, dotFrom 0 n (T c) (T d) = dotFrom 0 n c d := by
    intro c d
    rw [dot_join hi.le (T c), dot_join hi.le c, H.isometry]
    congr 1
    exact dot_congr fun i _ h => ⟨H.outside c i (Or.inl h), H.outside d i (Or.inl h)⟩
  refine ⟨fun j k hj hk => ?_, fun j hj => ?_, ?_⟩
  · rw [dot_congr fun r _ hr => ⟨hcol j hj r hr, hcol k hk r hr⟩, hiso, h.gram j k hj hk]
  · rw [e2, dot_congr (v' := T s.2) fun r _ hr => ⟨hcol j hj r hr, rfl⟩, hiso, h.gramB j hj]
  · rw [e2, hiso, h.gramBB]

theorem triangular {sqrt : K → K} (hs : Spec.SquareRoot sqrt) (n : ℕ) (E : ℕ → ℕ → K) (F : ℕ → K) :
    Reduced n E F n ((List.range n).foldl (triangularise sqrt n) (E, F)) := by
  have h0 : Reduced n E F 0 (E, F) := by
    have : upper 0 E = E := by
      funext k r
      unfold upper
      rw [if_neg (by omega)]
    exact ⟨fun j k _ _ => by rw [this], fun j _ => by rw [this], rfl⟩
  have := fold_inv (triangularise sqrt n) (fun i s => Reduced n E F i s) 0 n (E, F) h0 fun i s _ h2 h3 => triangularise_inv hs (by omega) h3
  rwa [Nat.zero_add, ← List.range_eq_range'] at this

omit [LinearOrder K] [IsStrictOrderedRing K] in
/-- the distance does not change -/
theorem distSq_gram {n : ℕ} {E E' : ℕ → ℕ → K} {F F' : ℕ → K} (g1 : ∀ j k, j < n → k < n → dotFrom 0 n (E' j) (E' k) = dotFrom 0 n (E j) (E k))
    (g2 : ∀ j, j < n → dotFrom 0 n (E' j) F' = dotFrom 0 n (E j) F) (g3 : dotFrom 0 n F' F' = dotFrom 0 n F F) (x : ℕ → K) :
    Spec.distSq n n E F x = Spec.distSq n n E' F' x := by
  rw [distSq_eq, distSq_eq, g3]
  congr 1
  refine Finset.sum_congr rfl fun j hj => ?_
  have hj' := Finset.mem_range.1 hj
  rw [g2 j hj', dual_eq, dual_eq, g2 j hj']
  congr 3
  exact Finset.sum_congr rfl fun k hk => by rw [g1 j k hj' (Finset.mem_range.1 hk)]

omit [LinearOrder K] [IsStrictOrderedRing K] in
theorem rowTimesInverse_keeps (e : ℕ → ℕ → K) (g : ℕ → K) (l : ℕ) : ∀ (d k : ℕ), l < k → rowTimesInverse e g (k + d) l = rowTimesInverse e g k l := by
  intro d
  induction d with
  | zero => intro k _; rfl
  | succ d ih =>
    intro k hk
    rw [← Nat.add_assoc, rowTimesInverse, Function.update_of_ne (by omega), ih k hk]

omit [LinearOrder K] [IsStrictOrderedRing K] in
/-- the row of `g` is multiplied with the inverse of the triangular matrix -/
theorem rowTimesInverse_spec {n : ℕ} {e : ℕ → ℕ → K} (hd : ∀ j, j < n → e j j ≠ 0) (g : ℕ → K) (k : ℕ) (hk : k < n) :
    ∑ l ∈ Finset.range n, rowTimesInverse e g n l * upper n e k l = g k := by
  have e1 : ∀ l, l < k + 1 → rowTimesInverse e g n l = rowTimesInverse e g (k + 1) l := by
    intro l hl
    have := rowTimesInverse_keeps e g l (n - (k + 1)) (k + 1) hl
    rwa [show k + 1 + (n - (k + 1)) = n by omega] at this
  have e2 : ∑ l ∈ Finset.range n, rowTimesInverse e g n l * upper n e k l = ∑ l ∈ Finset.range (k + 1), rowTimesInverse e g n l * upper n e k l := by
    refine (Finset.sum_subset (Finset.range_subset_range.2 hk) fun l _ h2 => ?_).symm
    have : k < l := by simpa using h2
    unfold upper
    rw [if_pos ⟨hk, this⟩, mul_zero]
  rw [e2, Finset.sum_range_succ, e1 k (by omega)]
  have e3 : ∑ l ∈ Finset.range k, rowTimesInverse e g n l * upper n e k l = dotFrom 0 k (rowTimesInverse e g k) (e k) := by
    rw [dot_range]
    refine Finset.sum_congr rfl fun l hl => ?_
    have hl' := Finset.mem_range.1 hl
    rw [e1 l (by omega), rowTimesInverse_keeps e g l 1 k hl']
    unfold upper
    rw [if_neg (by omega)]
  rw [e3, rowTimesInverse, Function.update_self]
  unfold upper
  rw [if_neg (by omega)]
  have := hd k hk
  field_simp
  ring

omit [LinearOrder K] [IsStrictOrderedRing K] in
theorem solveRows_above (n : ℕ) (e : ℕ → ℕ → K) : ∀ (k : ℕ) (x : ℕ → K) (i : ℕ), k ≤ i → solveRows n e k x i = x i := by
  intro k
  induction k with
  | zero => intro x i _; rfl
  | succ k ih =>
    intro x i hi
    rw [solveRows, ih _ _ (by omega), Function.update_of_ne (by omega)]

omit [LinearOrder K] [IsStrictOrderedRing K] in
theorem solveRows_rows {n : ℕ} {e : ℕ → ℕ → K} (hd : ∀ j, j < n → e j j ≠ 0) : ∀ (k : ℕ) (x : ℕ → K), k ≤ n → ∀ i, i < k →
    e i i * solveRows n e k x i + dotFrom (i + 1) n (fun j => e j i) (solveRows n e k x) = x i := by
  intro k
  induction k with
  | zero => intro x _ i hi; omega
  | succ k ih =>
    intro x hk i hi
    rw [solveRows]
    by_cases h : i = k
    · subst h
      rw [solveRows_above _ _ _ _ _ le_rfl, Function.update_self]
      have : dotFrom (i + 1) n (fun j => e j i) (solveRows n e i (Function.update x i ((x i - dotFrom (i + 1) n (fun j => e j i) x) / e i i))) =
          dotFrom (i + 1) n (fun j => e j i) x :=
        dot_congr fun j h1 _ => ⟨rfl, by rw [solveRows_above _ _ _ _ _ (by omega), Function.update_of_ne (by omega)]⟩
      rw [this]
      have := hd i (by omega)
      field_simp
      ring
    · rw [ih _ (by omega) i (by omega), Function.update_of_ne h]

omit [LinearOrder K] [IsStrictOrderedRing K] in
/-- the triangular system is solved -/
theorem solveRows_spec {n : ℕ} {e : ℕ → ℕ → K} (hd : ∀ j, j < n → e j j ≠ 0) (x : ℕ → K) (i : ℕ) (hi : i < n) :
    Spec.image n (upper n e) (solveRows n e n x) i = x i := by
  rw [← solveRows_rows hd n x le_rfl i hi]
  unfold Spec.image
  rw [Finset.range_eq_Ico, ← Finset.sum_Ico_consecutive _ (Nat.zero_le i) hi.le, Finset.sum_eq_zero, zero_add, Finset.sum_eq_sum_Ico_succ_bot hi]
  · unfold dotFrom upper
    congr 1
    · rw [if_neg (by omega), mul_comm]
    · refine Finset.sum_congr rfl fun j hj => ?_
      have := (Finset.mem_Ico.1 hj).1
      rw [if_neg (by omega), mul_comm]
  · intro j hj
    have := (Finset.mem_Ico.1 hj).2
    unfold upper
    rw [if_pos (by omega), mul_zero]

/-- `lsi`: with `mode = 1` the result is the feasible point with the least distance of `e x` to `f`; `mode = 4` is returned only if there is no feasible point. The other values are the
limit of the iterations (`3`) and a singular matrix (`5`). -/
theorem lsi_spec {sqrt : K → K} (hs : Spec.SquareRoot sqrt) (m n : ℕ) (hm : 0 < m) (hn : 0 < n) (e : ℕ → ℕ → K) (f : ℕ → K) (g : ℕ → ℕ → K) (h : ℕ → K) (mem : State K) :
    ((lsi sqrt m n e f g h mem).1 = 1 → Spec.Feasible m n g h (lsi sqrt m n e f g h mem).2 ∧
      ∀ y, Spec.Feasible m n g h y → Spec.distSq n n e f (lsi sqrt m n e f g h mem).2 ≤ Spec.distSq n n e f y) ∧
    ((lsi sqrt m n e f g h mem).1 = 4 → ∀ y, ¬Spec.Feasible m n g h y) ∧
    ((lsi sqrt m n e f g h mem).1 = 1 ∨ (lsi sqrt m n e f g h mem).1 = 3 ∨ (lsi sqrt m n e f g h mem).1 = 4 ∨ (lsi sqrt m n e f g h mem).1 = 5) := by
  have T := triangular hs n e f
  unfold lsi
  simp only
  generalize (List.range n).foldl (triangularise sqrt n) (e, f) = t at T
  by_cases h5 : 0 < m ∧ ((List.range n).any fun j => decide (¬|t.1 j j| ≥ (epmach : K))) = true
  · rw [if_pos h5]
    exact ⟨fun h => absurd h (by norm_num), fun h => absurd h (by norm_num), Or.inr (Or.inr (Or.inr rfl))⟩
  rw [if_neg h5]
  have hd : ∀ j, j < n → t.1 j j ≠ 0 := by
    intro j hj h0
    refine h5 ⟨hm, ?_⟩
    rw [List.any_eq_true]
    refine ⟨j, List.mem_range.2 hj, ?_⟩
    rw [h0, abs_zero, decide_eq_true_iff, not_le]
    unfold epmach
    positivity
  obtain ⟨g', hg'⟩ : ∃ g' : ℕ → ℕ → K, g' = fun i => rowTimesInverse t.1 (g i) n := ⟨_, rfl⟩
  obtain ⟨h', hh'⟩ : ∃ h' : ℕ → K, h' = fun i => h i - dotFrom 0 n (g' i) t.2 := ⟨_, rfl⟩
  have e1 : (fun i => rowTimesInverse t.1 (g i) n) = g' := hg'.symm
  rw [e1]
  have e2 : (fun i => h i - dotFrom 0 n (rowTimesInverse t.1 (g i) n) t.2) = h' := by rw [hh', hg']
  rw [e2]
  obtain ⟨R, hR⟩ : ∃ R, R = upper n t.1 := ⟨_, rfl⟩
  have hdist : ∀ x, Spec.distSq n n e f x = Spec.normSq n fun i => Spec.image n R x i - t.2 i := by
    intro x
    rw [distSq_gram T.gram T.gramB T.gramBB x, hR]
    rfl
  have hfeas : ∀ x, Spec.Feasible m n g h x ↔ Spec.Feasible m n g' h' fun i => Spec.image n R x i - t.2 i := by
    intro x
    unfold Spec.Feasible
    refine forall_congr' fun j => imp_congr_right fun _ => ?_
    have e3 : ∑ i ∈ Finset.range n, g' j i * (Spec.image n R x i - t.2 i) = ∑ i ∈ Finset.range n, g j i * x i - dotFrom 0 n (g' j) t.2 := by
      rw [dot_range]
      simp only [mul_sub, Finset.sum_sub_distrib]
      congr 1
      unfold Spec.image
      simp only [Finset.mul_sum]
      rw [Finset.sum_comm]
      refine Finset.sum_congr rfl fun k hk => ?_
      rw [← rowTimesInverse_spec hd (g j) k (Finset.mem_range.1 hk), Finset.sum_mul, hg', hR]
      exact Finset.sum_congr rfl fun l _ => by ring
    rw [e3, hh']
    simp only
    rw [sub_le_sub_iff_right]
  obtain ⟨l1, l2, l3⟩ := ldp_spec hs m n hn g' h' mem
  generalize ldp sqrt m n g' h' mem = r at *
  by_cases hr : r.1 = 1
  · rw [if_neg (by simpa using hr)]
    obtain ⟨f1, f2⟩ := l1 hr
    have hx : ∀ i, i < n → Spec.image n R (solveRows n t.1 n fun i => r.2 i + t.2 i) i - t.2 i = r.2 i := by
      intro i hi
      rw [hR, solveRows_spec hd _ i hi, add_sub_cancel_right]
    refine ⟨fun _ => ⟨?_, fun y hy => ?_⟩, fun h => absurd h (by norm_num), Or.inl rfl⟩
    · rw [hfeas]
      intro j hj
      refine (f1 j hj).trans_eq (Finset.sum_congr rfl fun i hi => ?_)
      simp only
      rw [hx i (Finset.mem_range.1 hi)]
    · rw [hdist, hdist]
      refine le_trans (le_of_eq ?_) (f2 _ ((hfeas y).1 hy))
      exact Finset.sum_congr rfl fun i hi => by simp only; rw [hx i (Finset.mem_range.1 hi)]
  · rw [if_pos hr]
    refine ⟨fun h => absurd h hr, fun h y hy => l2 h _ ((hfeas y).1 hy), ?_⟩
    tauto

/-! ## The quadratic model in the bounds -/

/-- the list of the first `n` values -/
def listed (n : ℕ) (x : ℕ → K) : List K := (List.range n).map x

omit [LinearOrder K] [IsStrictOrderedRing K] [Field K] in
theorem listed_succ (n : ℕ) (x : ℕ → K) : listed (n + 1) x = x 0 :: listed n fun i => x (i + 1) := by
  unfold listed
  rw [List.range_succ_eq_map]
  simp

omit [LinearOrder K] [IsStrictOrderedRing K] in
theorem listed_getD (n : ℕ) (x : ℕ → K) (i : ℕ) (hi : i < n) : (listed n x).getD i 0 = x i := by
  unfold listed
  simp [List.getD, hi]

omit [LinearOrder K] [IsStrictOrderedRing K] [Field K] in
theorem listed_length (n : ℕ) (x : ℕ → K) : (listed n x).length = n := by simp [listed]

omit [LinearOrder K] [IsStrictOrderedRing K] in
theorem listed_eq (y : List K) : listed y.length (fun i => y.getD i 0) = y := by
  refine List.ext_getElem (by simp [listed]) fun i h1 h2 => ?_
  simp [listed, List.getD, h2]

omit [LinearOrder K] [IsStrictOrderedRing K] in
theorem zip_sum : ∀ (n : ℕ) (a b : ℕ → K), (List.zipWith (· * ·) (listed n a) (listed n b)).sum = ∑ i ∈ Finset.range n, a i * b i
  | 0, a, b => by simp [listed]
  | n + 1, a, b => by
    rw [listed_succ, listed_succ, List.zipWith_cons_cons, List.sum_cons, zip_sum n, Finset.sum_range_succ']
    ring

/-- the matrix `e` of `lsq` is a root of `L D L'` -/
theorem rootFactor_quad {sqrt : K → K} (hs : Spec.SquareRoot sqrt) : ∀ (l : Slsqp.Factors K) (x : ℕ → K), Slsqp.Shape l → Slsqp.Pos l →
    Slsqp.Spec.quad l (listed l.length x) = ∑ i ∈ Finset.range l.length, Spec.image l.length (rootFactor sqrt l) x i * Spec.image l.length (rootFactor sqrt l) x i
  | [], x, _, _ => by simp [Slsqp.Spec.quad]
  | (d, col) :: l, x, hsh, hp => by
    have hd : 0 < d := hp (d, col) (by simp)
    have hsq : sqrt d * sqrt d = d := (hs d hd.le).2
    have hcol : col.length = l.length := hsh.1
    rw [List.length_cons, listed_succ, Slsqp.Spec.quad, rootFactor_quad hs l (fun i => x (i + 1)) hsh.2 fun c hc => hp c (by simp [hc]), Finset.sum_range_succ', add_comm]
    congr 1
    · refine Finset.sum_congr rfl fun i hi => ?_
      have e1 : Spec.image (l.length + 1) (rootFactor sqrt ((d, col) :: l)) x (i + 1) = Spec.image l.length (rootFactor sqrt l) (fun i => x (i + 1)) i := by
        unfold Spec.image
        rw [Finset.sum_range_succ']
        have z : rootFactor sqrt ((d, col) :: l) 0 (i + 1) = 0 := by simp [rootFactor]
        rw [z, mul_zero, add_zero]
        refine Finset.sum_congr rfl fun j _ => ?_
        congr 1
        simp [rootFactor]
      rw [e1]
    · have e2 : Spec.image (l.length + 1) (rootFactor sqrt ((d, col) :: l)) x 0 = sqrt d * (x 0 + (List.zipWith (· * ·) col (listed l.length fun i => x (i + 1))).sum) := by
        unfold Spec.image
        have e3 : (List.zipWith (· * ·) col (listed l.length fun i => x (i + 1))).sum = ∑ i ∈ Finset.range l.length, col.getD i 0 * x (i + 1) := by
          rw [← zip_sum l.length (fun i => col.getD i 0) fun i => x (i + 1), ← hcol, listed_eq]
        rw [e3, Finset.sum_range_succ', mul_add, Finset.mul_sum, add_comm]
        congr 1
        · simp [rootFactor, mul_comm]
        · refine Finset.sum_congr rfl fun j _ => ?_
          simp [rootFactor]
          ring
      rw [e2]
      linear_combination (x 0 + (List.zipWith (· * ·) col (listed l.length fun i => x (i + 1))).sum) ^ 2 * (-hsq)

omit [LinearOrder K] [IsStrictOrderedRing K] in
theorem rootRhs_keeps (e : ℕ → ℕ → K) (g : ℕ → K) (l : ℕ) : ∀ (d k : ℕ), l < k → rootRhs e g (k + d) l = rootRhs e g k l := by
  intro d
  induction d with
  | zero => intro k _; rfl
  | succ d ih =>
    intro k hk
    rw [← Nat.add_assoc, rootRhs, Function.update_of_ne (by omega), ih k hk]

omit [LinearOrder K] [IsStrictOrderedRing K] in
/-- the vector `f` of `lsq` -/
theorem rootRhs_spec {n : ℕ} {e : ℕ → ℕ → K} (hd : ∀ j, j < n → e j j ≠ 0) (hz : ∀ j i, j < i → e j i = 0) (g : ℕ → K) (k : ℕ) (hk : k < n) :
    ∑ l ∈ Finset.range n, e k l * rootRhs e g n l = g k := by
  have e1 : ∀ l, l < k + 1 → rootRhs e g n l = rootRhs e g (k + 1) l := by
    intro l hl
    have := rootRhs_keeps e g l (n - (k + 1)) (k + 1) hl
    rwa [show k + 1 + (n - (k + 1)) = n by omega] at this
  have e2 : ∑ l ∈ Finset.range n, e k l * rootRhs e g n l = ∑ l ∈ Finset.range (k + 1), e k l * rootRhs e g n l := by
    refine (Finset.sum_subset (Finset.range_subset_range.2 hk) fun l _ h2 => ?_).symm
    have : k < l := by simpa using h2
    rw [hz k l this, zero_mul]
  rw [e2, Finset.sum_range_succ, e1 k (by omega)]
  have e3 : ∑ l ∈ Finset.range k, e k l * rootRhs e g n l = dotFrom 0 k (e k) (rootRhs e g k) := by
    rw [dot_range]
    refine Finset.sum_congr rfl fun l hl => ?_
    have hl' := Finset.mem_range.1 hl
    rw [e1 l (by omega), rootRhs_keeps e g l 1 k hl']
  rw [e3, rootRhs, Function.update_self]
  have := hd k hk
  field_simp
  ring

omit [LinearOrder K] [IsStrictOrderedRing K] in
/-- the constraints of `lsq` are the bounds -/
theorem boxRows_spec [LinearOrder K] [IsStrictOrderedRing K] (n : ℕ) (xl xu x : ℕ → K) :
    Spec.Feasible (n + n) n (boxRows n xl xu).1 (boxRows n xl xu).2 x ↔ ∀ i, i < n → xl i ≤ x i ∧ x i ≤ xu i := by
  have e1 : ∀ j, j < n → ∑ i ∈ Finset.range n, (boxRows n xl xu).1 j i * x i = x j := by
    intro j hj
    rw [Finset.sum_eq_single_of_mem j (Finset.mem_range.2 hj)]
    · simp [boxRows, hj]
    · intro i _ hi
      simp [boxRows, hj, hi]
  have e2 : ∀ j, j < n → ∑ i ∈ Finset.range n, (boxRows n xl xu).1 (n + j) i * x i = -x j := by
    intro j hj
    rw [Finset.sum_eq_single_of_mem j (Finset.mem_range.2 hj)]
    · simp [boxRows]
    · intro i _ hi
      simp [boxRows, hi]
  constructor
  · intro h i hi
    have h1 := h i (by omega)
    have h2 := h (n + i) (by omega)
    rw [e1 i hi] at h1
    rw [e2 i hi] at h2
    simp only [boxRows, hi, if_true] at h1
    simp only [boxRows, Nat.add_sub_cancel_left, if_neg (show ¬n + i < n by omega)] at h2
    exact ⟨h1, by linarith⟩
  · intro h j hj
    by_cases hjn : j < n
    · rw [e1 j hjn]
      simp only [boxRows, hjn, if_true]
      exact (h j hjn).1
    · obtain ⟨i, rfl⟩ := Nat.exists_eq_add_of_le (not_lt.1 hjn)
      rw [e2 i (by omega)]
      simp only [boxRows, Nat.add_sub_cancel_left, if_neg (show ¬n + i < n by omega)]
      linarith [(h i (by omega)).2]

/-- the distance that `lsq` minimises is the quadratic model, up to a constant -/
theorem distSq_model {sqrt : K → K} (hs : Spec.SquareRoot sqrt) (l : Slsqp.Factors K) (g : List K) (hsh : Slsqp.Shape l) (hp : Slsqp.Pos l) (hl : l.length = g.length) :
    ∃ c : K, ∀ x : ℕ → K, Spec.distSq g.length g.length (rootFactor sqrt l) (fun i => -rootRhs (rootFactor sqrt l) (fun i => g.getD i 0) g.length i) x =
      Spec.model l g (listed g.length x) + c := by
  have hd : ∀ j, j < g.length → rootFactor sqrt l j j ≠ 0 := by
    intro j hj h0
    have hj' : j < l.length := by omega
    have e : rootFactor sqrt l j j = sqrt l[j].1 := by simp [rootFactor, List.getD, hj']
    have h1 : 0 < l[j].1 := hp _ (List.getElem_mem hj')
    have h2 := (hs _ h1.le).2
    rw [← e, h0, mul_zero] at h2
    linarith
  have hz : ∀ j i, j < i → rootFactor sqrt l j i = 0 := by
    intro j i hji
    unfold rootFactor
    simp only
    rw [if_neg (by omega), if_neg (by omega)]
  obtain ⟨r, hr⟩ : ∃ r, r = rootRhs (rootFactor sqrt l) (fun i => g.getD i 0) g.length := ⟨_, rfl⟩
  have hspec := fun k hk => rootRhs_spec hd hz (fun i => g.getD i 0) k hk
  rw [← hr] at hspec ⊢
  refine ⟨∑ i ∈ Finset.range g.length, r i * r i, fun x => ?_⟩
  unfold Spec.distSq Spec.model
  rw [← hl, rootFactor_quad hs l x hsh hp, hl]
  have e1 : (List.zipWith (· * ·) g (listed g.length x)).sum = ∑ i ∈ Finset.range g.length, g.getD i 0 * x i := by
    rw [← zip_sum, listed_eq]
  have e2 : ∑ i ∈ Finset.range g.length, g.getD i 0 * x i = ∑ i ∈ Finset.range g.length, Spec.image g.length (rootFactor sqrt l) x i * r i := by
    unfold Spec.image
    simp only [Finset.sum_mul]
    rw [Finset.sum_comm]
    refine Finset.sum_congr rfl fun k hk => ?_
    rw [← hspec k (Finset.mem_range.1 hk), Finset.sum_mul]
    exact Finset.sum_congr rfl fun i _ => by ring
  rw [e1, e2, Finset.mul_sum, ← Finset.sum_add_distrib, ← Finset.sum_add_distrib]
  exact Finset.sum_congr rfl fun i _ => by ring

/-- `lsq`: with `mode = 1` the step lies in its bounds and minimises the quadratic model there; `mode = 4` is returned only if the bounds contradict each other. -/
theorem lsq_spec {sqrt : K → K} (hs : Spec.SquareRoot sqrt) (mem : State K) (l : Slsqp.Factors K) (g xl xu : List K) (hsh : Slsqp.Shape l) (hp : Slsqp.Pos l)
    (hl : l.length = g.length) (hxl : xl.length = g.length) (hn : 0 < g.length) :
    ((lsq sqrt mem l g xl xu).2 = 1 → Slsqp.Spec.Inside xl xu (listed g.length (lsq sqrt mem l g xl xu).1) ∧
      ∀ y, Slsqp.Spec.Inside xl xu y → Spec.model l g (listed g.length (lsq sqrt mem l g xl xu).1) ≤ Spec.model l g y) ∧
    ((lsq sqrt mem l g xl xu).2 = 4 → ∀ y, ¬Slsqp.Spec.Inside xl xu y) ∧
    ((lsq sqrt mem l g xl xu).2 = 1 ∨ (lsq sqrt mem l g xl xu).2 = 3 ∨ (lsq sqrt mem l g xl xu).2 = 4 ∨ (lsq sqrt mem l g xl xu).2 = 5) := by
  obtain ⟨c, hc⟩ := distSq_model hs l g hsh hp hl
  have hin : ∀ y : List K, Slsqp.Spec.Inside xl xu y → listed g.length (fun i => y.getD i 0) = y ∧ Spec.Feasible (g.length + g.length) g.length
      (boxRows g.length (fun i => xl.getD i 0) fun i => xu.getD i 0).1 (boxRows g.length (fun i => xl.getD i 0) fun i => xu.getD i 0).2 fun i => y.getD i 0 := by
    intro y hy
    refine ⟨by rw [← hxl, ← hy.1, listed_eq], (boxRows_spec _ _ _ _).2 fun i hi => hy.2 i (by omega)⟩
  unfold lsq
  simp only
  obtain ⟨a, b, d⟩ := lsi_spec hs (g.length + g.length) g.length (by omega) hn (rootFactor sqrt l)
    (fun i => -rootRhs (rootFactor sqrt l) (fun i => g.getD i 0) g.length i) (boxRows g.length (fun i => xl.getD i 0) fun i => xu.getD i 0).1
    (boxRows g.length (fun i => xl.getD i 0) fun i => xu.getD i 0).2 mem
  generalize lsi sqrt (g.length + g.length) g.length (rootFactor sqrt l)
    (fun i => -rootRhs (rootFactor sqrt l) (fun i => g.getD i 0) g.length i) (boxRows g.length (fun i => xl.getD i 0) fun i => xu.getD i 0).1
    (boxRows g.length (fun i => xl.getD i 0) fun i => xu.getD i 0).2 mem = r at *
  refine ⟨fun h => ?_, fun h y hy => b (by exact_mod_cast h) _ (hin y hy).2, by omega⟩
  obtain ⟨f1, f2⟩ := a (by exact_mod_cast h)
  refine ⟨⟨by rw [listed_length, hxl], fun i hi => ?_⟩, fun y hy => ?_⟩
  · rw [listed_getD _ _ _ (by omega)]
    exact (boxRows_spec _ _ _ _).1 f1 i (by omega)
  · have := f2 _ (hin y hy).2
    rw [hc, hc, (hin y hy).1] at this
    linarith

end Splinepy.Lsq
