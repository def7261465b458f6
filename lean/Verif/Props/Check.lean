import Verif.Model.Check
import Mathlib.Tactic.Linarith
import Mathlib.Algebra.Order.Ring.Abs

/-!
C52: the validity check of queries, and the check of clamped knot vectors.
-/
set_option linter.unusedSectionVars false

namespace Splinepy.Check

variable {K : Type} [Field K] [LinearOrder K] [IsStrictOrderedRing K]

/-- a query lies inside of the parametric bounds -/
def Spec.Inside (lo hi q : List K) : Prop := ∀ d < lo.length, lo.getD d 0 ≤ q.getD d 0 ∧ q.getD d 0 ≤ hi.getD d 0

theorem foldl_min (l : List K) (x : K) : l.foldl min x ≤ x ∧ (∀ y ∈ l, l.foldl min x ≤ y) ∧ (l.foldl min x = x ∨ l.foldl min x ∈ l) := by
  induction l generalizing x with
  | nil => simp
  | cons a l ih =>
    rw [List.foldl_cons]
    obtain ⟨h1, h2, h3⟩ := ih (min x a)
    refine ⟨h1.trans (min_le_left _ _), ?_, ?_⟩
    · intro y hy
      rcases List.mem_cons.1 hy with rfl | hy
      · exact h1.trans (min_le_right _ _)
      · exact h2 y hy
    · rcases h3 with h3 | h3
      · rw [h3]
        rcases le_total x a with h | h
        · left; exact min_eq_left h
        · right; rw [min_eq_right h]; simp
      · right; exact List.mem_cons_of_mem _ h3

theorem foldl_max (l : List K) (x : K) : x ≤ l.foldl max x ∧ (∀ y ∈ l, y ≤ l.foldl max x) ∧ (l.foldl max x = x ∨ l.foldl max x ∈ l) := by
  induction l generalizing x with
  | nil => simp
  | cons a l ih =>
    rw [List.foldl_cons]
    obtain ⟨h1, h2, h3⟩ := ih (max x a)
    refine ⟨(le_max_left _ _).trans h1, ?_, ?_⟩
    · intro y hy
      rcases List.mem_cons.1 hy with rfl | hy
      · exact (le_max_right _ _).trans h1
      · exact h2 y hy
    · rcases h3 with h3 | h3
      · rw [h3]
        rcases le_total x a with h | h
        · right; rw [max_eq_right h]; simp
        · left; exact max_eq_left h
      · right; exact List.mem_cons_of_mem _ h3

theorem minOf_spec (l : List K) (h : l ≠ []) : minOf l ∈ l ∧ ∀ y ∈ l, minOf l ≤ y := by
  cases l with
  | nil => exact absurd rfl h
  | cons x xs =>
    obtain ⟨h1, h2, h3⟩ := foldl_min xs x
    change xs.foldl min x ∈ x :: xs ∧ ∀ y ∈ x :: xs, xs.foldl min x ≤ y
    refine ⟨?_, ?_⟩
    · rcases h3 with h3 | h3
      · rw [h3]; simp
      · exact List.mem_cons_of_mem _ h3
    · intro y hy
      rcases List.mem_cons.1 hy with rfl | hy
      · exact h1
      · exact h2 y hy

theorem maxOf_spec (l : List K) (h : l ≠ []) : maxOf l ∈ l ∧ ∀ y ∈ l, y ≤ maxOf l := by
  cases l with
  | nil => exact absurd rfl h
  | cons x xs =>
    obtain ⟨h1, h2, h3⟩ := foldl_max xs x
    change xs.foldl max x ∈ x :: xs ∧ ∀ y ∈ x :: xs, y ≤ xs.foldl max x
    refine ⟨?_, ?_⟩
    · rcases h3 with h3 | h3
      · rw [h3]; simp
      · exact List.mem_cons_of_mem _ h3
    · intro y hy
      rcases List.mem_cons.1 hy with rfl | hy
      · exact h1
      · exact h2 y hy

theorem column_ne (queries : List (List K)) (h : queries ≠ []) (d : ℕ) : column queries d ≠ [] := by
  simp [column, h]

theorem below_iff (lo : List K) (n : ℕ) (queries : List (List K)) (h : queries ≠ []) :
    (List.range n).any (fun d => decide (lo.getD d 0 > minOf (column queries d))) = true ↔ ∃ d < n, ∃ q ∈ queries, q.getD d 0 < lo.getD d 0 := by
  rw [List.any_eq_true]
  constructor
  · rintro ⟨d, hd, h2⟩
    rw [decide_eq_true_eq] at h2
    obtain ⟨h3, _⟩ := minOf_spec _ (column_ne queries h d)
    unfold column at h3
    rw [List.mem_map] at h3
    obtain ⟨q, hq, e⟩ := h3
    exact ⟨d, List.mem_range.1 hd, q, hq, by rw [e]; exact h2⟩
  · rintro ⟨d, hd, q, hq, h2⟩
    refine ⟨d, List.mem_range.2 hd, ?_⟩
    rw [decide_eq_true_eq]
    obtain ⟨_, h3⟩ := minOf_spec _ (column_ne queries h d)
    exact lt_of_le_of_lt (h3 _ (List.mem_map_of_mem hq)) h2

theorem above_iff (hi : List K) (n : ℕ) (queries : List (List K)) (h : queries ≠ []) :
    (List.range n).any (fun d => decide (hi.getD d 0 < maxOf (column queries d))) = true ↔ ∃ d < n, ∃ q ∈ queries, hi.getD d 0 < q.getD d 0 := by
  rw [List.any_eq_true]
  constructor
  · rintro ⟨d, hd, h2⟩
    rw [decide_eq_true_eq] at h2
    obtain ⟨h3, _⟩ := maxOf_spec _ (column_ne queries h d)
    unfold column at h3
    rw [List.mem_map] at h3
    obtain ⟨q, hq, e⟩ := h3
    exact ⟨d, List.mem_range.1 hd, q, hq, by rw [e]; exact h2⟩
  · rintro ⟨d, hd, q, hq, h2⟩
    refine ⟨d, List.mem_range.2 hd, ?_⟩
    rw [decide_eq_true_eq]
    obtain ⟨_, h3⟩ := maxOf_spec _ (column_ne queries h d)
    exact lt_of_lt_of_le h2 (h3 _ (List.mem_map_of_mem hq))

/-- C52: queries are accepted if and only if they have the parametric dimension, there is at least one, and all of them are inside of the bounds. -/
theorem valid_queries_iff (lo hi : List K) (nCols : ℕ) (queries : List (List K)) :
    validQueries lo hi nCols queries = .valid ↔ lo.length = nCols ∧ queries ≠ [] ∧ ∀ q ∈ queries, Spec.Inside lo hi q := by
  unfold validQueries
  by_cases h1 : lo.length = nCols
  · rw [if_neg (by simpa using h1)]
    by_cases h2 : queries = []
    · rw [if_pos h2]; simp [h2]
    · rw [if_neg h2]
      by_cases hb : (List.range nCols).any (fun d => decide (lo.getD d 0 > minOf (column queries d))) = true
      · rw [if_pos hb]
        rw [below_iff _ _ _ h2] at hb
        obtain ⟨d, hd, q, hq, hlt⟩ := hb
        simp only [reduceCtorEq, false_iff]
        rintro ⟨_, _, hall⟩
        exact absurd (hall q hq d (by omega)).1 (not_le.2 hlt)
      · rw [if_neg hb]
        rw [below_iff _ _ _ h2] at hb
        by_cases ha : (List.range nCols).any (fun d => decide (hi.getD d 0 < maxOf (column queries d))) = true
        · rw [if_pos ha]
          rw [above_iff _ _ _ h2] at ha
          obtain ⟨d, hd, q, hq, hlt⟩ := ha
          simp only [reduceCtorEq, false_iff]
          rintro ⟨_, _, hall⟩
          exact absurd (hall q hq d (by omega)).2 (not_le.2 hlt)
        · rw [if_neg ha]
          rw [above_iff _ _ _ h2] at ha
          simp only [true_iff]
          refine ⟨h1, h2, fun q hq d hd => ⟨?_, ?_⟩⟩
          · by_contra hlt
            exact hb ⟨d, by omega, q, hq, not_le.1 hlt⟩
          · by_contra hlt
            exact ha ⟨d, by omega, q, hq, not_le.1 hlt⟩
  · rw [if_pos (by simpa using h1)]; simp [h1]

/-- C52: for at least one query, each of the parametric dimension, the check raises exactly if some query is outside. -/
theorem valid_queries_raises_iff (lo hi : List K) (queries : List (List K)) (hne : queries ≠ []) :
    validQueries lo hi lo.length queries ≠ .valid ↔ ∃ q ∈ queries, ¬ Spec.Inside lo hi q := by
  rw [ne_eq, valid_queries_iff]
  constructor
  · intro h
    by_contra hcon
    push Not at hcon
    exact h ⟨rfl, hne, hcon⟩
  · rintro ⟨q, hq, hn⟩ ⟨_, _, hall⟩
    exact hn (hall q hq)

/-- C52: the error for the upper bound names a dimension and the position of a query that exceeds the bound there. -/
theorem valid_queries_above_names (lo hi : List K) (nCols : ℕ) (queries : List (List K)) (dim pos : ℕ)
    (h : validQueries lo hi nCols queries = .above dim pos) :
    dim < nCols ∧ ∃ q, queries[pos]? = some q ∧ hi.getD dim 0 < q.getD dim 0 := by
  unfold validQueries at h
  by_cases h1 : lo.length ≠ nCols
  · rw [if_pos h1] at h; simp at h
  rw [if_neg h1] at h
  by_cases h2 : queries = []
  · rw [if_pos h2] at h; simp at h
  rw [if_neg h2] at h
  by_cases hb : (List.range nCols).any (fun d => decide (lo.getD d 0 > minOf (column queries d))) = true
  · rw [if_pos hb] at h; simp at h
  rw [if_neg hb] at h
  by_cases ha : (List.range nCols).any (fun d => decide (hi.getD d 0 < maxOf (column queries d))) = true
  · rw [if_pos ha] at h
    simp only [Outcome.above.injEq] at h
    obtain ⟨e1, e2⟩ := h
    have hf : ∃ d, (List.range nCols).find? (fun d => decide (hi.getD d 0 < maxOf (column queries d))) = some d := by
      rw [← Option.isSome_iff_exists, List.find?_isSome]
      rw [List.any_eq_true] at ha
      exact ha
    obtain ⟨d, hd⟩ := hf
    have hdim : dim = d := by rw [← e1]; unfold firstDim; rw [hd]; rfl
    have hp := List.find?_some hd
    rw [decide_eq_true_eq] at hp
    have hm := List.mem_range.1 (List.mem_of_find?_eq_some hd)
    subst hdim
    refine ⟨hm, ?_⟩
    rw [e1] at e2
    obtain ⟨h3, _⟩ := maxOf_spec _ (column_ne queries h2 dim)
    have hlt := List.idxOf_lt_length_iff.2 h3
    rw [e2] at hlt
    have hql : pos < queries.length := by simpa [column] using hlt
    refine ⟨queries[pos], List.getElem?_eq_getElem hql, ?_⟩
    have hget : (column queries dim)[pos]'hlt = maxOf (column queries dim) := by
      have := List.getElem_idxOf (List.idxOf_lt_length_iff.2 h3)
      simpa [e2] using this
    have : (column queries dim)[pos]'hlt = (queries[pos]).getD dim 0 := by simp [column]
    rw [← this, hget]; exact hp
  · rw [if_neg ha] at h; simp at h

/-- non-vacuity: two dimensions, three queries; accepted and rejected -/
example : validQueries (K := ℚ) [0, 0] [1, 2] 2 [[0, 1], [1/2, 2], [1, 0]] = .valid ∧ validQueries (K := ℚ) [0, 0] [1, 2] 2 [[0, 1], [1/2, 5/2], [1, 3]] = .above 1 2 := by
  decide +kernel

/-- C52 fails for the error of the lower bound: it may name a dimension in which all queries are inside. -/
theorem valid_queries_below_names_violates :
    ∃ (lo hi : List ℚ) (queries : List (List ℚ)) (dim pos : ℕ), validQueries lo hi 2 queries = .below dim pos ∧
      ∀ q ∈ queries, lo.getD dim 0 ≤ q.getD dim 0 ∧ q.getD dim 0 ≤ hi.getD dim 0 :=
  ⟨[0, 0], [1, 1], [[1/2, -1]], 0, 0, by decide +kernel, by decide +kernel⟩

/-- C52 fails without queries: the check raises although no query is outside. -/
theorem valid_queries_empty_violates (lo hi : List K) : validQueries lo hi lo.length [] = .noQueries := by
  simp [validQueries]

/-! ### clamped knot vectors -/

theorem sorted_take_eq {l : List K} (hs : l.Pairwise (· ≤ ·)) (d : ℕ) (hd : d + 1 ≤ l.length) :
    (∀ k ∈ l.take (d + 1), k = l.headD 0) ↔ d + 1 ≤ l.count (l.headD 0) := by
  cases l with
  | nil => simp at hd
  | cons a l =>
    simp only [List.headD_cons]
    constructor
    · intro h
      have h1 : (a :: l).take (d + 1) = List.replicate (d + 1) a := by
        rw [List.eq_replicate_iff]
        exact ⟨by rw [List.length_take]; omega, h⟩
      have h2 := (List.take_sublist (d + 1) (a :: l)).count_le a
      rw [h1, List.count_replicate_self] at h2
      exact h2
    · intro h k hk
      -- all copies of the smallest knot come first
      by_contra hne
      obtain ⟨i, hi⟩ := List.mem_iff_getElem?.1 hk
      have hid : i < d + 1 := by
        by_contra hge
        rw [List.getElem?_eq_none (by rw [List.length_take]; omega)] at hi; simp at hi
      rw [List.getElem?_take, if_pos hid] at hi
      have hlt : a < k := by
        rcases List.mem_cons.1 (List.mem_of_getElem? hi) with h0 | h0
        · exact absurd h0 hne
        · exact lt_of_le_of_ne ((List.pairwise_cons.1 hs).1 k h0) (fun e => hne e.symm)
      have hsplit : (a :: l) = (a :: l).take i ++ (a :: l).drop i := (List.take_append_drop _ _).symm
      have hcount : (a :: l).count a ≤ i := by
        conv_lhs => rw [hsplit]
        rw [List.count_append]
        have hz : ((a :: l).drop i).count a = 0 := by
          rw [List.count_eq_zero]
          intro hm
          obtain ⟨j, hj⟩ := List.mem_iff_getElem?.1 hm
          rw [List.getElem?_drop] at hj
          have hle : k ≤ a := by
            rcases Nat.eq_or_lt_of_le (Nat.le_add_right i j) with e | e
            · rw [← e, hi] at hj; simp at hj; rw [hj]
            · have hil : i < (a :: l).length := by
                by_contra hge; rw [List.getElem?_eq_none (by omega)] at hi; simp at hi
              have hjl : i + j < (a :: l).length := by
                by_contra hge; rw [List.getElem?_eq_none (by omega)] at hj; simp at hj
              have := List.pairwise_iff_getElem.1 hs i (i+j) hil hjl e
              rw [List.getElem?_eq_getElem hil, Option.some.injEq] at hi
              rw [List.getElem?_eq_getElem hjl, Option.some.injEq] at hj
              rw [hi, hj] at this; exact this
          exact absurd hle (not_le.2 hlt)
        rw [hz, Nat.add_zero]
        exact (List.count_le_length).trans (by rw [List.length_take]; omega)
      omega

theorem count_map_neg (l : List K) (a : K) : (l.map (fun x => -x)).count (-a) = l.count a := by
  induction l with
  | nil => rfl
  | cons b l ih =>
    rw [List.map_cons, List.count_cons, List.count_cons, ih]
    by_cases h : b = a
    · simp [h]
    · simp [h]

/-- C52: `clamped_knot_vectors` is true exactly if, in every knot vector, the first and the last knot occur (at least) degree + 1 times; for non-decreasing knot
vectors with enough knots, whose distinct knots are at least the tolerance apart. -/
theorem clamped_iff (tol : K) (htol : 0 < tol) (degrees : List ℕ) (kvs : List (List K)) (hlen : degrees.length = kvs.length)
    (h : ∀ p ∈ degrees.zip kvs, p.2.Pairwise (· ≤ ·) ∧ p.1 + 1 ≤ p.2.length ∧ ∀ a ∈ p.2, ∀ b ∈ p.2, a ≠ b → tol ≤ |a - b|) :
    clampedKnotVectors tol degrees kvs = true ↔
      ∀ i (h1 : i < degrees.length) (h2 : i < kvs.length),
        degrees[i] + 1 ≤ (kvs[i]).count ((kvs[i]).headD 0) ∧ degrees[i] + 1 ≤ (kvs[i]).count ((kvs[i]).getLastD 0) := by
  have hone : ∀ d : ℕ, ∀ kv : List K, kv.Pairwise (· ≤ ·) → d + 1 ≤ kv.length → (∀ a ∈ kv, ∀ b ∈ kv, a ≠ b → tol ≤ |a - b|) →
      (clamped tol d kv = true ↔ d + 1 ≤ kv.count (kv.headD 0) ∧ d + 1 ≤ kv.count (kv.getLastD 0)) := by
    intro d kv hs hd hsep
    have hne : kv ≠ [] := by intro h0; rw [h0] at hd; simp at hd
    have hclose : ∀ a ∈ kv, ∀ b ∈ kv, (|a - b| < tol ↔ a = b) := by
      intro a ha b hb
      constructor
      · intro hlt; by_contra hne; exact absurd (hsep a ha b hb hne) (not_le.2 hlt)
      · rintro rfl; simpa using htol
    have hhead : kv.headD 0 ∈ kv := by cases kv with
      | nil => exact absurd rfl hne
      | cons a l => simp
    have hlast : kv.getLastD 0 ∈ kv := by
      rw [List.getLastD_eq_getLast?, List.getLast?_eq_some_getLast hne]; exact List.getLast_mem hne
    unfold clamped
    rw [Bool.and_eq_true, List.all_eq_true, List.all_eq_true]
    refine and_congr ?_ ?_
    · rw [← sorted_take_eq hs d hd]
      constructor
      · intro h1 k hk
        have := h1 k hk
        rw [decide_eq_true_eq, hclose k (List.take_subset _ _ hk) _ hhead] at this
        exact this
      · intro h1 k hk
        rw [decide_eq_true_eq, hclose k (List.take_subset _ _ hk) _ hhead]
        exact h1 k hk
    · -- reversed and negated
      have hs' : (kv.reverse.map (fun x => -x)).Pairwise (· ≤ ·) := by
        rw [List.pairwise_map, List.pairwise_reverse]
        exact hs.imp (fun h => neg_le_neg h)
      have h3 := sorted_take_eq hs' d (by simpa using hd)
      have hhd : (kv.reverse.map (fun x => -x)).headD 0 = -(kv.getLastD 0) := by
        rw [List.headD_eq_head?_getD, List.head?_map, List.head?_reverse, List.getLastD_eq_getLast?, List.getLast?_eq_some_getLast hne]; simp
      have hcnt : (kv.reverse.map (fun x => -x)).count (-(kv.getLastD 0)) = kv.count (kv.getLastD 0) := by
        rw [count_map_neg, List.count_reverse]
      rw [hhd, hcnt] at h3
      rw [← h3]
      have hdrop : (kv.reverse.map (fun x => -x)).take (d + 1) = ((kv.drop (kv.length - (d + 1))).reverse).map (fun x => -x) := by
        rw [← List.map_take, List.take_reverse]
      rw [hdrop]
      constructor
      · intro h1 k hk
        rw [List.mem_map] at hk
        obtain ⟨x, hx, rfl⟩ := hk
        rw [List.mem_reverse] at hx
        have := h1 x hx
        rw [decide_eq_true_eq, hclose x (List.drop_subset _ _ hx) _ hlast] at this
        rw [this]
      · intro h1 k hk
        rw [decide_eq_true_eq, hclose k (List.drop_subset _ _ hk) _ hlast]
        exact neg_injective (h1 (-k) (List.mem_map_of_mem (List.mem_reverse.2 hk)))
  unfold clampedKnotVectors
  rw [List.all_eq_true]
  constructor
  · intro hall i h1 h2
    have hm : (degrees[i], kvs[i]) ∈ degrees.zip kvs := by
      rw [List.mem_iff_getElem]
      exact ⟨i, by rw [List.length_zip]; omega, by simp⟩
    obtain ⟨a, b, c⟩ := h _ hm
    exact (hone _ _ a b c).1 (hall _ hm)
  · intro hall p hp
    obtain ⟨a, b, c⟩ := h p hp
    rw [hone _ _ a b c]
    rw [List.mem_iff_getElem] at hp
    obtain ⟨i, hi, rfl⟩ := hp
    rw [List.length_zip] at hi
    have := hall i (by omega) (by omega)
    simpa using this

/-- non-vacuity -/
example : clampedKnotVectors (K := ℚ) (1/1000) [1, 2] [[0, 0, 1/2, 1, 1], [0, 0, 0, 1, 1, 1]] = true ∧
    clampedKnotVectors (K := ℚ) (1/1000) [1, 2] [[0, 0, 1/2, 1, 1], [0, 0, 1/4, 1, 1, 1]] = false := by decide +kernel

end Splinepy.Check
