import Verif.Model.SvgApprox
import Verif.Props.FitSolve
import Verif.Props.Greville
import Verif.Model.Unique
import Mathlib.LinearAlgebra.Matrix.Rank

set_option linter.unusedSectionVars false

/-! C142: curves that SVG cannot express are replaced by fitted cubic splines. -/
namespace Splinepy.SvgApprox

variable {K : Type} [Field K] [LinearOrder K] [IsStrictOrderedRing K]

namespace Spec

/-- Parameters in increasing order, from 0 to 1. -/
structure UnitGrid (q : List K) : Prop where
  increasing : q.Pairwise (· < ·)
  first : q.head? = some 0
  last : q.getLast? = some 1

/-- What is assumed of the libraries: the basis functions are the cubic B-splines, and the solver solves the normal equations. -/
structure Libraries (e : Env K) : Prop where
  basis : ∀ kv n x j, Fit.Spec.IsClampedUnit 3 n kv → 0 ≤ x → x ≤ 1 → e.basis kv n x j = Fit.Spec.value kv 3 n x j
  solver : ∀ r c A b, Fit.Spec.NormalEq r c A b (e.solver r c A b)

/-- coordinate `k` of the cubic spline with these knots and control points -/
def cubic (knots : List K) (n : ℕ) (c : ℕ → K) (x : K) : K := ∑ j ∈ Finset.range n, Fit.Spec.value knots 3 n x j * c j

/-- sum of squared distances of the cubic spline and the curve at the parameters `q` -/
def distance (knots : List K) (n : ℕ) (c : ℕ → K) (curve : K → K) (q : List K) : K := (q.map fun x => (cubic knots n c x - curve x) ^ 2).sum

/-- `f` is a cubic spline with `n` control points on `[0, 1]`; every coordinate starts and ends where the curve does, and among these it is a closest one at the parameters `q`, which determine
cubic splines with these knots. The residual is the norm of the differences. -/
structure BestCubic (norm : (ℕ → K) → K) (point : ℕ → K → K) (q : List K) (n : ℕ) (f : Fitted K) : Prop where
  knots : Fit.Spec.IsClampedUnit 3 n f.knots
  start : ∀ k, f.points k 0 = point k 0
  stop : ∀ k, f.points k (n - 1) = point k 1
  best : ∀ k c, c 0 = point k 0 → c (n - 1) = point k 1 → distance f.knots n (f.points k) (point k) q ≤ distance f.knots n c (point k) q
  determined : ∀ c, (∀ x ∈ q, cubic f.knots n c x = 0) → ∀ j < n, c j = 0
  residual : f.residual = norm fun k => distance f.knots n (f.points k) (point k) q

end Spec

/-- the parameters with the means of neighbours in between -/
def interleave : List K → List K
  | [] => []
  | [a] => [a]
  | a :: b :: l => a :: (a * (1 / 2) + b * (1 / 2)) :: interleave (b :: l)

theorem interleave_perm : ∀ q : List K, (interleave q).Perm (q ++ midpoints q)
  | [] => by simp [interleave, midpoints]
  | [a] => by simp [interleave, midpoints]
  | a :: b :: l => by
    have h := interleave_perm (b :: l)
    simp only [interleave, List.cons_append, List.perm_cons]
    have e : midpoints (a :: b :: l) = (a * (1 / 2) + b * (1 / 2)) :: midpoints (b :: l) := rfl
    rw [e]
    refine (List.Perm.cons _ h).trans ?_
    rw [← List.cons_append]
    exact (List.perm_middle (l₁ := b :: l)).symm

theorem interleave_ge : ∀ (l : List K) (a : K), (a :: l).Pairwise (· < ·) → ∀ x ∈ interleave (a :: l), a ≤ x
  | [], a, _, x, hx => by simp [interleave] at hx; exact hx.ge
  | b :: l, a, h, x, hx => by
    have hab : a < b := (List.pairwise_cons.1 h).1 b (by simp)
    simp only [interleave, List.mem_cons] at hx
    rcases hx with rfl | rfl | hx
    · exact le_refl _
    · linarith
    · have := interleave_ge l b (List.pairwise_cons.1 h).2 x hx
      linarith

theorem interleave_increasing : ∀ q : List K, q.Pairwise (· < ·) → (interleave q).Pairwise (· < ·)
  | [], _ => by simp [interleave]
  | [a], _ => by simp [interleave]
  | a :: b :: l, h => by
    have hab : a < b := (List.pairwise_cons.1 h).1 b (by simp)
    have h' := (List.pairwise_cons.1 h).2
    have hb := interleave_ge l b h'
    simp only [interleave, List.pairwise_cons]
    refine ⟨?_, ?_, interleave_increasing (b :: l) h'⟩
    · intro x hx
      rcases List.mem_cons.1 hx with rfl | hx
      · linarith
      · have := hb x hx; linarith
    · intro x hx
      have := hb x hx; linarith

theorem refine_eq (q : List K) (h : q.Pairwise (· < ·)) : refine q = interleave q := by
  unfold refine
  refine List.Perm.eq_of_pairwise' (r := (· ≤ ·)) (List.pairwise_insertionSort _ _) ((interleave_increasing q h).imp fun h => le_of_lt h) ?_
  exact (List.perm_insertionSort _ _).trans (interleave_perm q).symm

theorem interleave_last : ∀ q : List K, (interleave q).getLast? = q.getLast?
  | [] => rfl
  | [a] => rfl
  | a :: b :: l => by
    have h := interleave_last (b :: l)
    have hne : interleave (b :: l) ≠ [] := by cases l <;> simp [interleave]
    simp only [interleave]
    rw [List.getLast?_cons_cons, List.getLast?_cons, List.getLast?_cons_cons, ← h]
    obtain ⟨y, ys, e⟩ := List.exists_cons_of_ne_nil hne
    rw [e]; simp [List.getLast?_cons]

/-- C142: refined parameters still increase, contain the previous ones and the means of all neighbours, and have the same ends -/
theorem refine_ok (q : List K) (h : Spec.UnitGrid q) :
    Spec.UnitGrid (refine q) ∧ (∀ x ∈ q, x ∈ refine q) ∧ (refine q).length = 2 * q.length - 1 ∧
      ∀ i, i + 1 < q.length → (q.getD i 0 + q.getD (i + 1) 0) / 2 ∈ refine q := by
  have hp : (refine q).Perm (q ++ midpoints q) := List.perm_insertionSort _ _
  refine ⟨⟨?_, ?_, ?_⟩, ?_, ?_, ?_⟩
  · rw [refine_eq q h.increasing]; exact interleave_increasing q h.increasing
  · rw [refine_eq q h.increasing, ← h.first]
    match q with
    | [] => rfl
    | [a] => rfl
    | a :: b :: l => rfl
  · rw [refine_eq q h.increasing, interleave_last, h.last]
  · intro x hx
    exact hp.mem_iff.2 (List.mem_append_left _ hx)
  · rw [hp.length_eq]
    simp only [List.length_append, midpoints, List.length_zipWith, List.length_tail]
    omega
  · intro i hi
    refine hp.mem_iff.2 (List.mem_append_right _ ?_)
    rw [List.mem_iff_getElem]
    refine ⟨i, by simp only [midpoints, List.length_zipWith, List.length_tail]; omega, ?_⟩
    simp only [midpoints, List.getElem_zipWith, List.getElem_tail]
    rw [List.getD_eq_getElem _ _ (by omega), List.getD_eq_getElem _ _ hi]
    ring

theorem grid_get {q : List K} (h : Spec.UnitGrid q) : (∀ i j, i < j → j < q.length → q.getD i 0 < q.getD j 0) ∧ q.getD 0 0 = 0 ∧ q.getD (q.length - 1) 0 = 1 := by
  refine ⟨?_, ?_, ?_⟩
  · intro i j hij hj
    rw [List.getD_eq_getElem _ _ (by omega), List.getD_eq_getElem _ _ hj]
    exact List.pairwise_iff_getElem.1 h.increasing i j (by omega) hj hij
  · have := h.first
    cases q with
    | nil => rfl
    | cons a l => simpa using this
  · have := h.last
    rw [List.getLast?_eq_getElem?] at this
    rw [List.getD_eq_getElem?_getD, this]; rfl

theorem sum_range_getD (q : List K) (g : K → K) : ∑ i ∈ Finset.range q.length, g (q.getD i 0) = (q.map g).sum := by
  conv_rhs => rw [← Fit.range_map_getD q, List.map_map]
  rfl

theorem curveSpline_eq (q knots : List K) (n : ℕ) (hk : knots.length = n + 4) (hn : 3 < n) (hm : n ≤ q.length) :
    Fit.curveSpline q.length (some 3) none (some knots) none q = (Fit.computeKnotVector 3 n q q.length).map fun kv => (3, kv) := by
  unfold Fit.curveSpline Fit.prepareDefault Fit.validateSpecifications
  simp only [Option.map_some, Option.getD_some, hk]
  rw [if_neg (by push_cast; omega), if_neg (by push_cast; omega)]
  have e1 : (((n + 4 : ℕ) : ℤ) - (((n + 4 : ℕ) : ℤ) - 3 - 1) - 1) = 3 := by omega
  have e2 : (((n + 4 : ℕ) : ℤ) - 3 - 1) = n := by omega
  simp only [e1, e2]
  simp

/-- C142: every single fit succeeds and is the best cubic spline with the ends of the curve -/
theorem fitCubic_ok (e : Env K) (he : Spec.Libraries e) (point : ℕ → K → K) (q knots : List K) (n : ℕ) (h : Spec.UnitGrid q) (hk : knots.length = n + 4) (hn : 3 < n) (hm : n ≤ q.length) :
    ∃ f, fitCubic e point q knots = some f ∧ Spec.BestCubic e.norm point q n f := by
  obtain ⟨hu, h0, h1⟩ := grid_get h
  obtain ⟨kv, hkv, hc, hsw⟩ := Fit.fit_knot_vector 3 n q.length (by omega) hn hm (fun i => q.getD i 0) hu h0 h1
  rw [Fit.range_map_getD] at hkv
  have hlen : kv.length - 4 = n := by rw [hc.length]; omega
  unfold fitCubic
  rw [curveSpline_eq q knots n hk hn hm, hkv]
  refine ⟨_, rfl, ?_⟩
  dsimp only
  rw [hlen]
  have hA : ∀ i < q.length, ∀ j, e.basis kv n (q.getD i 0) j = Fit.Spec.value kv 3 n (q.getD i 0) j := by
    intro i hi j
    refine he.basis _ _ _ _ hc ?_ ?_
    · rcases Nat.eq_zero_or_pos i with rfl | hp
      · rw [h0]
      · exact h0.ge.trans (hu _ _ hp hi).le
    · rcases Nat.lt_or_ge i (q.length - 1) with hp | hp
      · exact (hu _ _ hp (by omega)).le.trans h1.le
      · rw [show i = q.length - 1 by omega, h1]
  set A : ℕ → ℕ → K := fun i => e.basis kv n (q.getD i 0) with hAd
  have hrow : ∀ c, ∀ i < q.length, Fit.Spec.evalRow n A c i = Spec.cubic kv n c (q.getD i 0) := by
    intro c i hi
    unfold Fit.Spec.evalRow Spec.cubic
    exact Finset.sum_congr rfl fun j _ => by rw [hAd]; dsimp only; rw [hA i hi]
  have hcost : ∀ (b : K → K) c, Fit.Spec.cost q.length n A (fun i => b (q.getD i 0)) c = Spec.distance kv n c b q := by
    intro b c
    unfold Fit.Spec.cost Spec.distance
    rw [← sum_range_getD q fun x => (Spec.cubic kv n c x - b x) ^ 2]
    exact Finset.sum_congr rfl fun i hi => by rw [hrow c i (Finset.mem_range.1 hi)]
  have hinj : ∀ c : ℕ → K, (∀ i < q.length, Fit.Spec.evalRow n A c i = 0) → ∀ j < n, c j = 0 := by
    intro c hc'
    refine Fit.collocation_injective (by omega) hn hm hc (fun i => q.getD i 0) hu h0 h1 hsw c ?_
    intro i hi
    have := hc' i hi
    rw [hrow c i hi] at this
    exact this
  have hfirst : ∀ j < n, A 0 j = if j = 0 then 1 else 0 := by
    intro j _
    rw [hAd]; dsimp only; rw [hA 0 (by omega), h0, Fit.value_zero hc hn]
  have hlast : ∀ j < n, A (q.length - 1) j = if j = n - 1 then 1 else 0 := by
    intro j _
    rw [hAd]; dsimp only; rw [hA _ (by omega), h1]; unfold Fit.Spec.value; rw [if_pos rfl]
  have hrow0 : ∀ c, Fit.Spec.evalRow n A c 0 = c 0 := by
    intro c
    unfold Fit.Spec.evalRow
    rw [Finset.sum_eq_single 0]
    · rw [hfirst 0 (by omega), if_pos rfl, one_mul]
    · intro j hj hj0
      rw [hfirst j (Finset.mem_range.1 hj), if_neg hj0, zero_mul]
    · intro h; exact absurd (Finset.mem_range.2 (by omega)) h
  have hrow1 : ∀ c, Fit.Spec.evalRow n A c (q.length - 1) = c (n - 1) := by
    intro c
    unfold Fit.Spec.evalRow
    rw [Finset.sum_eq_single (n - 1)]
    · rw [hlast _ (by omega), if_pos rfl, one_mul]
    · intro j hj hj0
      rw [hlast j (Finset.mem_range.1 hj), if_neg hj0, zero_mul]
    · intro h; exact absurd (Finset.mem_range.2 (by omega)) h
  have main : ∀ k, (Fit.solveControlPoints e.solver q.length n A (fun i => point k (q.getD i 0)) (e.memory k) true) 0 = point k 0 ∧
      (Fit.solveControlPoints e.solver q.length n A (fun i => point k (q.getD i 0)) (e.memory k) true) (n - 1) = point k 1 ∧
      ∀ c : ℕ → K, c 0 = point k 0 → c (n - 1) = point k 1 →
        Spec.distance kv n (Fit.solveControlPoints e.solver q.length n A (fun i => point k (q.getD i 0)) (e.memory k) true) (point k) q ≤ Spec.distance kv n c (point k) q := by
    intro k
    rcases Nat.lt_or_eq_of_le hm with hlt | heq
    · obtain ⟨g1, g2, g3⟩ := Fit.fit_endpoints e.solver q.length n (by omega) hlt A (fun i => point k (q.getD i 0)) (e.memory k) hfirst hlast (he.solver _ _ _ _)
      rw [hrow0] at g1
      rw [hrow1] at g2
      refine ⟨by rw [g1, h0], by rw [g2, h1], ?_⟩
      intro c hc0 hc1
      rw [← hcost, ← hcost]
      exact g3 c (by rw [hrow0, hc0, h0]) (by rw [hrow1, hc1, h1])
    · have g := Fit.fit_interpolates e.solver n A (fun i => point k (q.getD i 0)) (e.memory k) true (by rw [heq] at hinj ⊢; exact hinj) (he.solver _ _ _ _)
      rw [← heq]
      refine ⟨(hrow0 _).symm.trans ((g 0 (by omega)).trans (by rw [h0])), ?_, ?_⟩
      · refine (hrow1 _).symm.trans ?_
        rw [← heq]
        refine (g _ (by omega)).trans ?_
        rw [heq, h1]
      · intro c _ _
        rw [← hcost, ← hcost]
        have hz : Fit.Spec.cost q.length n A (fun i => point k (q.getD i 0)) (Fit.solveControlPoints e.solver n n A (fun i => point k (q.getD i 0)) (e.memory k) true) = 0 := by
          unfold Fit.Spec.cost
          refine Finset.sum_eq_zero fun i hi => ?_
          rw [g i (by rw [heq]; exact Finset.mem_range.1 hi)]; ring
        rw [hz]
        exact Finset.sum_nonneg fun i _ => sq_nonneg _
  refine ⟨hc, fun k => (main k).1, fun k => (main k).2.1, fun k => (main k).2.2, ?_, ?_⟩
  · intro c hz
    refine hinj c fun i hi => ?_
    rw [hrow c i hi]
    refine hz _ ?_
    rw [List.getD_eq_getElem _ _ hi]; exact List.getElem_mem hi
  · dsimp only
    congr 1
    funext k
    rw [← hcost]; rfl

theorem insertMiddle_length {n : ℕ} {kv : List K} (h : Fit.Spec.IsClampedUnit 3 n kv) (hn : 3 < n) :
    ∃ n', (insertMiddle kv).length = n' + 4 ∧ n ≤ n' ∧ n' ≤ 2 * n - 1 := by
  have hl := h.length
  have hd : kv.dedup.length ≤ n := by
    rw [← List.card_toFinset]
    have hsub : kv.toFinset ⊆ (Finset.range n).image fun i => kv.getD (i + 3) 0 := by
      intro x hx
      obtain ⟨i, hi, rfl⟩ := List.mem_iff_getElem.1 (List.mem_toFinset.1 hx)
      rw [← List.getD_eq_getElem kv 0 hi, Finset.mem_image]
      rcases Nat.lt_or_ge i 3 with h3 | h3
      · exact ⟨0, Finset.mem_range.2 (by omega), by rw [h.first i (by omega), h.first 3 (by omega)]⟩
      · rcases Nat.lt_or_ge i n with h4 | h4
        · exact ⟨i - 3, Finset.mem_range.2 (by omega), by rw [Nat.sub_add_cancel h3]⟩
        · exact ⟨n - 3, Finset.mem_range.2 (by omega), by rw [Nat.sub_add_cancel (by omega), h.last n (by omega) (by omega), h.last i h4 (by omega)]⟩
    exact (Finset.card_le_card hsub).trans (Finset.card_image_le.trans (by simp))
  refine ⟨n + (kv.dedup.length - 1), ?_, by omega, by omega⟩
  unfold insertMiddle
  rw [List.length_insertionSort, List.length_append, hl]
  simp only [midpoints, List.length_zipWith, List.length_tail]
  omega

/-- the loop: every further fit is possible, and it stops early only if the tolerance is met -/
theorem improve_ok (e : Env K) (he : Spec.Libraries e) (point : ℕ → K → K) (tolerance : K) (fuel : ℕ) (q : List K) (n : ℕ) (f : Fitted K) (hq : Spec.UnitGrid q) (hn : 3 < n) (hm : n ≤ q.length)
    (hf : Spec.BestCubic e.norm point q n f) :
    ∃ g k q' n', improve e point tolerance fuel q f = some (g, k) ∧ Spec.UnitGrid q' ∧ (∀ x ∈ q, x ∈ q') ∧ n ≤ n' ∧ n' ≤ q'.length ∧ Spec.BestCubic e.norm point q' n' g ∧ k ≤ fuel ∧
      (k < fuel → g.residual < tolerance) := by
  induction fuel generalizing q n f with
  | zero => exact ⟨f, 0, q, n, rfl, hq, fun x h => h, le_refl _, hm, hf, le_refl _, by omega⟩
  | succ fuel ih =>
    by_cases ht : f.residual < tolerance
    · exact ⟨f, 0, q, n, by unfold improve; rw [if_pos ht], hq, fun x h => h, le_refl _, hm, hf, by omega, fun _ => ht⟩
    · obtain ⟨hr, hsub, hlen, _⟩ := refine_ok q hq
      obtain ⟨n', hl, h1, h2⟩ := insertMiddle_length hf.knots hn
      obtain ⟨g, hg, hb⟩ := fitCubic_ok e he point (refine q) (insertMiddle f.knots) n' hr hl (by omega) (by omega)
      obtain ⟨g', k, q', n'', hi, a1, a2, a3, a4, a5, a6, a7⟩ := ih (refine q) n' g hr (by omega) (by omega) hb
      refine ⟨g', k + 1, q', n'', ?_, a1, fun x hx => a2 x (hsub x hx), by omega, a4, a5, by omega, fun h => a7 (by omega)⟩
      unfold improve
      rw [if_neg ht, hg, Option.bind_some, hi]; rfl

theorem repeatKnots_length : ∀ (unique : List K) (mult : List ℤ), unique.length = mult.length → (∀ m ∈ mult, 0 ≤ m) → ((repeatKnots unique mult).length : ℤ) = mult.sum
  | [], [], _, _ => by simp [repeatKnots]
  | u :: us, m :: ms, h, hp => by
    have ih := repeatKnots_length us ms (by simpa using h) fun x hx => hp x (by simp [hx])
    have h0 := hp m (by simp)
    unfold repeatKnots at ih ⊢
    simp only [List.zipWith_cons_cons, List.flatten_cons, List.length_append, List.length_replicate, List.sum_cons]
    push_cast
    rw [ih]
    omega

/-- inner part of the multiplicities -/
theorem inner_sum (p : ℕ) : ∀ inner : List ℤ, (∀ m ∈ inner, 1 ≤ m ∧ m ≤ p) →
    (inner.length : ℤ) ≤ (inner.map fun m => max 1 (3 - (p : ℤ) + m)).sum ∧ (3 ≤ p → (inner.map fun m => max 1 (3 - (p : ℤ) + m)).sum ≤ inner.sum) ∧
      (p = 2 → (inner.map fun m => max 1 (3 - (p : ℤ) + m)).sum ≤ 2 * inner.sum) ∧ (0 : ℤ) ≤ inner.sum
  | [], _ => by simp
  | m :: l, h => by
    obtain ⟨h1, h2, h3, h4⟩ := inner_sum p l fun x hx => h x (by simp [hx])
    have := h m (by simp)
    simp only [List.length_cons, List.map_cons, List.sum_cons]
    push_cast
    refine ⟨?_, ?_, ?_, ?_⟩
    · have : (1 : ℤ) ≤ max 1 (3 - (p : ℤ) + m) := le_max_left _ _
      linarith
    · intro hp
      have h5 := h2 hp
      have : max 1 (3 - (p : ℤ) + m) ≤ m := max_le (by omega) (by omega)
      linarith
    · intro hp
      have h5 := h3 hp
      have : max 1 (3 - (p : ℤ) + m) ≤ 2 * m := max_le (by omega) (by omega)
      linarith
    · linarith

theorem newMultiplicities_eq (p : ℕ) (a b : ℤ) (inner : List ℤ) : newMultiplicities p (a :: inner ++ [b]) = 4 :: (inner.map fun m => max 1 (3 - (p : ℤ) + m)) ++ [4] := by
  unfold newMultiplicities
  apply List.ext_getElem
  · simp
  · intro i h1 h2
    simp only [List.length_mapIdx, List.length_append, List.length_cons, List.length_nil] at h1
    rw [List.getElem_mapIdx]
    rcases Nat.eq_zero_or_pos i with rfl | hp
    · simp
    · obtain ⟨i, rfl⟩ : ∃ i', i = i' + 1 := ⟨i - 1, by omega⟩
      simp only [List.cons_append, List.getElem_cons_succ, List.length_cons, List.length_append, List.length_nil]
      rcases Nat.lt_or_ge i inner.length with hi | hi
      · rw [if_neg (by omega), List.getElem_append_left hi, List.getElem_append_left (by simpa using hi)]
        simp
      · rw [if_pos (by omega)]
        have : i = inner.length := by omega
        subst this
        rw [List.getElem_append_right (by simp)]
        simp

/-- C142: a curve that SVG cannot express, with the parameters from 0 to 1. `1 ≤ m ≤ p`: the curve is continuous. -/
theorem approximate_ok (e : Env K) (he : Spec.Libraries e) (point : ℕ → K → K) (tolerance : K) (p : ℕ) (rational : Bool) (greville unique : List K) (inner : List ℤ)
    (hfit : needsFit p rational = true) (hg : Spec.UnitGrid greville) (hu : unique.length = inner.length + 2) (hi : ∀ m ∈ inner, 1 ≤ m ∧ m ≤ p)
    (hN : (greville.length : ℤ) = (((p : ℤ) + 1) :: inner ++ [(p : ℤ) + 1]).sum - p - 1) :
    ∃ f fits warned q n, approximate e point tolerance p rational greville unique (((p : ℤ) + 1) :: inner ++ [(p : ℤ) + 1]) = some (f, fits, warned) ∧
      Spec.UnitGrid q ∧ (∀ x ∈ greville, x ∈ q) ∧ n ≤ q.length ∧ Spec.BestCubic e.norm point q n f ∧ 1 ≤ fits ∧ fits ≤ 5 ∧
      (warned = true ↔ tolerance < f.residual) ∧ (fits < 5 → f.residual < tolerance) := by
  have hp : 3 < p ∨ (rational = true ∧ 1 < p) := by
    unfold needsFit at hfit
    cases rational <;> simp at hfit ⊢ <;> omega
  obtain ⟨s1, s2, s3, s4⟩ := inner_sum p inner hi
  have hsum : (((p : ℤ) + 1) :: inner ++ [(p : ℤ) + 1]).sum = 2 * p + 2 + inner.sum := by simp; ring
  rw [hsum] at hN
  set S := (inner.map fun m => max 1 (3 - (p : ℤ) + m)).sum with hS
  have hlen : ((repeatKnots unique (newMultiplicities p (((p : ℤ) + 1) :: inner ++ [(p : ℤ) + 1]))).length : ℤ) = 8 + S := by
    rw [newMultiplicities_eq, repeatKnots_length]
    · simp [← hS]; ring
    · simp [hu]
    · intro m hm
      simp only [List.cons_append, List.mem_cons, List.mem_append, List.mem_map, List.not_mem_nil, or_false] at hm
      rcases hm with rfl | ⟨x, _, rfl⟩ | rfl
      · norm_num
      · exact le_trans zero_le_one (le_max_left _ _)
      · norm_num
  obtain ⟨n, hn⟩ : ∃ n : ℕ, (n : ℤ) = 4 + S := ⟨(4 + S).toNat, by omega⟩
  have hq : Spec.UnitGrid (firstQueries p rational greville) ∧ (∀ x ∈ greville, x ∈ firstQueries p rational greville) ∧ n ≤ (firstQueries p rational greville).length := by
    obtain ⟨r1, r2, r3, _⟩ := refine_ok greville hg
    unfold firstQueries
    by_cases hc : (rational && decide (p < 3)) = true
    · rw [if_pos hc]
      refine ⟨r1, r2, ?_⟩
      have : p < 3 := by simp at hc; exact hc.2
      have h3 := s3 (by omega)
      omega
    · rw [if_neg hc]
      refine ⟨hg, fun x h => h, ?_⟩
      have : 3 ≤ p := by
        rcases hp with h | ⟨h, h'⟩
        · omega
        · simp [h] at hc; omega
      have h2 := s2 this
      omega
  obtain ⟨f, hf, hb⟩ := fitCubic_ok e he point _ (repeatKnots unique (newMultiplicities p (((p : ℤ) + 1) :: inner ++ [(p : ℤ) + 1]))) n hq.1 (by omega) (by omega) hq.2.2
  obtain ⟨g, k, q', n', a0, a1, a2, a3, a4, a5, a6, a7⟩ := improve_ok e he point tolerance 4 _ n f hq.1 (by omega) hq.2.2 hb
  refine ⟨g, k + 1, decide (tolerance < g.residual), q', n', ?_, a1, fun x hx => a2 x (hq.2.1 x hx), a4, a5, by omega, by omega, by simp, fun h => a7 (by omega)⟩
  unfold approximate
  dsimp only
  unfold repeatChecked
  rw [if_pos (by rw [newMultiplicities_eq]; simp [hu]), Option.bind_some, hf, Option.bind_some, a0]; rfl

/-! ### splines with knot vectors -/

theorem mem_repeat : ∀ (us : List K) (ms : List ℤ) (x : K), x ∈ repeatKnots us ms → x ∈ us
  | [], _, x, h => by simp [repeatKnots] at h
  | u :: us, [], x, h => by simp [repeatKnots] at h
  | u :: us, m :: ms, x, h => by
    unfold repeatKnots at h
    simp only [List.zipWith_cons_cons, List.flatten_cons, List.mem_append, List.mem_replicate] at h
    rcases h with h | h
    · simp [h.2]
    · exact List.mem_cons_of_mem _ (mem_repeat us ms x h)

theorem repeat_sorted : ∀ (us : List K) (ms : List ℤ), us.Pairwise (· < ·) → (repeatKnots us ms).Pairwise (· ≤ ·)
  | [], _, _ => by simp [repeatKnots]
  | u :: us, [], _ => by simp [repeatKnots]
  | u :: us, m :: ms, h => by
    have ih := repeat_sorted us ms (List.pairwise_cons.1 h).2
    have e : repeatKnots (u :: us) (m :: ms) = List.replicate m.toNat u ++ repeatKnots us ms := by
      unfold repeatKnots; simp
    rw [e, List.pairwise_append]
    refine ⟨List.pairwise_replicate.2 (Or.inr (le_refl u)), ih, ?_⟩
    intro a ha b hb
    rw [(List.mem_replicate.1 ha).2]
    exact ((List.pairwise_cons.1 h).1 b (mem_repeat us ms b hb)).le

theorem repeat_ends (p : ℕ) (us : List K) (inner : List ℤ) (h : us.length = inner.length) :
    repeatKnots (0 :: us ++ [1]) (((p : ℤ) + 1) :: inner ++ [(p : ℤ) + 1]) = List.replicate (p + 1) 0 ++ repeatKnots us inner ++ List.replicate (p + 1) 1 := by
  unfold repeatKnots
  simp only [List.cons_append, List.zipWith_cons_cons, List.flatten_cons]
  rw [List.zipWith_append h]
  simp only [List.flatten_append, List.zipWith_cons_cons, List.zipWith_nil_right, List.flatten_cons, List.flatten_nil, List.append_nil, List.append_assoc]
  have : ((p : ℤ) + 1).toNat = p + 1 := by omega
  rw [this]

theorem ends_getD (p : ℕ) (mid : List K) (i : ℕ) : (List.replicate (p + 1) (0 : K) ++ mid ++ List.replicate (p + 1) 1).getD i 0 =
    if i ≤ p then 0 else if i ≤ p + mid.length then mid.getD (i - p - 1) 0 else if i ≤ 2 * p + 1 + mid.length then 1 else 0 := by
  rw [List.getD_eq_getElem?_getD, List.append_assoc, List.getElem?_append]
  simp only [List.length_replicate]
  by_cases h1 : i ≤ p
  · rw [if_pos (by omega), if_pos h1, List.getElem?_replicate_of_lt (by omega)]; rfl
  · rw [if_neg (by omega), if_neg h1, List.getElem?_append]
    by_cases h2 : i ≤ p + mid.length
    · rw [if_pos (by omega), if_pos h2, List.getD_eq_getElem?_getD]; rfl
    · rw [if_neg (by omega), if_neg h2]
      by_cases h3 : i ≤ 2 * p + 1 + mid.length
      · rw [if_pos h3, List.getElem?_replicate_of_lt (by omega)]; rfl
      · rw [if_neg h3, List.getElem?_eq_none (by simp; omega)]; rfl

/-- C142 for a (rational) spline of degree `p` with knots `0 = u 0 < u 1 < … = 1`, continuous, and any positive tolerance for close Greville abscissae. -/
theorem approximate_bspline (e : Env K) (he : Spec.Libraries e) (point : ℕ → K → K) (tolerance tol : K) (htol : 0 < tol) (p : ℕ) (rational : Bool) (us : List K) (inner : List ℤ)
    (hfit : needsFit p rational = true) (hu : (0 :: us ++ [1]).Pairwise (· < ·)) (hlen : us.length = inner.length) (hi : ∀ m ∈ inner, 1 ≤ m ∧ m ≤ p) :
    ∃ f fits warned q n,
      approximate e point tolerance p rational (Greville.greville (repeatKnots (0 :: us ++ [1]) (((p : ℤ) + 1) :: inner ++ [(p : ℤ) + 1])) p tol) (0 :: us ++ [1])
        (((p : ℤ) + 1) :: inner ++ [(p : ℤ) + 1]) = some (f, fits, warned) ∧
      Spec.UnitGrid q ∧ n ≤ q.length ∧ Spec.BestCubic e.norm point q n f ∧ 1 ≤ fits ∧ fits ≤ 5 ∧
      (warned = true ↔ tolerance < f.residual) ∧ (fits < 5 → f.residual < tolerance) := by
  have hp : 1 < p := by
    unfold needsFit at hfit
    cases rational <;> simp at hfit <;> omega
  have hkl := repeatKnots_length (0 :: us ++ [(1 : K)]) (((p : ℤ) + 1) :: inner ++ [(p : ℤ) + 1]) (by simp [hlen]) (by
    intro m hm
    simp only [List.cons_append, List.mem_cons, List.mem_append, List.not_mem_nil, or_false] at hm
    rcases hm with rfl | h | rfl
    · omega
    · have := (hi m h).1; omega
    · omega)
  have hsorted := repeat_sorted _ (((p : ℤ) + 1) :: inner ++ [(p : ℤ) + 1]) hu
  have hmid : ∀ x ∈ repeatKnots us inner, 0 < x ∧ x < 1 := by
    intro x hx
    have hx' := mem_repeat _ _ _ hx
    rw [List.cons_append, List.pairwise_cons, List.pairwise_append] at hu
    exact ⟨hu.1 x (List.mem_append_left _ hx'), hu.2.2.2 x hx' 1 (by simp)⟩
  rw [repeat_ends p us inner hlen] at hkl hsorted ⊢
  set mid := repeatKnots us inner with hm
  set kv := List.replicate (p + 1) (0 : K) ++ mid ++ List.replicate (p + 1) 1 with hkvd
  have hl : kv.length = 2 * p + 2 + mid.length := by rw [hkvd]; simp; omega
  have hget : ∀ i, kv.getD i 0 = if i ≤ p then 0 else if i ≤ p + mid.length then mid.getD (i - p - 1) 0 else if i ≤ 2 * p + 1 + mid.length then 1 else 0 := ends_getD p mid
  have hmg : ∀ j < mid.length, 0 < mid.getD j 0 ∧ mid.getD j 0 < 1 := by
    intro j hj
    rw [List.getD_eq_getElem _ _ hj]; exact hmid _ (List.getElem_mem hj)
  have hk : Greville.Spec.IsKnotVector kv p := ⟨hsorted, by omega, by omega⟩
  have hc : Greville.Spec.Clamped kv p := by
    constructor
    · intro i hi'
      rw [hget, hget, if_pos hi', if_pos (le_refl _)]
    · intro i h1 h2
      rw [hget, hget, if_neg (by omega), if_neg (by omega), if_pos (by omega), if_neg (by omega), if_neg (by omega), if_pos (by omega)]
  have hb : Greville.bounds kv p = (0, 1) := by
    unfold Greville.bounds
    rw [hget, hget, if_pos (le_refl _), if_neg (by omega), if_neg (by omega), if_pos (by omega)]
  obtain ⟨g1, g2, _⟩ := Greville.greville_bounds kv p tol hk hc
  rw [hb] at g1 g2
  have hd := Greville.greville_distinct kv p tol hk htol (by
      rw [hget, hget, if_pos (by omega), if_neg (by omega)]
      by_cases h : p + 1 ≤ p + mid.length
      · rw [if_pos h]; exact (hmg _ (by omega)).1
      · rw [if_neg h, if_pos (by omega)]; exact zero_lt_one) (by
      rw [hget (kv.length - 2), if_neg (by omega), if_neg (by omega), if_pos (by omega), hget]
      by_cases h : kv.length - p - 2 ≤ p
      · rw [if_pos h]; exact zero_lt_one
      · rw [if_neg h, if_pos (by omega)]; exact (hmg _ (by omega)).2)
  obtain ⟨f, fits, warned, q, n, a0, a1, a2, a3⟩ := approximate_ok e he point tolerance p rational (Greville.greville kv p tol) (0 :: us ++ [1]) inner hfit ⟨hd, g1, g2⟩ (by simp [hlen]) hi (by
    rw [(Greville.greville_sorted kv p tol hk).1, ← hkl]
    omega)
  exact ⟨f, fits, warned, q, n, a0, a1, a3⟩

/-! ### what goes wrong -/

theorem best_knots_simple {norm : (ℕ → K) → K} {point : ℕ → K → K} {q : List K} {n : ℕ} {f : Fitted K} (h : Spec.BestCubic norm point q n f) (i j : ℕ) (hij : i < j) (hl : j < f.knots.length)
    (h0 : 0 < f.knots.getD i 0) (h1 : f.knots.getD j 0 < 1) : f.knots.getD i 0 < f.knots.getD j 0 := by
  have hk := h.knots
  have hi : 3 < i := by
    by_contra hc
    rw [hk.first i (by omega)] at h0
    exact lt_irrefl _ h0
  have hj : j < n := by
    by_contra hc
    rw [hk.last j (by omega) (by rw [hk.length] at hl; omega)] at h1
    exact lt_irrefl _ h1
  exact (hk.strict i hi (by omega)).trans_le (hk.sorted (i + 1) j hij (by omega))

/-- C142 is false for corners ("Continuity will be preserved"): whatever the multiplicities of the knots of the curve, also `m = p` (a corner), every knot inside of the fitted cubic spline occurs
only once, so it is twice continuously differentiable. -/
theorem corner_violates (e : Env K) (he : Spec.Libraries e) (point : ℕ → K → K) (tolerance tol : K) (htol : 0 < tol) (p : ℕ) (rational : Bool) (us : List K) (inner : List ℤ)
    (hfit : needsFit p rational = true) (hu : (0 :: us ++ [1]).Pairwise (· < ·)) (hlen : us.length = inner.length) (hi : ∀ m ∈ inner, 1 ≤ m ∧ m ≤ p) :
    ∃ f fits warned,
      approximate e point tolerance p rational (Greville.greville (repeatKnots (0 :: us ++ [1]) (((p : ℤ) + 1) :: inner ++ [(p : ℤ) + 1])) p tol) (0 :: us ++ [1])
        (((p : ℤ) + 1) :: inner ++ [(p : ℤ) + 1]) = some (f, fits, warned) ∧
      ∀ i j, i < j → j < f.knots.length → 0 < f.knots.getD i 0 → f.knots.getD j 0 < 1 → f.knots.getD i 0 < f.knots.getD j 0 := by
  obtain ⟨f, fits, warned, q, n, a0, _, _, a3, _⟩ := approximate_bspline e he point tolerance tol htol p rational us inner hfit hu hlen hi
  exact ⟨f, fits, warned, a0, fun i j hij hl h0 h1 => best_knots_simple a3 i j hij hl h0 h1⟩

theorem mem_of_mapM {α β : Type} {f : α → Option β} : ∀ {l : List α} {r : List β}, l.mapM f = some r → ∀ {x}, x ∈ r → ∃ a ∈ l, f a = some x
  | [], r, h, x, hx => by
    simp at h; subst h; exact absurd hx (by simp)
  | a :: l, r, h, x, hx => by
    rw [List.mapM_cons] at h
    obtain ⟨y, hy, h⟩ := Option.bind_eq_some_iff.1 h
    obtain ⟨ys, hys, h⟩ := Option.bind_eq_some_iff.1 h
    obtain rfl := Option.some.inj h
    rcases List.mem_cons.1 hx with rfl | hx
    · exact ⟨a, by simp, hy⟩
    · obtain ⟨b, hb, e⟩ := mem_of_mapM hys hx
      exact ⟨b, by simp [hb], e⟩

theorem flatAt_mem (u : List K) (i : ℤ) (x : K) (h : Fit.flatAt u i = some x) : x ∈ u := by
  unfold Fit.flatAt at h
  split at h
  · exact List.mem_of_getElem? h
  · split at h
    · exact List.mem_of_getElem? h
    · exact absurd h (by simp)

theorem approxKnot_gt (u : List K) (m q j : ℕ) (x : K) (hq : 0 < q) (hu : ∀ y ∈ u, 1 < y) (h : Fit.approxKnot u m q j = some x) : 1 < x := by
  unfold Fit.approxKnot at h
  dsimp only at h
  split at h
  · rename_i a b ha hb
    have ha' := hu a (flatAt_mem u _ a ha)
    have hb' := hu b (flatAt_mem u _ b hb)
    have hqK : (0 : K) < q := by exact_mod_cast hq
    have h0 : (0 : K) ≤ ((j * m % q : ℕ) : K) / (q : K) := by positivity
    have h1 : ((j * m % q : ℕ) : K) / (q : K) ≤ 1 := by
      rw [div_le_one hqK]; exact_mod_cast (Nat.mod_lt _ hq).le
    have hx := Option.some.inj h
    rw [← hx]
    generalize ((j * m % q : ℕ) : K) / (q : K) = t at h0 h1
    rcases h0.lt_or_eq with ht | ht
    · nlinarith [mul_nonneg (sub_nonneg.2 h1) (sub_nonneg.2 ha'.le), mul_pos ht (sub_pos.2 hb')]
    · rw [← ht]; linarith
  · exact absurd h (by simp)

/-- C142 is false for curves with other parameters: whatever the parameters of the curve are, the fitted spline has the parameters 0 to 1. If those of the curve are above 1 and there are knots
inside, the knot vector of the fit is not even sorted. -/
theorem domain_violates (q knots kv : List K) (n d : ℕ) (hk : knots.length = n + 4) (hn : 3 < n) (hm : n ≤ q.length)
    (h : Fit.curveSpline q.length (some 3) none (some knots) none q = some (d, kv)) :
    kv.getD 3 0 = 0 ∧ kv.getD n 0 = 1 ∧ (4 < n → (∀ x ∈ q, 1 < x) → kv.getD n 0 < kv.getD 4 0) := by
  rw [curveSpline_eq q knots n hk hn hm, Option.map_eq_some_iff] at h
  obtain ⟨kv', h, e⟩ := h
  obtain ⟨_, rfl⟩ := Prod.mk.inj e
  have hlen := (Fit.given_knot_vector_partial q.length 3 none knots q 3 kv' ((curveSpline_eq q knots n hk hn hm).trans (by rw [h]; rfl))).2
  unfold Fit.computeKnotVector at h
  dsimp only at h
  obtain ⟨mid, hmid, rfl⟩ := Option.map_eq_some_iff.1 h
  simp only [List.length_append, List.length_replicate] at hlen
  have hl : mid.length = n - 4 := by omega
  have hg := ends_getD 3 mid
  refine ⟨by rw [hg, if_pos (le_refl _)], by rw [hg, if_neg (by omega), if_neg (by omega), if_pos (by omega)], ?_⟩
  intro hn4 hq
  rw [hg n, if_neg (by omega), if_neg (by omega), if_pos (by omega), hg 4, if_neg (by omega), if_pos (by omega)]
  have hmem : mid.getD (4 - 3 - 1) 0 ∈ mid := by
    rw [List.getD_eq_getElem _ _ (by omega)]; exact List.getElem_mem _
  generalize mid.getD (4 - 3 - 1) 0 = x at hmem ⊢
  split at hmid
  · rw [if_neg (by omega)] at hmid
    split at hmid
    · obtain rfl := Option.some.inj hmid
      unfold Fit.averages at hmem
      obtain ⟨y, hy, rfl⟩ := List.mem_map.1 hmem
      have hy' := List.mem_of_mem_tail (List.mem_of_mem_dropLast hy)
      obtain ⟨j, hj, rfl⟩ := List.mem_map.1 hy'
      have hj' := List.mem_range.1 hj
      have hb : ∀ l < 3, 1 < q.getD (j + l) 0 := by
        intro l hl'
        rw [List.getD_eq_getElem _ _ (by omega)]; exact hq _ (List.getElem_mem _)
      have b0 := hb 0 (by omega)
      have b1 := hb 1 (by omega)
      have b2 := hb 2 (by omega)
      rw [lt_div_iff₀ (by norm_num)]
      simp only [Finset.sum_range_succ, Finset.sum_range_zero]
      push_cast
      linarith
    · exact absurd hmid (by simp)
  · obtain ⟨j, _, hj⟩ := mem_of_mapM hmid hmem
    exact approxKnot_gt q q.length (n - 3) _ x (by omega) hq hj

theorem uniqueFrom_length {α : Type} (same : α → α → Bool) : ∀ (l : List α) (a : α), (Unique.uniqueFrom same a l).length ≤ l.length
  | [], _ => le_refl _
  | x :: xs, a => by
    unfold Unique.uniqueFrom
    split
    · exact (uniqueFrom_length same xs a).trans (by simp)
    · simpa using uniqueFrom_length same xs x

/-- C142 is false for knot vectors that are not clamped: with fewer than `2 p` repetitions among the knots, e.g. distinct knots, there are more multiplicities than knots of the domain, and the export raises. -/
theorem unclamped_violates (e : Env K) (point : ℕ → K → K) (tolerance eps : K) (p : ℕ) (rational : Bool) (greville kv : List K) (mult : List ℤ) (h2 : 2 * p < kv.length)
    (hm : kv.length < mult.length + 2 * p) : approximate e point tolerance p rational greville (Unique.uniqueKnots eps kv p) mult = none := by
  have hl : (Unique.uniqueKnots eps kv p).length ≤ kv.length - 2 * p := by
    unfold Unique.uniqueKnots
    have hle : ((kv.drop p).take (kv.length - 2 * p)).length ≤ kv.length - 2 * p := by simp
    generalize (kv.drop p).take (kv.length - 2 * p) = l at hle ⊢
    cases l with
    | nil => simp [Unique.stdUnique]
    | cons a l => exact (Nat.succ_le_succ (uniqueFrom_length _ l a)).trans hle
  unfold approximate repeatChecked
  dsimp only
  rw [if_neg (by simp only [newMultiplicities, List.length_mapIdx]; omega)]; rfl

/-! ### concrete cases -/

/-- a knot vector of a curve of degree two that is not clamped, its multiplicities and its knots in the domain -/
example : 2 * 2 < ([0, 1, 2, 3, 4, 5, 6] : List ℚ).length ∧ ([0, 1, 2, 3, 4, 5, 6] : List ℚ).length < ([1, 1, 1, 1, 1, 1, 1] : List ℤ).length + 2 * 2 ∧
    Unique.uniqueKnots (1/1000) ([0, 1, 2, 3, 4, 5, 6] : List ℚ) 2 = [2, 3, 4] := by decide +kernel

/-- a rational curve of degree two with a corner -/
example : needsFit 2 true = true ∧ ((0 : ℚ) :: [1/2] ++ [1]).Pairwise (· < ·) ∧ [(1/2 : ℚ)].length = [(2 : ℤ)].length ∧ (∀ m ∈ [(2 : ℤ)], 1 ≤ m ∧ m ≤ ((2 : ℕ) : ℤ)) ∧
    repeatKnots ((0 : ℚ) :: [1/2] ++ [1]) [3, 2, 3] = [0, 0, 0, 1/2, 1/2, 1, 1, 1] ∧
    repeatKnots ((0 : ℚ) :: [1/2] ++ [1]) (newMultiplicities 2 [3, 2, 3]) = [0, 0, 0, 0, 1/2, 1/2, 1/2, 1, 1, 1, 1] ∧
    firstQueries 2 true (Greville.greville ([0, 0, 0, 1/2, 1/2, 1, 1, 1] : List ℚ) 2 (1/1000)) = [0, 1/8, 1/4, 3/8, 1/2, 5/8, 3/4, 7/8, 1] := by
  decide +kernel

/-- the knots of the first fit of this curve: 1/2 does not occur -/
example : Fit.curveSpline 9 (some 3) none (some ([0, 0, 0, 0, 1/2, 1/2, 1/2, 1, 1, 1, 1] : List ℚ)) none [0, 1/8, 1/4, 3/8, 1/2, 5/8, 3/4, 7/8, 1]
    = some (3, [0, 0, 0, 0, 5/32, 7/16, 23/32, 1, 1, 1, 1]) := by decide +kernel

/-- a curve of degree four with knots from 2 to 3 -/
example : Fit.curveSpline 6 (some 3) none (some ([2, 2, 2, 2, 5/2, 3, 3, 3, 3] : List ℚ)) none [2, 17/8, 9/4, 11/4, 23/8, 3]
    = some (3, [0, 0, 0, 0, 9/4, 1, 1, 1, 1]) := by decide +kernel

example : Spec.UnitGrid ([0, 1/3, 1] : List ℚ) := ⟨by decide +kernel, rfl, rfl⟩

/-- the normal equations always have a solution, so there are solvers as assumed -/
theorem normal_solvable (r c : ℕ) (A : ℕ → ℕ → K) (b : ℕ → K) : ∃ x, Fit.Spec.NormalEq r c A b x := by
  let M : Matrix (Fin r) (Fin c) K := fun i j => A i j
  have hle : LinearMap.range (M.transpose * M).mulVecLin ≤ LinearMap.range M.transpose.mulVecLin := by
    rintro _ ⟨x, rfl⟩
    exact ⟨M.mulVec x, by simp [Matrix.mulVec_mulVec]⟩
  have heq := Submodule.eq_of_le_of_finrank_eq hle (by
    have h := M.rank_transpose_mul_self
    have h' := M.rank_transpose
    unfold Matrix.rank at h h'
    rw [h, h'])
  have hb : M.transpose.mulVec (fun i => b i) ∈ LinearMap.range (M.transpose * M).mulVecLin := by
    rw [heq]; exact ⟨fun i => b i, rfl⟩
  obtain ⟨x, hx⟩ := hb
  rw [Matrix.mulVecLin_apply, ← Matrix.mulVec_mulVec] at hx
  refine ⟨fun j => if h : j < c then x ⟨j, h⟩ else 0, ?_⟩
  intro j hj
  have h := congrFun hx ⟨j, hj⟩
  simp only [Matrix.mulVec, dotProduct] at h
  change ∑ i : Fin r, A i j * ∑ k : Fin c, A i k * x k = ∑ i : Fin r, A i j * b i at h
  unfold Fit.Spec.evalRow
  simp only [mul_sub, Finset.sum_sub_distrib, Finset.sum_range]
  rw [sub_eq_zero]
  simpa using h

/-- the libraries exist -/
theorem libraries_exist : ∃ e : Env K, Spec.Libraries e :=
  ⟨⟨fun r c A b => (normal_solvable r c A b).choose, fun kv n => Fit.Spec.value kv 3 n, fun _ _ => 0, fun _ => 0⟩, fun _ _ _ _ _ _ _ => rfl, fun r c A b => (normal_solvable r c A b).choose_spec⟩

/-- C142: fitted are exactly the curves that SVG cannot express, i.e. those of degree above three and the rational ones of degree above one. -/
theorem needsFit_iff (p : ℕ) (rational : Bool) : needsFit p rational = true ↔ 3 < p ∨ (rational = true ∧ 1 < p) := by
  cases rational <;> simp [needsFit] <;> omega

example : needsFit 4 false = true ∧ needsFit 2 true = true ∧ needsFit 3 false = false ∧ needsFit 1 true = false := by decide

end Splinepy.SvgApprox
