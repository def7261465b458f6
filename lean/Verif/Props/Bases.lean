import Verif.Model.Bases
import Verif.Props.CreateView
import Mathlib.Algebra.BigOperators.Field

/-!
C92: the splines of `extract.bases` have the basis functions as last coordinate.
-/
set_option linter.unusedSectionVars false
namespace Splinepy.Bases
open Splinepy.Spec Finset
open Splinepy.Index (Spline)

variable {K : Type} [Field K] [LinearOrder K] [IsStrictOrderedRing K]

/-! ### Specification -/

/-- Tensor product of the basis functions with the multi index of control point `i`. -/
def Spec.tensorBasis (s : Spline K (List K)) (u : List K) (i : ℕ) : K := basisProduct (basisValues s u) (digits (netSize s) i)

/-- Basis function of control point `i`: weighted and divided by the sum for rational splines. -/
def Spec.basisFunction (s : Spline K (List K)) (u : List K) (i : ℕ) : K :=
  match s.weights with
  | none => tensorBasis s u i
  | some ws => ws.getD i 0 * tensorBasis s u i / ∑ j ∈ range s.controlPoints.length, ws.getD j 0 * tensorBasis s u j

/-! ### Proof -/

theorem value_indicator {s : Spline K (List K)} (hs : ValidSpline s) {u : List K} (hu : InDomain s u) {i : ℕ} (hi : i < s.controlPoints.length) :
    value s (fun j => if j = i then 1 else 0) u = Spec.basisFunction s u i := by
  rw [hs.net] at hi
  rw [value_eq hs hu]
  have h1 : num s (fun j => if j = i then 1 else 0) u = Spec.tensorBasis s u i * weightAt s i := by
    unfold num
    rw [sum_eq_single i]
    · simp [Spec.tensorBasis]
    · intro j _ hj; simp [hj]
    · intro h; exact absurd (mem_range.2 hi) h
  rw [h1]
  unfold Spec.basisFunction
  cases hw : s.weights with
  | none =>
    have h2 : num s (fun _ => 1) u = 1 := by
      unfold num weightAt
      rw [hw]
      simp only [mul_one]
      exact basisValues_sum hs.dirs hu
    rw [h2, div_one]
    simp [weightAt, hw]
  | some ws =>
    simp only
    congr 1
    · simp [weightAt, hw, mul_comm]
    · unfold num
      rw [hs.net]
      apply sum_congr rfl
      intro j _
      simp [weightAt, hw, Spec.tensorBasis, mul_comm]

/-- A spline with other control points has the same basis. -/
theorem basisFunction_congr {s r : Spline K (List K)} (h1 : r.degrees = s.degrees) (h2 : r.knotVectors = s.knotVectors) (h3 : r.weights = s.weights)
    (h4 : r.controlPoints.length = s.controlPoints.length) (u : List K) (i : ℕ) : Spec.basisFunction r u i = Spec.basisFunction s u i := by
  have hd : directions r = directions s := by unfold directions; rw [h1, h2]
  have ht : ∀ j, Spec.tensorBasis r u j = Spec.tensorBasis s u j := by
    intro j
    unfold Spec.tensorBasis basisValues netSize
    rw [hd]
  unfold Spec.basisFunction
  rw [h3, h4]
  simp only [ht]

theorem setLast_spec {s : Spline K (List K)} {m : ℕ} (hs : ValidSpline s) (hr : ∀ p ∈ s.controlPoints, p.length = m + 1) {i : ℕ} (hi : i < s.controlPoints.length) :
    ∃ b, setLast (zeroLast s) i = some b ∧ ValidSpline b ∧ b.degrees = s.degrees ∧ b.knotVectors = s.knotVectors ∧ b.weights = s.weights ∧
      ∀ u, InDomain s u → InDomain b u ∧ (∀ k < m, point b u k = point s u k) ∧ point b u m = Spec.basisFunction s u i := by
  set b : Spline K (List K) := { zeroLast s with controlPoints := (zeroLast s).controlPoints.modify i fun p => p.set (p.length - 1) 1 } with hb
  have hl : b.controlPoints.length = s.controlPoints.length := by simp [hb, zeroLast]
  have hd : directions b = directions s := rfl
  have hbv : ValidSpline b := by
    refine ⟨hs.knots, hs.dirs, ?_, ?_⟩
    · rw [hl]; exact hs.net
    · intro ws h; rw [hl]; exact hs.weights ws h
  have hget : ∀ j < s.controlPoints.length, ∀ k, (b.controlPoints.getD j []).getD k 0 =
      if k = m then (if j = i then 1 else 0) else (s.controlPoints.getD j []).getD k 0 := by
    intro j hj k
    have hlj := hr _ (List.getElem_mem hj)
    rw [List.getD_eq_getElem b.controlPoints [] (by omega), List.getD_eq_getElem s.controlPoints [] hj]
    simp only [hb, zeroLast, List.getElem_modify, List.getElem_map]
    by_cases hij : i = j
    · subst hij
      simp only [if_true, List.length_set, hlj, Nat.add_sub_cancel]
      by_cases hk : k = m
      · subst hk
        simp [hlj]
      · rw [if_neg hk, List.getD_eq_getElem?_getD, List.getElem?_set_ne (by omega), List.getElem?_set_ne (by omega), ← List.getD_eq_getElem?_getD]
    · have hji : ¬ j = i := fun h => hij h.symm
      simp only [hij, hji, if_false, hlj, Nat.add_sub_cancel]
      by_cases hk : k = m
      · subst hk
        simp [hlj]
      · rw [if_neg hk, List.getD_eq_getElem?_getD, List.getElem?_set_ne (by omega), ← List.getD_eq_getElem?_getD]
  refine ⟨b, ?_, hbv, rfl, rfl, rfl, fun u hu => ⟨hu, ?_, ?_⟩⟩
  · unfold setLast
    have hl2 : (zeroLast s).controlPoints.length = s.controlPoints.length := by simp [zeroLast]
    rw [if_neg (by omega), if_neg (by omega)]
    simp [hb]
  · intro k hk
    have h1 : point b u k = value s (fun j => (b.controlPoints.getD j []).getD k 0) u := rfl
    rw [h1]
    apply value_congr
    intro j hj
    rw [hget j (by rw [hs.net]; exact hj), if_neg (by omega)]
  · have h1 : point b u m = value s (fun j => (b.controlPoints.getD j []).getD m 0) u := rfl
    rw [h1, ← value_indicator hs hu hi]
    apply value_congr
    intro j hj
    rw [hget j (by rw [hs.net]; exact hj), if_pos rfl]

theorem embedded_some {s : Spline K (List K)} {n m : ℕ} (hs : ValidSpline s) (hr : Create.Spec.Rect s n) (hm : 0 < m) :
    ∃ r, Create.embedded s (m : ℤ) = some r ∧ ValidSpline r ∧ r.degrees = s.degrees ∧ r.knotVectors = s.knotVectors ∧ r.weights = s.weights ∧
      r.controlPoints.length = s.controlPoints.length ∧ (∀ p ∈ r.controlPoints, p.length = m) ∧ ∀ u, InDomain s u → InDomain r u ∧ ∀ k < m, point r u k = point s u k := by
  cases he : Create.embedded s (m : ℤ) with
  | none =>
    rw [Create.embedded_rejects_iff] at he
    omega
  | some r =>
    obtain ⟨h1, h2, h3⟩ := Create.embedded_evaluates hs hr he
    obtain ⟨f, e, -⟩ := Create.embedded_cps hr he
    subst e
    refine ⟨_, rfl, h1, rfl, rfl, rfl, by simp, h2.2, fun u hu => ⟨hu, fun k hk => ?_⟩⟩
    rw [h3 u hu k, if_pos (by omega)]

theorem mapM_forall₂ {α β γ : Type} (g : α → β) (f : β → Option γ) (R : α → γ → Prop) (l : List α) (h : ∀ a ∈ l, ∃ c, f (g a) = some c ∧ R a c) :
    ∃ cs, (l.map g).mapM f = some cs ∧ List.Forall₂ R l cs := by
  induction l with
  | nil => exact ⟨[], rfl, List.Forall₂.nil⟩
  | cons a l ih =>
    obtain ⟨cs, h1, h2⟩ := ih fun x hx => h x (List.mem_cons_of_mem _ hx)
    obtain ⟨c, h3, h4⟩ := h a List.mem_cons_self
    exact ⟨c :: cs, by rw [List.map_cons, List.mapM_cons, h3, h1]; rfl, List.Forall₂.cons h4 h2⟩

/-- C92: `extract.bases(parametric_view=False)` returns for every requested control point a spline with the point of the spline as first coordinates and its basis function as last one. -/
theorem bases_graph {s : Spline K (List K)} {n : ℕ} (hs : ValidSpline s) (hr : Create.Spec.Rect s n) (ids : List ℕ) (hi : ∀ i ∈ ids, i < s.controlPoints.length) :
    ∃ bs, bases s none (some (ids.map fun i : ℕ => (i : ℤ))) = some bs ∧ List.Forall₂ (fun i b => ValidSpline b ∧ ∀ u, InDomain s u → InDomain b u ∧
      (∀ k < n, point b u k = point s u k) ∧ point b u n = Spec.basisFunction s u i) ids bs := by
  obtain ⟨r, h1, h2, h3, h4, h5, h6, h7, h8⟩ := embedded_some (m := n + 1) hs hr (by omega)
  unfold bases
  simp only [Create.dim_eq hr]
  rw [show ((n : ℤ) + 1) = ((n + 1 : ℕ) : ℤ) by push_cast; rfl, h1]
  simp only [Option.bind_some, Option.getD_some]
  apply mapM_forall₂
  intro i hi'
  obtain ⟨b, g1, g2, -, -, -, g3⟩ := setLast_spec h2 h7 (i := i) (by rw [h6]; exact hi i hi')
  refine ⟨b, g1, g2, fun u hu => ?_⟩
  obtain ⟨a1, a2⟩ := h8 u hu
  obtain ⟨c1, c2, c3⟩ := g3 u a1
  exact ⟨c1, fun k hk => (c2 k hk).trans (a2 k (by omega)), c3.trans (basisFunction_congr h3 h4 h5 h6 u i)⟩

/-- C92: with a parametric view `v` that has degrees, knot vectors and weights of the spline and evaluates to its parameters, the splines are the graphs of the basis functions over the
parametric domain. -/
theorem bases_view {s v : Spline K (List K)} (hs : ValidSpline s) (hv : ValidSpline v) (hr : Create.Spec.Rect v s.degrees.length) (h1 : v.degrees = s.degrees)
    (h2 : v.knotVectors = s.knotVectors) (h3 : v.weights = s.weights) (ident : ∀ u, InDomain v u → ∀ k < s.degrees.length, point v u k = u.getD k 0)
    (ids : List ℕ) (hi : ∀ i ∈ ids, i < s.controlPoints.length) :
    ∃ bs, bases s (some v) (some (ids.map fun i : ℕ => (i : ℤ))) = some bs ∧ List.Forall₂ (fun i b => ValidSpline b ∧ ∀ u, InDomain s u → InDomain b u ∧
      (∀ k < s.degrees.length, point b u k = u.getD k 0) ∧ point b u s.degrees.length = Spec.basisFunction s u i) ids bs := by
  have hd : directions v = directions s := by unfold directions; rw [h1, h2]
  have hl : v.controlPoints.length = s.controlPoints.length := by rw [hs.net, hv.net]; unfold netSize; rw [hd]
  obtain ⟨r, g1, g2, g3, g4, g5, g6, g7, g8⟩ := embedded_some (m := s.degrees.length + 1) hv hr (by omega)
  unfold bases
  simp only
  rw [show ((s.degrees.length : ℤ) + 1) = ((s.degrees.length + 1 : ℕ) : ℤ) by push_cast; rfl, g1]
  simp only [Option.bind_some, Option.getD_some]
  apply mapM_forall₂
  intro i hi'
  obtain ⟨b, c1, c2, -, -, -, c3⟩ := setLast_spec g2 g7 (i := i) (by rw [g6, hl]; exact hi i hi')
  refine ⟨b, c1, c2, fun u hu => ?_⟩
  have huv : InDomain v u := by unfold InDomain; rw [hd]; exact hu
  obtain ⟨a1, a2⟩ := g8 u huv
  obtain ⟨e1, e2, e3⟩ := c3 u a1
  refine ⟨e1, fun k hk => ?_, ?_⟩
  · rw [e2 k hk, a2 k (by omega), ident u huv k hk]
  · rw [e3, basisFunction_congr g3 g4 g5 g6, basisFunction_congr h1 h2 h3 hl]

/-- C92: with the conforming parametric view of a non-rational spline, the splines are the graphs of the basis functions over the parametric domain. `elevate_degrees` and `insert_knots`
keep points and give the view the degrees and the knots of the spline (`h1`, `h2`). -/
theorem bases_parametric {s v : Spline K (List K)} (hs : ValidSpline s) (hw : s.weights = none) (elevate : List ℕ → Spline K (List K) → Spline K (List K))
    (insert : ℕ → List K → Spline K (List K) → Spline K (List K)) (he : ∀ q, Create.Spec.Keeps (elevate q)) (hi : ∀ d q, Create.Spec.Keeps (insert d q)) (innerKnots : List (List K))
    (hn : s.degrees ≠ [])
    (hv : Create.parametricView elevate insert s ((directions s).map Direction.lower) ((directions s).map Direction.upper) innerKnots true = some v)
    (hr : Create.Spec.Rect v s.degrees.length) (h1 : v.degrees = s.degrees) (h2 : v.knotVectors = s.knotVectors) (h3 : v.weights = none)
    (ids : List ℕ) (hids : ∀ i ∈ ids, i < s.controlPoints.length) :
    ∃ bs, bases s (some v) (some (ids.map fun i : ℕ => (i : ℤ))) = some bs ∧ List.Forall₂ (fun i b => ValidSpline b ∧ ∀ u, InDomain s u → InDomain b u ∧
      (∀ k < s.degrees.length, point b u k = u.getD k 0) ∧ point b u s.degrees.length = Spec.basisFunction s u i) ids bs := by
  have hl : (directions s).length = s.degrees.length := by
    unfold directions
    cases hk : s.knotVectors with
    | none => simp
    | some kvs => simp [hs.knots kvs hk]
  have hlt : ∀ d ∈ directions s, d.lower < d.upper := by
    intro d hd
    cases hk : d.knots with
    | none => simp [Direction.lower, Direction.upper, hk]
    | some kv => exact (hs.dirs d hd kv hk).2.2
  have hbez : s.knotVectors = none → ∀ d ∈ directions s, d.lower = 0 ∧ d.upper = 1 := by
    intro hk d hd
    unfold directions at hd
    rw [hk] at hd
    obtain ⟨p, -, rfl⟩ := List.mem_map.1 hd
    exact ⟨rfl, rfl⟩
  have hlen : 0 < s.degrees.length := List.length_pos_iff.2 hn
  have hget : ∀ i (hi : i < s.degrees.length), ((directions s).map Direction.lower).getD i 0 = ((directions s)[i]'(by omega)).lower ∧
      ((directions s).map Direction.upper).getD i 0 = ((directions s)[i]'(by omega)).upper := by
    intro i hi
    constructor <;> rw [List.getD_eq_getElem _ _ (by simp; omega), List.getElem_map]
  obtain ⟨w, g1, g2, g3⟩ := Create.parametricView_identity_partial elevate insert he hi s ((directions s).map Direction.lower) ((directions s).map Direction.upper) innerKnots true
    s.degrees.length hlen (by simpa using hl) (by simpa using hl)
    (fun i hi => by rw [(hget i hi).1, (hget i hi).2]; exact hlt _ (List.getElem_mem _)) (fun _ => hw)
    (fun hk => by
      constructor <;> refine List.eq_replicate_iff.2 ⟨by simpa using hl, fun x hx => ?_⟩ <;> obtain ⟨d, hd, rfl⟩ := List.mem_map.1 hx
      · exact (hbez hk d hd).1
      · exact (hbez hk d hd).2)
  rw [hv] at g1
  obtain rfl := Option.some.inj g1
  have hd : directions v = directions s := by unfold directions; rw [h1, h2]
  refine bases_view hs g2 hr h1 h2 (h3.trans hw.symm) (fun u hu k hk => ?_) ids hids
  have hu' : List.Forall₂ Direction.Contains (directions s) u := by rw [← hd]; exact hu
  have hul : u.length = s.degrees.length := by rw [← hu'.length_eq, hl]
  refine (g3 u hul fun i hi => ?_).2 k hk
  rw [(hget i hi).1, (hget i hi).2, List.getD_eq_getElem _ _ (by omega)]
  exact hu'.get (by omega) (by omega)

/-- C92 (disagreement): the default view of a rational spline does not map parameters to themselves (C49), so the graphs of its basis functions are drawn over wrong parameters: for a line with
weights 1 and 2 the first basis function, which is 1/3 at the parameter 1/2, is drawn with this value over 2/3. -/
theorem bases_rational_violates : ∃ v b : Spline ℚ (List ℚ),
    Create.parametricView (fun _ s => s) (fun _ _ s => s) ⟨[1], none, some [1, 2], [[0], [1]]⟩ [0] [1] [] true = some v ∧
      bases ⟨[1], none, some [1, 2], [[0], [1]]⟩ (some v) (some [0]) = some [b] ∧ point b [1/2] 1 = 1/3 ∧ point b [1/2] 0 = 2/3 :=
  ⟨⟨[1], none, some [1, 2], [[0], [1]]⟩, ⟨[1], none, some [1, 2], [[0, 1], [1, 0]]⟩, by decide +kernel, by decide +kernel, by decide +kernel, by decide +kernel⟩

/-- C92: without ids there is one spline for every control point, and their last coordinates add up to one at every parameter. -/
theorem bases_partition {s : Spline K (List K)} {n : ℕ} (hs : ValidSpline s) (hr : Create.Spec.Rect s n) :
    ∃ bs, bases s none none = some bs ∧ bs.length = s.controlPoints.length ∧ ∀ u, InDomain s u → (bs.map fun b => point b u n).sum = 1 ∧ ∀ b ∈ bs, 0 ≤ point b u n := by
  obtain ⟨bs, h1, h2⟩ := bases_graph hs hr (List.range s.controlPoints.length) fun i hi => List.mem_range.1 hi
  refine ⟨bs, h1, by rw [← h2.length_eq, List.length_range], fun u hu => ⟨?_, ?_⟩⟩
  · have e : (bs.map fun b => point b u n) = (List.range s.controlPoints.length).map (Spec.basisFunction s u) := by
      clear h1
      generalize List.range s.controlPoints.length = l at h2
      induction h2 with
      | nil => rfl
      | cons h _ ih => rw [List.map_cons, List.map_cons, ih, (h.2 u hu).2.2]
    rw [e, list_sum_range (K := K)]
    have h3 : ∀ i ∈ range s.controlPoints.length, Spec.basisFunction s u i = value s (fun j => if j = i then 1 else 0) u := fun i hi =>
      (value_indicator hs hu (mem_range.1 hi)).symm
    rw [sum_congr rfl h3]
    simp only [value_eq hs hu]
    rw [← Finset.sum_div, div_eq_one_iff_eq (den_pos hs hu).ne']
    unfold num
    rw [sum_comm]
    apply sum_congr rfl
    intro j hj
    rw [← mul_sum, ← mul_sum]
    congr 2
    rw [hs.net]
    simp [mem_range.1 hj]
  · intro b hb
    obtain ⟨i, hi, e⟩ := List.getElem_of_mem hb
    have hi2 : i < (List.range s.controlPoints.length).length := by rw [h2.length_eq]; exact hi
    have h3 := (List.forall₂_iff_get.1 h2).2 i hi2 hi
    simp only [List.get_eq_getElem, List.getElem_range, e] at h3
    have hi3 : i < s.controlPoints.length := by simpa using hi2
    rw [(h3.2 u hu).2.2, ← value_indicator hs hu hi3, value_eq hs hu]
    apply div_nonneg _ (den_pos hs hu).le
    unfold num
    apply sum_nonneg
    intro j hj
    apply mul_nonneg (basisProduct_nonneg _ _ (basisValues_nonneg hs.dirs hu))
    apply mul_nonneg
    · unfold weightAt
      cases hw : s.weights with
      | none => exact zero_le_one
      | some ws =>
        simp only
        obtain ⟨w1, w2⟩ := hs.weights ws hw
        rw [List.getD_eq_getElem _ _ (by rw [w1, hs.net]; exact mem_range.1 hj)]
        exact (w2 _ (List.getElem_mem _)).le
    · simp only
      split <;> norm_num

/-- C92: negative ids count from the end; any other id that is not the number of a control point is rejected. -/
theorem bases_ids (s : Spline K (List K)) (i : ℤ) :
    (setLast s i = none ↔ i < -s.controlPoints.length ∨ (s.controlPoints.length : ℤ) ≤ i) ∧ (i < 0 → setLast s i = setLast s (i + s.controlPoints.length) ∨ i < -s.controlPoints.length) := by
  unfold setLast
  constructor
  · constructor
    · intro h
      by_contra hc
      simp only at h
      split at h <;> rw [if_neg (by omega)] at h <;> simp at h
    · intro h
      simp only
      split <;> rw [if_pos (by omega)]
  · intro h
    by_cases hc : i < -s.controlPoints.length
    · exact Or.inr hc
    · left
      simp only
      rw [if_pos h, if_neg (by omega : ¬ i + (s.controlPoints.length : ℤ) < 0)]

/-- A rational quadratic curve in the plane. -/
def exampleCurve : Spline ℚ (List ℚ) := ⟨[2], none, some [1, 2, 1], [[0, 0], [1, 1], [2, 0]]⟩

theorem exampleCurve_valid : ValidSpline exampleCurve ∧ Create.Spec.Rect exampleCurve 2 := by
  refine ⟨⟨by simp [exampleCurve], by simp [exampleCurve, directions, Direction.Valid], by decide, ?_⟩, by simp [exampleCurve], by simp [exampleCurve]⟩
  intro ws h
  simp only [exampleCurve, Option.some.injEq] at h
  subst h
  decide +kernel

example : ∃ b, bases exampleCurve none (some [1]) = some [b] ∧ b.controlPoints = [[0, 0, 0], [1, 1, 1], [2, 0, 0]] ∧ point b [1/2] 2 = 2/3 := by
  refine ⟨⟨[2], none, some [1, 2, 1], [[0, 0, 0], [1, 1, 1], [2, 0, 0]]⟩, by decide +kernel, rfl, by decide +kernel⟩

example : ∃ bs, bases exampleCurve none none = some bs ∧ bs.length = 3 ∧ ∀ u, InDomain exampleCurve u → (bs.map fun b => point b u 2).sum = 1 := by
  obtain ⟨bs, h1, h2, h3⟩ := bases_partition exampleCurve_valid.1 exampleCurve_valid.2
  exact ⟨bs, h1, h2, fun u hu => (h3 u hu).1⟩

/-- the conforming view of a line between the parametric bounds is a linear graph -/
example : ∃ bs, bases (⟨[1], none, none, [[5], [7]]⟩ : Spline ℚ (List ℚ)) (some ⟨[1], none, none, [[0], [1]]⟩) (some [1]) = some bs ∧ bs.length = 1 := by
  obtain ⟨bs, h1, h2⟩ := bases_parametric (s := (⟨[1], none, none, [[5], [7]]⟩ : Spline ℚ (List ℚ))) (v := ⟨[1], none, none, [[0], [1]]⟩)
    ⟨by simp, by simp [directions, Direction.Valid], by decide, by simp⟩ rfl (fun _ s => s) (fun _ _ s => s) (fun _ => Create.keeps_id) (fun _ _ => Create.keeps_id) [] (by simp)
    (by decide +kernel) ⟨by simp, by simp⟩ rfl rfl rfl [1] (by simp)
  exact ⟨bs, h1, h2.length_eq.symm⟩

end Splinepy.Bases
