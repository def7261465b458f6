import Verif.Model.DetSpline
import Verif.Lemma.Spline
import Verif.Props.Integrate
import Mathlib.Combinatorics.Nullstellensatz
import Mathlib.Algebra.MvPolynomial.PDeriv
import Mathlib.RingTheory.Polynomial.Bernstein
import Mathlib.Analysis.Calculus.Deriv.Mul
import Mathlib.LinearAlgebra.Matrix.NonsingularInverse

/-!
C88: the determinant spline of a Bezier spline is the determinant of its Jacobian.
-/
namespace Splinepy.DetSpline
open Splinepy.Spec Finset

set_option linter.unusedSectionVars false

/-! ### Specification -/

/-- `jac u` is the matrix of the partial derivatives of the spline at the parameter `u`. -/
def Spec.Jacobian (s : Index.Spline ℝ (List ℝ)) (n : ℕ) (jac : List ℝ → Matrix (Fin n) (Fin n) ℝ) : Prop :=
  ∀ u : List ℝ, u.length = n → ∀ k i : Fin n, HasDerivAt (fun x => point s (u.set i x) k) (jac u k i) (u.getD i 0)

/-- `c` solves the system with the rows `A` and right hand side `b` -/
def Spec.Solution (A : List (List ℝ)) (b c : List ℝ) : Prop :=
  c.length = A.length ∧ ∀ r < A.length, ((List.range c.length).map fun j => (A.getD r []).getD j 0 * c.getD j 0).sum = b.getD r 0

/-- `solve` finds the solution of square systems that have exactly one. -/
def Spec.Solver (solve : List (List ℝ) → List ℝ → Option (List ℝ)) : Prop :=
  ∀ (A : List (List ℝ)) (b : List ℝ), (∀ row ∈ A, row.length = A.length) → b.length = A.length → (∃! c, Spec.Solution A b c) → ∃ c, solve A b = some c ∧ Spec.Solution A b c

/-! ### collocation with tensor products is injective -/

/-- functions of one direction are determined by their values at the nodes -/
def Determined {K : Type} [Field K] (b : K → ℕ → K) (r : ℕ) (nodes : List K) : Prop :=
  ∀ c : ℕ → K, (∀ x ∈ nodes, ∑ j ∈ range r, b x j * c j = 0) → ∀ j < r, c j = 0

theorem tensor_determined {K : Type} [Field K] : ∀ (bs : List (K → ℕ → K)) (rs : List ℕ) (nodes : List (List K)), bs.length = rs.length → nodes.length = rs.length →
    (∀ i (h : i < bs.length) (h' : i < rs.length) (h'' : i < nodes.length), Determined bs[i] rs[i] nodes[i]) → ∀ c : ℕ → K,
    (∀ q ∈ firstFastest nodes, ∑ g ∈ range rs.prod, basisProduct (List.zipWith (fun b x => b x) bs q) (digits rs g) * c g = 0) → ∀ g < rs.prod, c g = 0
  | [], [], [], _, _, _, c, hc, g, hg => by
    have := hc [] (by simp [firstFastest])
    simp only [List.prod_nil, range_one, sum_singleton, List.zipWith_nil_left, basisProduct, List.zipWith_nil_left, List.prod_nil, one_mul] at this
    obtain rfl : g = 0 := by simpa using hg
    exact this
  | b :: bs, r :: rs, a :: nodes, h1, h2, hd, c, hc, g, hg => by
    rw [List.prod_cons] at hg
    have hr : 0 < r := Nat.pos_of_ne_zero (by rintro rfl; simp at hg)
    have ih := tensor_determined bs rs nodes (by simpa using h1) (by simpa using h2)
      (fun i h h' h'' => hd (i + 1) (Nat.succ_lt_succ h) (Nat.succ_lt_succ h') (Nat.succ_lt_succ h''))
    have hd0 : Determined b r a := hd 0 (Nat.succ_pos _) (Nat.succ_pos _) (Nat.succ_pos _)
    have key : ∀ g' < rs.prod, ∀ x ∈ a, ∑ j ∈ range r, b x j * c (j + r * g') = 0 := by
      intro g' hg' x hx
      refine ih (fun g' => ∑ j ∈ range r, b x j * c (j + r * g')) (fun q hq => ?_) g' hg'
      have := hc (x :: q) (by
        simp only [firstFastest, List.mem_flatMap, List.mem_map]
        exact ⟨q, hq, x, hx, rfl⟩)
      rw [← this, List.prod_cons, ← list_sum_range (K := K) (r * rs.prod), sum_range_mul, ← list_sum_range (K := K)]
      congr 1
      apply List.map_congr_left
      intro l _
      rw [Finset.mul_sum, ← list_sum_range (K := K)]
      congr 1
      apply List.map_congr_left
      intro j hj
      have hj' := List.mem_range.1 hj
      simp only [digits]
      rw [Nat.add_mul_mod_self_left, Nat.mod_eq_of_lt hj', Nat.add_mul_div_left _ _ hr, Nat.div_eq_of_lt hj', Nat.zero_add]
      simp only [basisProduct, List.zipWith_cons_cons, List.prod_cons]
      ring
    have := hd0 (fun j => c (j + r * (g / r))) (key (g / r) (Nat.div_lt_of_lt_mul hg)) (g % r) (Nat.mod_lt _ hr)
    simp only [Nat.mod_add_div] at this
    exact this
  | [], _ :: _, _, h, _, _, _, _, _, _ => by simp at h
  | _ :: _, [], _, h, _, _, _, _, _, _ => by simp at h
  | [], [], _ :: _, _, h, _, _, _, _, _ => by simp at h
  | _ :: _, _ :: _, [], _, h, _, _, _, _, _ => by simp at h

/-! ### Bernstein polynomials at the nodes `j / d` -/

theorem bernstein_eval (d j : ℕ) (x : ℝ) : bernstein d j 0 1 x = (bernsteinPolynomial ℝ d j).eval x := by
  simp [bernstein, bernsteinPolynomial]

theorem mem_abscissae (d : ℕ) (x : ℝ) : x ∈ Greville.bezierAbscissae (K := ℝ) d ↔ ∃ j < d + 1, 1 / (d : ℝ) * (j : ℝ) = x := by
  simp [Greville.bezierAbscissae]

theorem abscissae_nodup (d : ℕ) (hd : 0 < d) : (Greville.bezierAbscissae (K := ℝ) d).Nodup := by
  unfold Greville.bezierAbscissae
  refine List.Nodup.map ?_ List.nodup_range
  intro a b h
  have h0 : (1 / (d : ℝ)) ≠ 0 := by positivity
  exact_mod_cast mul_left_cancel₀ h0 h

/-- the nodes of one direction -/
noncomputable def nodes (d : ℕ) : Finset ℝ := (Greville.bezierAbscissae (K := ℝ) d).toFinset

theorem nodes_card (d : ℕ) (hd : 0 < d) : (nodes d).card = d + 1 := by
  rw [nodes, List.toFinset_card_of_nodup (abscissae_nodup d hd)]
  simp [Greville.bezierAbscissae]

theorem bernstein_determined (d : ℕ) (hd : 0 < d) : Determined (fun (x : ℝ) j => bernstein d j 0 1 x) (d + 1) (Greville.bezierAbscissae d) := by
  intro c hc
  have hp : ∑ j ∈ range (d + 1), Polynomial.C (c j) * bernsteinPolynomial ℝ d j = 0 := by
    refine Polynomial.eq_zero_of_natDegree_lt_card_of_eval_eq_zero' _ (nodes d) (fun x hx => ?_) ?_
    · have := hc x (by simpa [nodes] using hx)
      rw [Polynomial.eval_finset_sum, ← this]
      refine sum_congr rfl fun j _ => ?_
      rw [Polynomial.eval_mul, Polynomial.eval_C, ← bernstein_eval, mul_comm]
    · rw [nodes_card d hd]
      refine Nat.lt_succ_of_le (Polynomial.natDegree_sum_le_of_forall_le _ _ fun j hj => ?_)
      have hj' : j ≤ d := Nat.lt_succ_iff.1 (mem_range.1 hj)
      unfold bernsteinPolynomial
      refine le_trans (Polynomial.natDegree_C_mul_le _ _) (le_trans Polynomial.natDegree_mul_le ?_)
      have h1 : (((d.choose j : ℕ) : Polynomial ℝ) * Polynomial.X ^ j).natDegree ≤ j := by
        refine le_trans Polynomial.natDegree_mul_le ?_
        simp
      have h2 : ((1 - Polynomial.X : Polynomial ℝ) ^ (d - j)).natDegree ≤ d - j := by
        refine le_trans Polynomial.natDegree_pow_le ?_
        have : (1 - Polynomial.X : Polynomial ℝ).natDegree ≤ 1 := le_trans (Polynomial.natDegree_sub_le _ _) (by simp)
        nlinarith
      omega
  have hq : ∑ j ∈ range (d + 1), Polynomial.C (c j * (d.choose j : ℝ)) * Polynomial.X ^ j = 0 := by
    refine Polynomial.eq_zero_of_infinite_isRoot _ (Set.Infinite.mono (s := Set.Ici 0) (fun t ht => ?_) (Set.Ici_infinite 0))
    have ht : (0 : ℝ) ≤ t := ht
    have h1 : 1 + t ≠ 0 := by positivity
    have h0 := congrArg (Polynomial.eval (t / (1 + t))) hp
    rw [Polynomial.eval_finset_sum, Polynomial.eval_zero] at h0
    change Polynomial.eval t _ = 0
    rw [Polynomial.eval_finset_sum]
    have h2 : ∑ j ∈ range (d + 1), Polynomial.eval t (Polynomial.C (c j * (d.choose j : ℝ)) * Polynomial.X ^ j) =
        (1 + t) ^ d * ∑ j ∈ range (d + 1), Polynomial.eval (t / (1 + t)) (Polynomial.C (c j) * bernsteinPolynomial ℝ d j) := by
      rw [Finset.mul_sum]
      refine Finset.sum_congr rfl fun j hj => ?_
      have hj' : j ≤ d := Nat.lt_succ_iff.1 (mem_range.1 hj)
      rw [Polynomial.eval_mul, Polynomial.eval_mul, ← bernstein_eval, Polynomial.eval_C, Polynomial.eval_C, Polynomial.eval_pow, Polynomial.eval_X]
      unfold bernstein
      have e1 : (1 - t / (1 + t)) / (1 - 0) = 1 / (1 + t) := by field_simp; ring
      have e2 : (t / (1 + t) - 0) / (1 - 0) = t / (1 + t) := by ring
      rw [e1, e2, div_pow, div_pow, one_pow]
      obtain ⟨e, rfl⟩ := Nat.exists_eq_add_of_le hj'
      rw [Nat.add_sub_cancel_left, pow_add]
      field_simp
    rw [h2, h0, mul_zero]
  intro j hj
  have := congrArg (fun q => Polynomial.coeff q j) hq
  simp only [Polynomial.finsetSum_coeff, Polynomial.coeff_C_mul, Polynomial.coeff_X_pow, Polynomial.coeff_zero] at this
  rw [Finset.sum_eq_single j (fun k _ hk => by rw [if_neg (fun e => hk e.symm), mul_zero]) (fun h => absurd (mem_range.2 hj) h), if_pos rfl, mul_one] at this
  have hne : (d.choose j : ℝ) ≠ 0 := by exact_mod_cast (Nat.choose_pos (Nat.lt_succ_iff.1 hj)).ne'
  exact (mul_eq_zero.1 this).resolve_right hne

/-! ### polynomials of a Bezier spline -/

open MvPolynomial

/-- Bernstein polynomial in the variable `i` -/
noncomputable def bern {n : ℕ} (i : Fin n) (d j : ℕ) : MvPolynomial (Fin n) ℝ := C (d.choose j : ℝ) * X i ^ j * (1 - X i) ^ (d - j)

/-- polynomial with the coefficients `c` with respect to the tensor product Bernstein polynomials of the degrees `ds` -/
noncomputable def splinePoly {n : ℕ} (ds : List ℕ) (c : ℕ → ℝ) : MvPolynomial (Fin n) ℝ :=
  ∑ g ∈ range (ds.map (· + 1)).prod, C (c g) * ∏ i : Fin n, bern i (ds.getD i 0) ((digits (ds.map (· + 1)) g).getD i 0)

theorem digits_lt : ∀ (rs : List ℕ) (g : ℕ), (∀ r ∈ rs, 0 < r) → ∀ i < rs.length, (digits rs g).getD i 0 < rs.getD i 0
  | [], _, _, i, hi => by simp at hi
  | r :: rs, g, h, 0, _ => by simpa [digits] using Nat.mod_lt _ (h r (by simp))
  | r :: rs, g, h, i + 1, hi => by
    have := digits_lt rs (g / r) (fun r hr => h r (by simp [hr])) i (by simpa using hi)
    simpa [digits] using this

theorem splinePoly_degree {n : ℕ} (ds : List ℕ) (hn : ds.length = n) (c : ℕ → ℝ) (i : Fin n) : (splinePoly ds c).degreeOf i ≤ ds.getD i 0 := by
  unfold splinePoly
  refine le_trans (degreeOf_sum_le _ _ _) (Finset.sup_le fun g _ => ?_)
  refine le_trans (degreeOf_C_mul_le _ _ _) (le_trans (degreeOf_prod_le _ _ _) ?_)
  have hj : (digits (ds.map (· + 1)) g).getD i 0 ≤ ds.getD i 0 := by
    have hi : (i : ℕ) < ds.length := by omega
    have := digits_lt (ds.map (· + 1)) g (by simp) i (by simpa using hi)
    rw [List.getD_eq_getElem (ds.map (· + 1)) 0 (by simpa using hi), List.getElem_map] at this
    rw [List.getD_eq_getElem ds 0 hi]
    omega
  rw [Finset.sum_eq_single i]
  · refine le_trans (degreeOf_mul_le _ _ _) ?_
    have h1 : degreeOf i (C ((ds.getD i 0).choose ((digits (ds.map (· + 1)) g).getD i 0) : ℝ) * X i ^ ((digits (ds.map (· + 1)) g).getD i 0) : MvPolynomial (Fin n) ℝ) ≤
        (digits (ds.map (· + 1)) g).getD i 0 := by
      refine le_trans (degreeOf_C_mul_le _ _ _) (le_trans (degreeOf_pow_le _ _ _) ?_)
      rw [degreeOf_X_self, mul_one]
    have h2 : degreeOf i ((1 - X i : MvPolynomial (Fin n) ℝ) ^ (ds.getD i 0 - (digits (ds.map (· + 1)) g).getD i 0)) ≤ ds.getD i 0 - (digits (ds.map (· + 1)) g).getD i 0 := by
      refine le_trans (degreeOf_pow_le _ _ _) ?_
      have : degreeOf i (1 - X i : MvPolynomial (Fin n) ℝ) ≤ 1 := by
        refine le_trans (degreeOf_sub_le _ _ _) ?_
        rw [degreeOf_X_self, degreeOf_one]
        simp
      nlinarith
    omega
  · intro k _ hk
    unfold bern
    have hX : degreeOf i (X k : MvPolynomial (Fin n) ℝ) = 0 := degreeOf_X_of_ne (fun e => hk e.symm)
    refine Nat.le_zero.1 (le_trans (degreeOf_mul_le _ _ _) ?_)
    have h1 : degreeOf i (C ((ds.getD k 0).choose ((digits (ds.map (· + 1)) g).getD k 0) : ℝ) * X k ^ ((digits (ds.map (· + 1)) g).getD k 0) : MvPolynomial (Fin n) ℝ) = 0 := by
      refine Nat.le_zero.1 (le_trans (degreeOf_C_mul_le _ _ _) (le_trans (degreeOf_pow_le _ _ _) ?_))
      rw [hX, mul_zero]
    have h2 : degreeOf i ((1 - X k : MvPolynomial (Fin n) ℝ) ^ (ds.getD k 0 - (digits (ds.map (· + 1)) g).getD k 0)) = 0 := by
      refine Nat.le_zero.1 (le_trans (degreeOf_pow_le _ _ _) ?_)
      have : degreeOf i (1 - X k : MvPolynomial (Fin n) ℝ) ≤ 0 := by
        refine le_trans (degreeOf_sub_le _ _ _) ?_
        rw [hX, degreeOf_one]
        simp
      nlinarith
    omega
  · simp

theorem basisProduct_bern {n : ℕ} (ds : List ℕ) (hn : ds.length = n) (u : List ℝ) (hu : u.length = n) (cs : List ℕ) (hcs : cs.length = n) :
    basisProduct (List.zipWith (fun (d : Direction ℝ) x j => d.basis x j) (ds.map fun d => ⟨d, none⟩) u) cs = eval (fun i : Fin n => u.getD i 0) (∏ i : Fin n, bern i (ds.getD i 0) (cs.getD i 0)) := by
  rw [map_prod, basisProduct, ← List.prod_ofFn]
  congr 1
  apply List.ext_getElem
  · simp [hn, hu, hcs]
  · intro i h1 h2
    simp only [List.length_zipWith, List.length_map, hn, hu, hcs, Nat.min_self] at h1
    simp only [List.getElem_zipWith, List.getElem_map, List.getElem_ofFn]
    rw [List.getD_eq_getElem ds 0 (by omega), List.getD_eq_getElem cs 0 (by omega)]
    simp only [Direction.basis, bern, map_mul, map_pow, map_sub, eval_X, eval_C, map_one]
    rw [List.getD_eq_getElem u 0 (by omega)]
    simp [bernstein]

theorem digits_length' (rs : List ℕ) (g : ℕ) : (digits rs g).length = rs.length := by
  induction rs generalizing g with
  | nil => rfl
  | cons r rs ih => simp [digits, ih]

theorem netSize_bezier (ds : List ℕ) (ws : Option (List ℝ)) (P : List (List ℝ)) : netSize (⟨ds, none, ws, P⟩ : Index.Spline ℝ (List ℝ)) = ds.map (· + 1) := by
  simp [netSize, directions, Direction.size]

theorem tensorEval_poly {n : ℕ} (ds : List ℕ) (hn : ds.length = n) (ws : Option (List ℝ)) (P : List (List ℝ)) (u : List ℝ) (hu : u.length = n) (c : ℕ → ℝ) :
    tensorEval (basisValues (⟨ds, none, ws, P⟩ : Index.Spline ℝ (List ℝ)) u) (ds.map (· + 1)) ((List.range (ds.map (· + 1)).prod).map c) = eval (fun i : Fin n => u.getD i 0) (splinePoly ds c) := by
  rw [tensorEval_eq_sum, splinePoly, map_sum]
  refine Finset.sum_congr rfl fun g hg => ?_
  rw [map_mul, eval_C, mul_comm]
  congr 1
  · rw [List.getD_eq_getElem _ 0 (by simpa using hg)]
    simp
  · exact basisProduct_bern ds hn u hu _ (by rw [digits_length']; simpa using hn)

theorem point_poly {n : ℕ} (s : Index.Spline ℝ (List ℝ)) (hn : s.degrees.length = n) (hk : s.knotVectors = none)
    (hw : ∀ ws, s.weights = some ws → ∃ w, w ≠ 0 ∧ ws = List.replicate (s.degrees.map (· + 1)).prod w) (u : List ℝ) (hu : u.length = n) (k : ℕ) :
    point s u k = eval (fun i : Fin n => u.getD i 0) (splinePoly s.degrees fun g => (s.controlPoints.getD g []).getD k 0) := by
  obtain ⟨ds, kvs, ws, P⟩ := s
  simp only at hk hn hw
  subst hk
  unfold point value
  simp only [netSize_bezier]
  cases ws with
  | none => exact tensorEval_poly ds hn none P u hu _
  | some ws =>
    obtain ⟨w, h0, rfl⟩ := hw ws rfl
    simp only
    have hsum : tensorEval (basisValues (⟨ds, none, some (List.replicate (ds.map (· + 1)).prod w), P⟩ : Index.Spline ℝ (List ℝ)) u) (ds.map (· + 1)) (List.replicate (ds.map (· + 1)).prod w) = w := by
      rw [tensorEval_eq_sum]
      have : ∀ g ∈ range (ds.map (· + 1)).prod, (List.replicate (ds.map (· + 1)).prod w).getD g 0 = w := by
        intro g hg
        rw [List.getD_eq_getElem _ 0 (by simpa using hg)]
        simp
      rw [Finset.sum_congr rfl fun g hg => by rw [this g hg], ← Finset.sum_mul, basisProduct_sum _ _ (by simp [basisValues, directions, hn, hu])]
      have h1 : ∀ (ds : List ℕ) (u : List ℝ), ds.length = u.length →
          (List.zipWith (fun (b : ℕ → ℝ) n => ∑ j ∈ range n, b j) (basisValues (⟨ds, none, some (List.replicate (ds.map (· + 1)).prod w), P⟩ : Index.Spline ℝ (List ℝ)) u) (ds.map (· + 1))).prod = 1 := by
        intro ds
        induction ds with
        | nil => intro u _; simp
        | cons d ds ih =>
          intro u hu
          cases u with
          | nil => simp at hu
          | cons x u =>
            have := ih u (by simpa using hu)
            simp only [basisValues, directions, List.map_cons, List.zipWith_cons_cons, List.prod_cons] at this ⊢
            rw [this, mul_one]
            exact bernstein_sum d x
      rw [h1 ds u (by omega), one_mul]
    rw [hsum]
    have := tensorEval_poly ds hn (some (List.replicate (ds.map (· + 1)).prod w)) P u hu fun g => w * (P.getD g []).getD k 0
    have e : ((List.range (ds.map (· + 1)).prod).map fun i => (List.replicate (ds.map (· + 1)).prod w).getD i 0 * (P.getD i []).getD k 0) =
        (List.range (ds.map (· + 1)).prod).map fun g => w * (P.getD g []).getD k 0 := by
      apply List.map_congr_left
      intro g hg
      rw [List.getD_eq_getElem _ 0 (by simpa using hg)]
      simp
    rw [e, this, div_eq_iff h0]
    unfold splinePoly
    rw [map_sum, map_sum, Finset.sum_mul]
    refine Finset.sum_congr rfl fun g _ => ?_
    simp only [map_mul, eval_C]
    ring

/-! ### derivatives -/

theorem hasDerivAt_eval {n : ℕ} (p : MvPolynomial (Fin n) ℝ) (a : Fin n → ℝ) (i : Fin n) : HasDerivAt (fun x => eval (Function.update a i x) p) (eval a (pderiv i p)) (a i) := by
  induction p using MvPolynomial.induction_on with
  | C c => simpa using hasDerivAt_const (a i) c
  | add p q hp hq =>
    have h1 : (fun x => eval (Function.update a i x) (p + q)) = (fun x => eval (Function.update a i x) p) + fun x => eval (Function.update a i x) q := by
      funext x
      simp
    rw [h1, map_add, map_add]
    exact hp.add hq
  | mul_X p j hp =>
    have hX : HasDerivAt (fun x => Function.update a i x j) (if i = j then 1 else 0) (a i) := by
      by_cases h : i = j
      · subst h
        rw [if_pos rfl]
        have : (fun x => Function.update a i x i) = id := funext fun x => Function.update_self _ _ _
        rw [this]
        exact hasDerivAt_id (a i)
      · rw [if_neg h]
        have : (fun x => Function.update a i x j) = fun _ => a j := funext fun x => Function.update_of_ne (fun e => h e.symm) _ _
        rw [this]
        exact hasDerivAt_const _ _
    have := hp.mul hX
    simp only [Function.update_eq_self] at this
    have h2 : eval a (pderiv i (p * X j)) = eval a (pderiv i p) * a j + eval a p * (if i = j then 1 else 0) := by
      rw [Derivation.leibniz, pderiv_X]
      simp only [smul_eq_mul, map_add, map_mul, eval_X]
      by_cases h : i = j
      · subst h
        simp
        ring
      · rw [if_neg h, Pi.single_eq_of_ne (fun e => h e.symm)]
        simp
        ring
    rw [h2]
    have h3 : (fun x => eval (Function.update a i x) (p * X j)) = (fun x => eval (Function.update a i x) p) * fun x => Function.update a i x j := by
      funext x
      simp
    rw [h3]
    exact this

theorem degreeOf_pderiv {n : ℕ} (p : MvPolynomial (Fin n) ℝ) (i j : Fin n) : degreeOf i (pderiv j p) ≤ degreeOf i p - if i = j then 1 else 0 := by
  have hp : pderiv j p = ∑ m ∈ p.support, monomial (m - Finsupp.single j 1) (coeff m p * m j) := by
    conv_lhs => rw [p.as_sum]
    rw [map_sum]
    refine Finset.sum_congr rfl fun m _ => ?_
    rw [pderiv_monomial]
  rw [hp]
  refine le_trans (degreeOf_sum_le _ _ _) (Finset.sup_le fun m hm => ?_)
  have hm' : m i ≤ degreeOf i p := by
    rw [degreeOf_eq_sup]
    exact Finset.le_sup (f := fun m : Fin n →₀ ℕ => m i) hm
  rw [degreeOf_eq_sup]
  refine Finset.sup_le fun m' hm'' => ?_
  have := support_monomial_subset hm''
  rw [Finset.mem_singleton] at this
  subst this
  rw [Finsupp.tsub_apply]
  by_cases h : i = j
  · subst h
    rw [Finsupp.single_eq_same, if_pos rfl]
    omega
  · rw [Finsupp.single_eq_of_ne (fun e => h e), if_neg h]
    omega

/-! ### the determinant -/

/-- Jacobian matrix of a polynomial map -/
noncomputable def jacPoly {n : ℕ} (P : Fin n → MvPolynomial (Fin n) ℝ) : Matrix (Fin n) (Fin n) (MvPolynomial (Fin n) ℝ) := fun k i => pderiv i (P k)

theorem jac_eq {n : ℕ} (s : Index.Spline ℝ (List ℝ)) (hn : s.degrees.length = n) (hk : s.knotVectors = none)
    (hw : ∀ ws, s.weights = some ws → ∃ w, w ≠ 0 ∧ ws = List.replicate (s.degrees.map (· + 1)).prod w) (jac : List ℝ → Matrix (Fin n) (Fin n) ℝ) (hj : Spec.Jacobian s n jac)
    (u : List ℝ) (hu : u.length = n) :
    (jac u).det = eval (fun i : Fin n => u.getD i 0) (jacPoly fun k : Fin n => splinePoly s.degrees fun g => (s.controlPoints.getD g []).getD k 0).det := by
  rw [RingHom.map_det]
  congr 1
  ext k i
  rw [RingHom.mapMatrix_apply, Matrix.map_apply]
  refine (hj u hu k i).unique ?_
  have h1 : (fun x => point s (u.set i x) k) = fun x => eval (Function.update (fun i : Fin n => u.getD i 0) i x) (splinePoly s.degrees fun g => (s.controlPoints.getD g []).getD k 0) := by
    funext x
    rw [point_poly s hn hk hw (u.set i x) (by simpa using hu) k]
    congr 2
    funext j
    by_cases h : j = i
    · subst h
      rw [Function.update_self, List.getD_eq_getElem _ 0 (by simp; omega), List.getElem_set_self]
    · rw [Function.update_of_ne h, List.getD_eq_getElem _ 0 (by simp; omega), List.getElem_set_ne (fun e => h (Fin.ext e.symm)), List.getD_eq_getElem u 0 (by omega)]
  rw [h1]
  exact hasDerivAt_eval _ _ _

theorem det_degree {n : ℕ} (P : Fin n → MvPolynomial (Fin n) ℝ) (i : Fin n) (d : ℕ) (hd : 1 ≤ d) (h : ∀ k, (P k).degreeOf i ≤ d) : (jacPoly P).det.degreeOf i ≤ d * n - 1 := by
  rw [Matrix.det_apply]
  refine le_trans (degreeOf_sum_le _ _ _) (Finset.sup_le fun σ _ => ?_)
  have h1 : degreeOf i (∏ k, jacPoly P (σ k) k) ≤ d * n - 1 := by
    refine le_trans (degreeOf_prod_le _ _ _) ?_
    have h2 : ∀ k ∈ (Finset.univ : Finset (Fin n)), degreeOf i (jacPoly P (σ k) k) ≤ d - if i = k then 1 else 0 := by
      intro k _
      refine le_trans (degreeOf_pderiv _ _ _) ?_
      have := h (σ k)
      omega
    refine le_trans (Finset.sum_le_sum h2) ?_
    have h3 : ∑ k : Fin n, (d - if i = k then 1 else 0) + 1 = d * n := by
      have : ∑ k : Fin n, (d - if i = k then 1 else 0) + ∑ k : Fin n, (if i = k then 1 else 0) = d * n := by
        rw [← Finset.sum_add_distrib, Finset.sum_congr rfl (g := fun _ => d) fun k _ => by split <;> omega]
        simp [mul_comm]
      simpa using this
    omega
  rcases Int.units_eq_one_or (Equiv.Perm.sign σ) with hs | hs
  · rw [hs, one_smul]; exact h1
  · rw [hs, Units.neg_smul, one_smul, degreeOf_neg]; exact h1

/-! ### the linear system -/

theorem firstFastest_length {α : Type} (A : List (List α)) : (firstFastest A).length = (A.map List.length).prod := by
  induction A with
  | nil => rfl
  | cons a A ih =>
    simp only [firstFastest, List.length_flatMap, List.length_map, List.map_const', List.sum_replicate, List.map_cons, List.prod_cons, ih, smul_eq_mul]
    ring

/-- A square system that determines its unknowns has exactly one solution for every right hand side. -/
theorem exists_unique_solution (A : List (List ℝ)) (b : List ℝ)
    (h : ∀ c : ℕ → ℝ, (∀ r < A.length, ∑ j ∈ range A.length, (A.getD r []).getD j 0 * c j = 0) → ∀ j < A.length, c j = 0) : ∃! c, Spec.Solution A b c := by
  let M : Matrix (Fin A.length) (Fin A.length) ℝ := fun r j => (A.getD r []).getD j 0
  have hsum : ∀ (c : List ℝ), c.length = A.length → ∀ r : Fin A.length, ((List.range c.length).map fun j => (A.getD r []).getD j 0 * c.getD j 0).sum =
      (M.mulVec fun j => c.getD j 0) r := by
    intro c hc r
    rw [list_sum_range, hc]
    exact (Fin.sum_univ_eq_sum_range (fun j => (A.getD r []).getD j 0 * c.getD j 0) A.length).symm
  have hinj : Function.Injective M.mulVecLin := by
    rw [← LinearMap.ker_eq_bot, LinearMap.ker_eq_bot']
    intro v hv
    have := h (fun j => if hj : j < A.length then v ⟨j, hj⟩ else 0) (fun r hr => by
      have := congrFun hv ⟨r, hr⟩
      rw [Matrix.mulVecLin_apply, Pi.zero_apply] at this
      rw [← Fin.sum_univ_eq_sum_range (fun j => (A.getD r []).getD j 0 * if hj : j < A.length then v ⟨j, hj⟩ else 0) A.length]
      refine Eq.trans (Finset.sum_congr rfl fun j _ => ?_) this
      rw [dif_pos j.2])
    funext j
    simpa using this j j.2
  obtain ⟨v, hv⟩ := LinearMap.injective_iff_surjective.1 hinj (fun r => b.getD r 0)
  refine ⟨List.ofFn v, ⟨by simp, ?_⟩, ?_⟩
  · intro r hr
    have := congrFun hv ⟨r, hr⟩
    rw [Matrix.mulVecLin_apply] at this
    rw [hsum (List.ofFn v) (by simp) ⟨r, hr⟩, ← this]
    congr 1
    congr 1
    funext j
    rw [List.getD_eq_getElem _ 0 (by simp)]
    simp
  · rintro c ⟨hc, hsol⟩
    have e : (fun j : Fin A.length => c.getD j 0) = v := by
      apply hinj
      rw [hv, Matrix.mulVecLin_apply]
      funext r
      rw [← hsum c hc r, hsol r r.2]
    apply List.ext_getElem
    · simpa using hc
    · intro j h1 h2
      have := congrFun e ⟨j, by omega⟩
      simp only [List.getD_eq_getElem c 0 h1] at this
      rw [this]
      simp

theorem getD_map_range (N : ℕ) (f : ℕ → ℝ) (j : ℕ) (hj : j < N) : ((List.range N).map f).getD j 0 = f j := by
  rw [List.getD_eq_getElem _ 0 (by simpa using hj)]
  simp

/-- C88: for a Bezier spline, or a rational one with equal weights, from and into the same dimension, `determinant_spline` returns a Bezier spline whose value is the determinant of the
Jacobian of the spline at every parameter. -/
theorem determinant_spline_evaluates_partial (eps tol : ℝ) (n : ℕ) (s : Index.Spline ℝ (List ℝ)) (hn : s.degrees.length = n) (h0 : 0 < n) (hk : s.knotVectors = none)
    (hw : ∀ ws, s.weights = some ws → ∃ w, w ≠ 0 ∧ ws = List.replicate (s.degrees.map (· + 1)).prod w) (hd : ∀ d ∈ s.degrees, 2 ≤ d * n)
    (jac : List ℝ → Matrix (Fin n) (Fin n) ℝ) (hj : Spec.Jacobian s n jac) (solve : List (List ℝ) → List ℝ → Option (List ℝ)) (hs : Spec.Solver solve) :
    ∃ d, determinantSpline eps tol n (fun q => (jac q).det) solve s = some d ∧ d.degrees = s.degrees.map (· * n - 1) ∧ d.knotVectors = none ∧ d.weights = none ∧
      d.controlPoints.length = (s.degrees.map (· * n)).prod ∧ (∀ p ∈ d.controlPoints, p.length = 1) ∧ ∀ u, u.length = n → point d u 0 = (jac u).det := by
  have hds : ∀ d ∈ determinantDegrees n s.degrees, 0 < d := by
    intro d h
    obtain ⟨e, he, rfl⟩ := List.mem_map.1 h
    have := hd e he
    omega
  have hlen : (determinantDegrees n s.degrees).length = n := by simpa [determinantDegrees] using hn
  have hne : (determinantDegrees n s.degrees).map (Greville.bezierAbscissae (K := ℝ)) ≠ [] := by
    intro e
    have := congrArg List.length e
    simp [hlen] at this
    omega
  unfold determinantSpline
  rw [if_neg (by simp [hn])]
  simp only
  rw [if_neg (by simpa using fun h => (hds 0 h).ne' rfl), hk]
  simp only
  rw [interpolate, Integrate.rows_eq _ hne, Option.bind_some]
  generalize hD : determinantDegrees n s.degrees = D at *
  generalize hQ : firstFastest (D.map (Greville.bezierAbscissae (K := ℝ))) = Q
  have hQlen : Q.length = (D.map (· + 1)).prod := by
    rw [← hQ, firstFastest_length, List.map_map]
    congr 1
    apply List.map_congr_left
    intro d _
    simp [Greville.bezierAbscissae]
  have hQmem : ∀ q ∈ Q, q.length = n ∧ ∀ (i : ℕ) (hi : i < D.length), q.getD i 0 ∈ Greville.bezierAbscissae (K := ℝ) D[i] := by
    intro q hq
    rw [← hQ, mem_firstFastest] at hq
    have hl := hq.length_eq
    rw [List.length_map, hlen] at hl
    refine ⟨hl.symm, fun i hi => ?_⟩
    have := (List.forall₂_iff_get.1 hq).2 i (by simpa using hi) (by omega)
    rw [List.getD_eq_getElem q 0 (by omega)]
    simpa using this
  have hbasis : ∀ q, basisValues (⟨D, none, none, []⟩ : Index.Spline ℝ (List ℝ)) q = List.zipWith (fun b x => b x) (D.map fun d (x : ℝ) j => bernstein d j 0 1 x) q := by
    intro q
    simp only [basisValues, directions, List.zipWith_map_left]
    rfl
  have hrow : ∀ r < Q.length, ∀ j < Q.length, ((Q.map (matrixRow ⟨D, none, none, []⟩)).getD r []).getD j 0 =
      basisProduct (basisValues (⟨D, none, none, []⟩ : Index.Spline ℝ (List ℝ)) (Q.getD r [])) (digits (D.map (· + 1)) j) := by
    intro r hr j hj
    rw [List.getD_eq_getElem (Q.map _) [] (by simpa using hr), List.getElem_map, matrixRow, netSize_bezier, getD_map_range _ _ _ (by omega), List.getD_eq_getElem Q [] hr]
  have hdet : ∀ c : ℕ → ℝ, (∀ q ∈ Q, ∑ g ∈ range (D.map (· + 1)).prod, basisProduct (basisValues (⟨D, none, none, []⟩ : Index.Spline ℝ (List ℝ)) q) (digits (D.map (· + 1)) g) * c g = 0) →
      ∀ g < (D.map (· + 1)).prod, c g = 0 := by
    intro c hc
    refine tensor_determined (D.map fun d (x : ℝ) j => bernstein d j 0 1 x) (D.map (· + 1)) (D.map Greville.bezierAbscissae) (by simp) (by simp) ?_ c ?_
    · intro i h1 h2 h3
      simp only [List.getElem_map]
      exact bernstein_determined _ (hds _ (List.getElem_mem _))
    · intro q hq
      rw [hQ] at hq
      refine Eq.trans (Finset.sum_congr rfl fun g _ => ?_) (hc q hq)
      rw [hbasis]
  have huniq := exists_unique_solution (Q.map (matrixRow ⟨D, none, none, []⟩)) (Q.map fun q => (jac q).det) (by
    intro c hc
    rw [List.length_map] at hc ⊢
    rw [hQlen]
    refine hdet c fun q hq => ?_
    obtain ⟨r, hr, rfl⟩ := List.getElem_of_mem hq
    have := hc r hr
    rw [hQlen] at this
    refine Eq.trans (Finset.sum_congr rfl fun j hj => ?_) this
    rw [hrow r hr j (by rw [hQlen]; exact mem_range.1 hj), List.getD_eq_getElem Q [] hr])
  obtain ⟨c, hc, hsol⟩ := hs _ _ (by
    intro row hrow
    obtain ⟨q, -, rfl⟩ := List.mem_map.1 hrow
    simp only [matrixRow, List.length_map, List.length_range, netSize_bezier]
    omega) (by simp) huniq
  rw [hc]
  have hclen : c.length = (D.map (· + 1)).prod := by rw [hsol.1, List.length_map, hQlen]
  refine ⟨_, rfl, by rw [← hD]; rfl, rfl, rfl, ?_, ?_, ?_⟩
  · simp only [List.length_map]
    rw [hclen, ← hD, determinantDegrees, List.map_map]
    congr 1
    apply List.map_congr_left
    intro d h
    have := hd d h
    simp only [Function.comp]
    omega
  · intro p hp
    obtain ⟨x, -, rfl⟩ := List.mem_map.1 hp
    rfl
  · have hcoef : ∀ g < (D.map (· + 1)).prod, ((c.map fun x => [x]).getD g []).getD 0 0 = c.getD g 0 := by
      intro g hg
      rw [List.getD_eq_getElem _ [] (by rw [List.length_map, hclen]; exact hg), List.getElem_map, List.getD_eq_getElem c 0 (by rw [hclen]; exact hg)]
      rfl
    set P := (splinePoly (n := n) D fun g => ((c.map fun x => [x]).getD g []).getD 0 0) - (jacPoly fun k : Fin n => splinePoly s.degrees fun g => (s.controlPoints.getD g []).getD k 0).det with hP
    have hzero : P = 0 := by
      refine eq_zero_of_eval_zero_at_prod_finset P (fun i => nodes (D.getD i 0)) (fun i => ?_) (fun x hx => ?_)
      · have hi : (i : ℕ) < D.length := by omega
        have hDi : 0 < D.getD i 0 := by
          rw [List.getD_eq_getElem D 0 hi]
          exact hds _ (List.getElem_mem _)
        rw [nodes_card _ hDi]
        refine Nat.lt_succ_of_le (le_trans (degreeOf_sub_le _ _ _) (max_le (splinePoly_degree D hlen _ i) ?_))
        have hi' : (i : ℕ) < s.degrees.length := by omega
        have h2 := hd (s.degrees.getD i 0) (by rw [List.getD_eq_getElem s.degrees 0 hi']; exact List.getElem_mem _)
        refine le_trans (det_degree _ i (s.degrees.getD i 0) (by by_contra h; push Not at h; have : s.degrees.getD i 0 = 0 := by omega
                                                                 rw [this] at h2; omega) (fun k => splinePoly_degree s.degrees hn _ i)) ?_
        rw [List.getD_eq_getElem D 0 hi, List.getD_eq_getElem s.degrees 0 hi']
        simp only [← hD, determinantDegrees, List.getElem_map, le_refl]
      · have hq : List.ofFn x ∈ Q := by
          rw [← hQ, mem_firstFastest, List.forall₂_iff_get]
          refine ⟨by simp [hlen], fun i h1 h2 => ?_⟩
          have hi : i < n := by simpa using h2
          have := hx ⟨i, hi⟩
          rw [nodes, List.mem_toFinset] at this
          rw [List.getD_eq_getElem D 0 (by omega)] at this
          simpa using this
        obtain ⟨r, hr, hrq⟩ := List.getElem_of_mem hq
        have h1 := hsol.2 r (by simpa using hr)
        rw [list_sum_range, hclen] at h1
        have hxe : (fun i : Fin n => (List.ofFn x).getD i 0) = x := by
          funext i
          rw [List.getD_eq_getElem _ 0 (by simp)]
          simp
        rw [hP, map_sub, sub_eq_zero]
        have h2 := jac_eq s hn hk hw jac hj (List.ofFn x) (by simp)
        rw [hxe] at h2
        rw [← h2]
        have h3 : (Q.map fun q => (jac q).det).getD r 0 = (jac (List.ofFn x)).det := by
          rw [List.getD_eq_getElem _ 0 (by simpa using hr), List.getElem_map, hrq]
        rw [← h3, ← h1]
        have h4 := tensorEval_poly D hlen none [] (List.ofFn x) (by simp) fun g => ((c.map fun x => [x]).getD g []).getD 0 0
        rw [hxe] at h4
        rw [← h4, tensorEval_eq_sum]
        refine Finset.sum_congr rfl fun g hg => ?_
        have hg' := mem_range.1 hg
        rw [hrow r hr g (by omega), getD_map_range _ _ _ hg', hcoef g hg', List.getD_eq_getElem Q [] hr, hrq]
    intro u hu
    rw [point_poly ⟨D, none, none, c.map fun x => [x]⟩ hlen rfl (by simp) u hu 0, jac_eq s hn hk hw jac hj u hu, ← sub_eq_zero, ← map_sub]
    rw [hzero] at hP
    rw [← hP, map_zero]

/-- Every Bezier spline has a Jacobian in this sense, and a solver in this sense exists. -/
theorem jacobian_exists (s : Index.Spline ℝ (List ℝ)) (n : ℕ) (hn : s.degrees.length = n) (hk : s.knotVectors = none)
    (hw : ∀ ws, s.weights = some ws → ∃ w, w ≠ 0 ∧ ws = List.replicate (s.degrees.map (· + 1)).prod w) : ∃ jac, Spec.Jacobian s n jac := by
  refine ⟨fun u k i => eval (fun i : Fin n => u.getD i 0) (pderiv i (splinePoly s.degrees fun g => (s.controlPoints.getD g []).getD k 0)), fun u hu k i => ?_⟩
  have h1 : (fun x => point s (u.set i x) k) = fun x => eval (Function.update (fun i : Fin n => u.getD i 0) i x) (splinePoly s.degrees fun g => (s.controlPoints.getD g []).getD k 0) := by
    funext x
    rw [point_poly s hn hk hw (u.set i x) (by simpa using hu) k]
    congr 2
    funext j
    by_cases h : j = i
    · subst h
      rw [Function.update_self, List.getD_eq_getElem _ 0 (by simp; omega), List.getElem_set_self]
    · rw [Function.update_of_ne h, List.getD_eq_getElem _ 0 (by simp; omega), List.getElem_set_ne (fun e => h (Fin.ext e.symm)), List.getD_eq_getElem u 0 (by omega)]
  rw [h1]
  exact hasDerivAt_eval _ _ _

open Classical in
theorem solver_exists : ∃ solve, Spec.Solver solve :=
  ⟨fun A b => if h : ∃ c, Spec.Solution A b c then some h.choose else none, fun A b _ _ h => by
    exact ⟨_, dif_pos h.exists, h.exists.choose_spec⟩⟩

/-- C88: the documented use, "dmin > 0 --> spline is not tangled": when all control points of the determinant spline are positive, the Jacobian has a positive determinant
everywhere in the parametric domain. -/
theorem determinant_spline_positive_partial (eps tol : ℝ) (n : ℕ) (s d : Index.Spline ℝ (List ℝ)) (hn : s.degrees.length = n) (h0 : 0 < n) (hk : s.knotVectors = none)
    (hw : ∀ ws, s.weights = some ws → ∃ w, w ≠ 0 ∧ ws = List.replicate (s.degrees.map (· + 1)).prod w) (hd : ∀ d ∈ s.degrees, 2 ≤ d * n)
    (jac : List ℝ → Matrix (Fin n) (Fin n) ℝ) (hj : Spec.Jacobian s n jac) (solve : List (List ℝ) → List ℝ → Option (List ℝ)) (hs : Spec.Solver solve)
    (he : determinantSpline eps tol n (fun q => (jac q).det) solve s = some d) (hpos : ∀ p ∈ d.controlPoints, ∀ x ∈ p, 0 < x) (u : List ℝ) (hu : u.length = n) (h01 : ∀ x ∈ u, 0 ≤ x ∧ x ≤ 1) :
    0 < (jac u).det := by
  obtain ⟨d', he', hdeg, hkn, hwt, hlen, hone, hval⟩ := determinant_spline_evaluates_partial eps tol n s hn h0 hk hw hd jac hj solve hs
  obtain rfl : d = d' := Option.some.inj (he.symm.trans he')
  rw [← hval u hu]
  obtain ⟨D, kvs, ws, P⟩ := d
  simp only at hdeg hkn hwt hlen hone hpos
  subst hkn
  subst hwt
  have hDl : D.length = n := by rw [hdeg, List.length_map, hn]
  have hnet : netSize (⟨D, none, none, P⟩ : Index.Spline ℝ (List ℝ)) = D.map (· + 1) := netSize_bezier ..
  have hsize : P.length = (D.map (· + 1)).prod := by
    rw [hlen, hdeg, List.map_map]
    congr 1
    apply List.map_congr_left
    intro e h
    have := hd e h
    simp only [Function.comp]
    omega
  unfold point value
  simp only
  rw [tensorEval_eq_sum, hnet]
  have hvals : ∀ b ∈ basisValues (⟨D, none, none, P⟩ : Index.Spline ℝ (List ℝ)) u, ∀ j, 0 ≤ b j := by
    intro b hb j
    unfold basisValues directions at hb
    simp only at hb
    rw [List.zipWith_map_left] at hb
    obtain ⟨i, hi, rfl⟩ := List.getElem_of_mem hb
    rw [List.getElem_zipWith]
    exact bernstein_nonneg _ _ (h01 _ (List.getElem_mem _)).1 (h01 _ (List.getElem_mem _)).2
  have hsum : ∑ g ∈ range (D.map (· + 1)).prod, basisProduct (basisValues (⟨D, none, none, P⟩ : Index.Spline ℝ (List ℝ)) u) (digits (D.map (· + 1)) g) = 1 := by
    rw [basisProduct_sum _ _ (by simp [basisValues, directions, hDl, hu])]
    apply List.prod_eq_one
    intro x hx
    obtain ⟨i, hi, rfl⟩ := List.getElem_of_mem hx
    simp only [basisValues, directions, List.getElem_zipWith, List.getElem_map]
    exact bernstein_sum _ _
  have hposg : ∀ g ∈ range (D.map (· + 1)).prod, 0 < ((List.range (D.map (· + 1)).prod).map fun i => (P.getD i []).getD 0 0).getD g 0 := by
    intro g hg
    have hg' := mem_range.1 hg
    rw [getD_map_range _ _ _ hg', List.getD_eq_getElem P [] (by omega)]
    have h1 := hone _ (List.getElem_mem (l := P) (n := g) (by omega))
    rw [List.getD_eq_getElem _ 0 (by omega)]
    exact hpos _ (List.getElem_mem (by omega)) _ (List.getElem_mem _)
  refine lt_of_le_of_ne (Finset.sum_nonneg fun g hg => mul_nonneg (basisProduct_nonneg _ _ hvals) (hposg g hg).le) fun e => ?_
  have hz := (Finset.sum_eq_zero_iff_of_nonneg fun g hg => mul_nonneg (basisProduct_nonneg _ _ hvals) (hposg g hg).le).1 e.symm
  have : ∑ g ∈ range (D.map (· + 1)).prod, basisProduct (basisValues (⟨D, none, none, P⟩ : Index.Spline ℝ (List ℝ)) u) (digits (D.map (· + 1)) g) = 0 :=
    Finset.sum_eq_zero fun g hg => (mul_eq_zero.1 (hz g hg)).resolve_right (hposg g hg).ne'
  rw [hsum] at this
  exact one_ne_zero this

/-- a biquadratic by linear patch in the plane -/
def examplePatch : Index.Spline ℝ (List ℝ) := ⟨[2, 1], none, none, [[0, 0], [1, 1], [2, 0], [0, 2], [1, 3], [2, 2]]⟩

example : ∃ jac solve d, Spec.Jacobian examplePatch 2 jac ∧ Spec.Solver solve ∧ determinantSpline 0 0 2 (fun q => (jac q).det) solve examplePatch = some d ∧ d.degrees = [3, 1] ∧
    ∀ u, u.length = 2 → point d u 0 = (jac u).det := by
  obtain ⟨jac, hj⟩ := jacobian_exists examplePatch 2 rfl rfl (by intro ws h; cases h)
  obtain ⟨solve, hs⟩ := solver_exists
  obtain ⟨d, h1, h2, -, -, -, -, h3⟩ := determinant_spline_evaluates_partial 0 0 2 examplePatch rfl (by decide) rfl (by intro ws h; cases h) (by decide) jac hj solve hs
  exact ⟨jac, solve, d, hj, hs, h1, h2, h3⟩

/-- A spline from the plane into the space is rejected. -/
theorem determinant_spline_rejects (eps tol : ℝ) (dim : ℕ) (det : List ℝ → ℝ) (solve : List (List ℝ) → List ℝ → Option (List ℝ)) (s : Index.Spline ℝ (List ℝ)) (h : dim ≠ s.degrees.length) :
    determinantSpline eps tol dim det solve s = none := by
  unfold determinantSpline
  rw [if_pos h]

/-- C88 is false for straight lines: the determinant of the Jacobian of a linear spline from and into one dimension is constant, but the determinant spline of degree 0 has no Greville
abscissae, so no spline is returned, with and without knot vectors. -/
theorem determinant_spline_linear_violates (eps tol : ℝ) (solve : List (List ℝ) → List ℝ → Option (List ℝ)) (a b : ℝ) (kvs : Option (List (List ℝ))) (P : List (List ℝ)) :
    (∀ u : ℝ, HasDerivAt (fun x => point (⟨[1], none, none, [[a], [b]]⟩ : Index.Spline ℝ (List ℝ)) [x] 0) (b - a) u) ∧
      determinantSpline eps tol 1 (fun _ => b - a) solve ⟨[1], none, none, [[a], [b]]⟩ = none ∧
      ∀ det, determinantSpline eps tol 1 det solve ⟨[1], kvs, none, P⟩ = none := by
  refine ⟨fun u => ?_, ?_, fun det => ?_⟩
  · have e : (fun x => point (⟨[1], none, none, [[a], [b]]⟩ : Index.Spline ℝ (List ℝ)) [x] 0) = fun x => a + (b - a) * x := by
      funext t
      simp [point, value, netSize, directions, basisValues, Direction.basis, Direction.size, tensorEval, basisProduct, digits, List.range_succ, bernstein]
      ring
    rw [e]
    simpa using ((hasDerivAt_id u).const_mul (b - a)).const_add a
  · unfold determinantSpline determinantDegrees
    simp
  · unfold determinantSpline determinantDegrees
    simp

end Splinepy.DetSpline
