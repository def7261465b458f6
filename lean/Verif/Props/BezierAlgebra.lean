import Verif.Model.BezierAlgebra
import Verif.Props.DetSpline
import Mathlib.Algebra.MvPolynomial.Monad
import Mathlib.Analysis.Calculus.FDeriv.Pi
import Mathlib.Analysis.Calculus.Deriv.Pi
import Mathlib.Analysis.Calculus.Deriv.Comp
import Mathlib.Analysis.Calculus.FDeriv.Mul
import Mathlib.Analysis.Calculus.FDeriv.Add
import Mathlib.Analysis.Calculus.Deriv.Inv

/-!
C104, C105: derivatives of compositions, products and sums of Bezier splines.
-/
namespace Splinepy.BezierAlgebra
open Splinepy.Index (Spline)
open Splinepy.Spec Finset

set_option linter.unusedSectionVars false

/-! ### Specification -/

/-- a point of the unit cube -/
def Spec.Cube (n : ℕ) (u : List ℝ) : Prop := u.length = n ∧ ∀ x ∈ u, 0 ≤ x ∧ x ≤ 1

/-- all coordinates of the point of a spline -/
noncomputable def Spec.image (s : Spline ℝ (List ℝ)) (u : List ℝ) : List ℝ := (List.range (Create.dim s)).map (point s u)

/-- Bezier splines of the same number of parameters; `r` is rational iff `b` -/
def Spec.Shape (r : Spline ℝ (List ℝ)) (n dim : ℕ) (b : Bool) : Prop := r.knotVectors = none ∧ r.degrees.length = n ∧ Create.dim r = dim ∧ r.weights.isSome = b

/-- the order of a first derivative in direction `i` -/
def Spec.first (n i : ℕ) : List ℕ := (List.range n).map fun j => if j = i then 1 else 0

/-- The operations of bezman do what their names say on the splines of a class `Q`. -/
structure Spec.Correct (ops : Operations ℝ) (Q : Spline ℝ (List ℝ) → Prop) : Prop where
  bezier : ∀ s, Q s → s.knotVectors = none
  /-- partial derivatives -/
  derivative : ∀ s, Q s → ∀ i < s.degrees.length,
    Q (ops.derivative s (Spec.first s.degrees.length i)) ∧ Spec.Shape (ops.derivative s (Spec.first s.degrees.length i)) s.degrees.length (Create.dim s) s.weights.isSome ∧
    ∀ u, Spec.Cube s.degrees.length u → ∀ k, HasDerivAt (fun x => point s (u.set i x) k) (point (ops.derivative s (Spec.first s.degrees.length i)) u k) (u.getD i 0)
  /-- the outer function at the point of the inner function -/
  compose : ∀ a b, Q a → Q b → Create.dim b = a.degrees.length →
    Q (ops.compose a b) ∧ Spec.Shape (ops.compose a b) b.degrees.length (Create.dim a) (a.weights.isSome || b.weights.isSome) ∧
    ∀ u, Spec.Cube b.degrees.length u → Spec.Cube a.degrees.length (Spec.image b u) → ∀ k, point (ops.compose a b) u k = point a (Spec.image b u) k
  /-- a product with a scalar function -/
  scaled : ∀ a b, Q a → Q b → a.weights.isSome = b.weights.isSome → a.degrees.length = b.degrees.length → Create.dim b = 1 →
    Q (ops.times a b) ∧ Spec.Shape (ops.times a b) a.degrees.length (Create.dim a) a.weights.isSome ∧
    ∀ u, Spec.Cube a.degrees.length u → ∀ k, point (ops.times a b) u k = point a u k * point b u 0
  /-- the scalar product of two functions of the same dimension -/
  inner : ∀ a b, Q a → Q b → a.weights.isSome = b.weights.isSome → a.degrees.length = b.degrees.length → Create.dim a = Create.dim b → Create.dim b ≠ 1 →
    Q (ops.times a b) ∧ Spec.Shape (ops.times a b) a.degrees.length 1 a.weights.isSome ∧
    ∀ u, Spec.Cube a.degrees.length u → point (ops.times a b) u 0 = ∑ k ∈ range (Create.dim a), point a u k * point b u k
  plus : ∀ a b, Q a → Q b → a.weights.isSome = b.weights.isSome → a.degrees.length = b.degrees.length → Create.dim a = Create.dim b →
    Q (ops.plus a b) ∧ Spec.Shape (ops.plus a b) a.degrees.length (Create.dim a) a.weights.isSome ∧
    ∀ u, Spec.Cube a.degrees.length u → ∀ k, point (ops.plus a b) u k = point a u k + point b u k
  extract : ∀ s, Q s → ∀ i < Create.dim s,
    Q (ops.extract s i) ∧ Spec.Shape (ops.extract s i) s.degrees.length 1 s.weights.isSome ∧ ∀ u, Spec.Cube s.degrees.length u → point (ops.extract s i) u 0 = point s u i

/-! ### the chain rule of the code -/

variable {ops : Operations ℝ} {Q : Spline ℝ (List ℝ) → Prop}

theorem name_eq {a b : Spline ℝ (List ℝ)} (ha : a.knotVectors = none) (hb : b.knotVectors = none) : name a = name b ↔ a.weights.isSome = b.weights.isSome := by
  unfold name SplineCore.dispatch
  rw [ha, hb]
  cases a.weights <;> cases b.weights <;> simp

theorem summand_spec (h : Spec.Correct ops Q) {maxDim : ℕ} {outer inner innerDer : Spline ℝ (List ℝ)} (ho : Q outer) (hi : Q inner) (hd : Q innerDer) {i : ℕ}
    (hin : i < outer.degrees.length) {t : Spline ℝ (List ℝ)} (ht : summand ops maxDim outer inner innerDer i = some t) :
    Q t ∧ Spec.Shape t inner.degrees.length (Create.dim outer) (outer.weights.isSome || inner.weights.isSome) ∧ innerDer.degrees.length = inner.degrees.length ∧
    ∀ u, Spec.Cube inner.degrees.length u → Spec.Cube outer.degrees.length (Spec.image inner u) → ∀ k,
      point t u k = point (ops.derivative outer (Spec.first outer.degrees.length i)) (Spec.image inner u) k * point innerDer u i := by
  obtain ⟨q1, s1, -⟩ := h.derivative outer ho i hin
  unfold summand at ht
  change (compose ops maxDim (ops.derivative outer (Spec.first outer.degrees.length i)) inner).bind _ = _ at ht
  generalize hD : ops.derivative outer (Spec.first outer.degrees.length i) = D at *
  obtain ⟨k1, n1, d1, w1⟩ := s1
  unfold compose at ht
  split at ht
  · simp at ht
  split at ht
  · simp at ht
  rename_i hdim
  split at ht
  · simp at ht
  rw [Option.bind_some] at ht
  rw [not_not] at hdim
  obtain ⟨q2, ⟨k2, n2, d2, w2⟩, v2⟩ := h.compose D inner q1 hi hdim
  unfold extractDim at ht
  split at ht
  · simp at ht
  split at ht
  · simp at ht
  rename_i hlt
  rw [Option.bind_some] at ht
  obtain ⟨q3, ⟨k3, n3, d3, w3⟩, v3⟩ := h.extract innerDer hd i (by omega)
  unfold multiply at ht
  split at ht
  · simp at ht
  split at ht
  · simp at ht
  rename_i hname
  split at ht
  · simp at ht
  rename_i hpd
  split at ht
  · simp at ht
  rw [not_not] at hname hpd
  rw [name_eq k2 k3] at hname
  obtain ⟨q4, ⟨k4, n4, d4, w4⟩, v4⟩ := h.scaled _ _ q2 q3 hname hpd d3
  obtain rfl := Option.some.inj ht
  refine ⟨q4, ⟨k4, by rw [n4, n2], by rw [d4, d2, d1], by rw [w4, w2, w1]⟩, by rw [← n2, hpd, n3], fun u hu hK k => ?_⟩
  rw [v4 u (by rw [n2]; exact hu), v2 u hu (by rw [n1]; exact hK), v3 u (by rw [← n3, ← hpd, n2]; exact hu)]

/-- The composition derivative is the sum of the chain rule. -/
theorem composition_derivative_sum (h : Spec.Correct ops Q) {maxDim : ℕ} {outer inner innerDer r : Spline ℝ (List ℝ)} (ho : Q outer) (hi : Q inner) (hd : Q innerDer)
    (h0 : 0 < outer.degrees.length) (hr : compositionDerivative ops maxDim outer inner innerDer = some r) :
    Q r ∧ Spec.Shape r inner.degrees.length (Create.dim outer) (outer.weights.isSome || inner.weights.isSome) ∧ Create.dim inner = outer.degrees.length ∧
    ∀ u, Spec.Cube inner.degrees.length u → Spec.Cube outer.degrees.length (Spec.image inner u) → ∀ k,
      point r u k = ∑ i ∈ range outer.degrees.length, point (ops.derivative outer (Spec.first outer.degrees.length i)) (Spec.image inner u) k * point innerDer u i := by
  unfold compositionDerivative at hr
  split at hr
  · simp at hr
  split at hr
  · simp at hr
  rename_i hdim
  rw [not_not] at hdim
  cases hf : summand ops maxDim outer inner innerDer 0 with
  | none => rw [hf] at hr; simp at hr
  | some first =>
    rw [hf, Option.bind_some] at hr
    have key : ∀ m, m ≤ outer.degrees.length - 1 → ∀ r, (List.range m).foldlM (fun acc i => (summand ops maxDim outer inner innerDer (i + 1)).bind (add ops acc)) first = some r →
        Q r ∧ Spec.Shape r inner.degrees.length (Create.dim outer) (outer.weights.isSome || inner.weights.isSome) ∧
        ∀ u, Spec.Cube inner.degrees.length u → Spec.Cube outer.degrees.length (Spec.image inner u) → ∀ k,
          point r u k = ∑ i ∈ range (m + 1), point (ops.derivative outer (Spec.first outer.degrees.length i)) (Spec.image inner u) k * point innerDer u i := by
      intro m
      induction m with
      | zero =>
        intro _ r hr
        obtain rfl : first = r := by simpa using hr
        obtain ⟨q, s, -, v⟩ := summand_spec h ho hi hd h0 hf
        exact ⟨q, s, fun u hu hK k => by rw [v u hu hK k]; simp⟩
      | succ m ih =>
        intro hm r hr
        rw [List.range_succ, List.foldlM_append] at hr
        cases hacc : (List.range m).foldlM (fun acc i => (summand ops maxDim outer inner innerDer (i + 1)).bind (add ops acc)) first with
        | none => rw [hacc] at hr; simp at hr
        | some acc =>
          rw [hacc] at hr
          obtain ⟨q, ⟨k1, n1, d1, w1⟩, v⟩ := ih (by omega) acc hacc
          simp only [List.foldlM_cons, List.foldlM_nil, Option.bind_eq_bind, Option.bind_some] at hr
          cases hs : summand ops maxDim outer inner innerDer (m + 1) with
          | none => rw [hs] at hr; simp at hr
          | some t =>
            obtain ⟨q', ⟨k2, n2, d2, w2⟩, -, v'⟩ := summand_spec h ho hi hd (by omega) hs
            rw [hs, Option.bind_some] at hr
            have hadd : add ops acc t = some (ops.plus acc t) := by
              unfold add
              rw [if_neg (by simp [isBezier, k1]), if_neg (by rw [not_not, name_eq k1 k2, w1, w2]), if_neg (by rw [not_not, n1, n2]), if_neg (by rw [not_not, d1, d2])]
            rw [hadd] at hr
            obtain rfl : ops.plus acc t = r := by simpa using hr
            obtain ⟨q'', ⟨k3, n3, d3, w3⟩, v''⟩ := h.plus acc t q q' (by rw [w1, w2]) (by rw [n1, n2]) (by rw [d1, d2])
            refine ⟨q'', ⟨k3, by rw [n3, n1], by rw [d3, d1], by rw [w3, w1]⟩, fun u hu hK k => ?_⟩
            rw [v'' u (by rw [n1]; exact hu), v u hu hK, v' u hu hK, sum_range_succ _ (m + 1)]
    obtain ⟨q, s, v⟩ := key _ le_rfl r hr
    refine ⟨q, s, hdim, fun u hu hK k => ?_⟩
    rw [v u hu hK k, Nat.sub_add_cancel h0]

/-! ### total derivatives of Bezier splines -/

open MvPolynomial in
theorem point_quotient {n : ℕ} (s : Spline ℝ (List ℝ)) (hn : s.degrees.length = n) (hk : s.knotVectors = none) (k : ℕ) :
    ∃ p q : MvPolynomial (Fin n) ℝ, ∀ u : List ℝ, u.length = n → point s u k = eval (fun i : Fin n => u.getD i 0) p / eval (fun i : Fin n => u.getD i 0) q ∧
      (ValidSpline s → Spec.Cube n u → eval (fun i : Fin n => u.getD i 0) q ≠ 0) := by
  obtain ⟨ds, kvs, ws, P⟩ := s
  simp only at hk hn
  subst hk
  cases ws with
  | none =>
    refine ⟨DetSpline.splinePoly ds fun g => (P.getD g []).getD k 0, 1, fun u hu => ⟨?_, fun _ _ => by simp⟩⟩
    rw [map_one, div_one]
    exact DetSpline.point_poly (⟨ds, none, none, P⟩ : Spline ℝ (List ℝ)) hn rfl (by simp) u hu k
  | some ws =>
    refine ⟨DetSpline.splinePoly ds fun g => ws.getD g 0 * (P.getD g []).getD k 0, DetSpline.splinePoly ds fun g => ws.getD g 0, fun u hu => ?_⟩
    have hden : tensorEval (basisValues (⟨ds, none, some ws, P⟩ : Spline ℝ (List ℝ)) u) (ds.map (· + 1)) ws =
        eval (fun i : Fin n => u.getD i 0) (DetSpline.splinePoly ds fun g => ws.getD g 0) := by
      rw [← DetSpline.tensorEval_poly ds hn (some ws) P u hu, tensorEval_eq_sum, tensorEval_eq_sum]
      refine sum_congr rfl fun g hg => ?_
      rw [DetSpline.getD_map_range _ _ _ (mem_range.1 hg)]
    refine ⟨?_, fun hv hc => ?_⟩
    · unfold point value
      simp only [DetSpline.netSize_bezier]
      rw [DetSpline.tensorEval_poly ds hn (some ws) P u hu, hden]
    · rw [← hden]
      have hw := hv.weights ws rfl
      have := tensorEval_pos (s := (⟨ds, none, some ws, P⟩ : Spline ℝ (List ℝ))) (u := u) hv.dirs ?_ ws (by rw [hw.1, hv.net]) hw.2
      · rw [DetSpline.netSize_bezier] at this
        exact this.ne'
      · unfold InDomain directions
        simp only
        rw [List.forall₂_map_left_iff, List.forall₂_iff_get]
        refine ⟨by rw [hn, hc.1], fun i h1 h2 => ?_⟩
        have := hc.2 _ (List.get_mem u ⟨i, h2⟩)
        exact this

open MvPolynomial in
/-- chain rule for polynomials of several variables along a curve -/
theorem hasDerivAt_curve {n : ℕ} (p : MvPolynomial (Fin n) ℝ) (v : ℝ → Fin n → ℝ) (v' : Fin n → ℝ) (α : ℝ) (hv : ∀ i, HasDerivAt (fun β => v β i) (v' i) α) :
    HasDerivAt (fun β => eval (v β) p) (∑ i, eval (v α) (pderiv i p) * v' i) α := by
  induction p using MvPolynomial.induction_on with
  | C c => simpa using hasDerivAt_const α c
  | add p q hp hq =>
    have := hp.add hq
    simp only [map_add, add_mul, sum_add_distrib]
    exact this
  | mul_X p j hp =>
    have := hp.mul (hv j)
    simp only [map_mul, eval_X, Derivation.leibniz, smul_eq_mul, map_add, pderiv_X]
    refine this.congr_deriv ?_
    have e : ∀ i : Fin n, (eval (v α) p * eval (v α) (Pi.single (M := fun _ => MvPolynomial (Fin n) ℝ) i 1 j) + v α j * eval (v α) (pderiv i p)) * v' i =
        eval (v α) (pderiv i p) * v' i * v α j + (if i = j then eval (v α) p * v' j else 0) := by
      intro i
      by_cases hij : i = j
      · subst hij
        simp
        ring
      · simp [hij]
        ring
    rw [sum_congr rfl fun i _ => e i, sum_add_distrib, Finset.sum_ite_eq' univ j, if_pos (mem_univ j), sum_mul]

open MvPolynomial in
/-- A Bezier spline with given partial derivatives at a point of the unit cube has the total derivative along every curve through this point. -/
theorem point_chain (s : Spline ℝ (List ℝ)) (hk : s.knotVectors = none) (hs : ValidSpline s) (k : ℕ) (v : ℝ → List ℝ) (hl : ∀ β, (v β).length = s.degrees.length)
    (α : ℝ) (hc : Spec.Cube s.degrees.length (v α)) (d v' : ℕ → ℝ) (hd : ∀ i < s.degrees.length, HasDerivAt (fun x => point s ((v α).set i x) k) (d i) ((v α).getD i 0))
    (hv : ∀ i < s.degrees.length, HasDerivAt (fun β => (v β).getD i 0) (v' i) α) :
    HasDerivAt (fun β => point s (v β) k) (∑ i ∈ range s.degrees.length, d i * v' i) α := by
  obtain ⟨p, q, hpq⟩ := point_quotient s rfl hk k
  have hq := (hpq (v α) hc.1).2 hs hc
  have hvec : ∀ i : Fin s.degrees.length, HasDerivAt (fun β => (fun (i : Fin s.degrees.length) => (v β).getD i 0) i) (v' i) α := fun i => hv i i.2
  have hp' := hasDerivAt_curve p (fun β i => (v β).getD i 0) (fun i => v' i) α hvec
  have hq' := hasDerivAt_curve q (fun β i => (v β).getD i 0) (fun i => v' i) α hvec
  have e : (fun β => point s (v β) k) = fun β => eval (fun i : Fin s.degrees.length => (v β).getD i 0) p / eval (fun i : Fin s.degrees.length => (v β).getD i 0) q := by
    funext β
    exact (hpq (v β) (hl β)).1
  rw [e]
  refine (hp'.div hq' hq).congr_deriv ?_
  set a : Fin s.degrees.length → ℝ := fun i => (v α).getD i 0 with ha
  have hpart : ∀ i : Fin s.degrees.length, d i = (eval a (pderiv i p) * eval a q - eval a p * eval a (pderiv i q)) / eval a q ^ 2 := by
    intro i
    have h1 := DetSpline.hasDerivAt_eval p a i
    have h2 := DetSpline.hasDerivAt_eval q a i
    have h3 := h1.fun_div h2 (by simpa using hq)
    have e2 : (fun x => point s ((v α).set i x) k) = fun x => eval (Function.update a i x) p / eval (Function.update a i x) q := by
      funext x
      rw [(hpq ((v α).set i x) (by simpa using hc.1)).1]
      have : (fun j : Fin s.degrees.length => ((v α).set i x).getD j 0) = Function.update a i x := by
        funext j
        by_cases hij : j = i
        · subst hij
          rw [Function.update_self, List.getD_eq_getElem _ _ (by simpa using by have := j.2; have := hc.1; omega)]
          simp
        · rw [Function.update_of_ne hij, ha]
          simp only [List.getD_eq_getElem?_getD]
          rw [List.getElem?_set_ne (fun h => hij (Fin.ext h.symm))]
      rw [this]
    have h4 := hd i i.2
    rw [e2] at h4
    have h5 := h4.unique h3
    rw [h5]
    simp
  rw [← Fin.sum_univ_eq_sum_range (fun i => d i * v' i), sum_mul, mul_sum, ← sum_sub_distrib, sum_div]
  refine sum_congr rfl fun i _ => ?_
  rw [hpart i]
  ring

theorem image_getD (s : Spline ℝ (List ℝ)) (u : List ℝ) {i : ℕ} (hi : i < Create.dim s) : (Spec.image s u).getD i 0 = point s u i := DetSpline.getD_map_range _ _ _ hi

/-- C104: `outer.composition_derivative(inner, inner_derivative)`, if it is computed, is the derivative of `outer.compose(inner)` in every parameter on which `inner` depends with the derivative
`inner_derivative`: at every parameter of the inner function that is mapped into the unit cube, for polynomial and rational splines of every dimension. -/
theorem composition_derivative_chain (h : Spec.Correct ops Q) {maxDim : ℕ} {outer inner innerDer r : Spline ℝ (List ℝ)} (ho : Q outer) (hi : Q inner) (hd : Q innerDer)
    (hv : ValidSpline outer) (h0 : 0 < outer.degrees.length) (hr : compositionDerivative ops maxDim outer inner innerDer = some r)
    (family : ℝ → Spline ℝ (List ℝ)) (α : ℝ) (hα : family α = inner) (hdim : ∀ β, Create.dim (family β) = Create.dim inner)
    (u : List ℝ) (hu : Spec.Cube inner.degrees.length u) (hK : Spec.Cube outer.degrees.length (Spec.image inner u))
    (hder : ∀ i < outer.degrees.length, HasDerivAt (fun β => point (family β) u i) (point innerDer u i) α) (k : ℕ) :
    HasDerivAt (fun β => point outer (Spec.image (family β) u) k) (point r u k) α := by
  obtain ⟨-, -, hn, v⟩ := composition_derivative_sum h ho hi hd h0 hr
  rw [v u hu hK k]
  subst hα
  refine point_chain outer (h.bezier outer ho) hv k (fun β => Spec.image (family β) u) (fun β => by simp [Spec.image, hdim, hn]) α hK
    (fun i => point (ops.derivative outer (Spec.first outer.degrees.length i)) (Spec.image (family α) u) k) (fun i => point innerDer u i) (fun i hi' => ?_) (fun i hi' => ?_)
  · exact (h.derivative outer ho i hi').2.2 _ hK k
  · have e : (fun β => (Spec.image (family β) u).getD i 0) = fun β => point (family β) u i := by
      funext β
      exact image_getD _ _ (by rw [hdim, hn]; exact hi')
    rw [e]
    exact hder i hi'

/-! ### when it is computed -/

theorem summand_some (h : Spec.Correct ops Q) {maxDim : ℕ} {outer inner innerDer : Spline ℝ (List ℝ)} (ho : Q outer) (hi : Q inner) (hd : Q innerDer) {i : ℕ}
    (hin : i < outer.degrees.length) :
    (summand ops maxDim outer inner innerDer i).isSome ↔ (Create.dim inner = outer.degrees.length ∧ 1 ≤ inner.degrees.length ∧ inner.degrees.length ≤ maxDim ∧ i < Create.dim innerDer ∧
      innerDer.degrees.length = inner.degrees.length ∧ innerDer.weights.isSome = (outer.weights.isSome || inner.weights.isSome)) := by
  obtain ⟨q1, s1, -⟩ := h.derivative outer ho i hin
  unfold summand
  change ((compose ops maxDim (ops.derivative outer (Spec.first outer.degrees.length i)) inner).bind _).isSome = true ↔ _
  generalize hD : ops.derivative outer (Spec.first outer.degrees.length i) = D at *
  obtain ⟨k1, n1, d1, w1⟩ := s1
  unfold compose
  rw [if_neg (by simp [isBezier, k1, h.bezier inner hi]), n1]
  by_cases hdim : Create.dim inner = outer.degrees.length
  · rw [if_neg (not_not.2 hdim)]
    by_cases hm : inner.degrees.length < 1 ∨ maxDim < inner.degrees.length
    · rw [if_pos hm]
      simp
      omega
    · rw [if_neg hm, Option.bind_some]
      obtain ⟨q2, ⟨k2, n2, d2, w2⟩, v2⟩ := h.compose D inner q1 hi (by rw [n1]; exact hdim)
      unfold extractDim
      rw [if_neg (by simp [isBezier, h.bezier innerDer hd])]
      by_cases hlt : Create.dim innerDer ≤ i
      · rw [if_pos hlt]
        simp
        omega
      · rw [if_neg hlt, Option.bind_some]
        obtain ⟨q3, ⟨k3, n3, d3, w3⟩, v3⟩ := h.extract innerDer hd i (by omega)
        unfold multiply
        rw [if_neg (by simp [isBezier, k2]), n2, n3, d3]
        have hnm : (name (ops.compose D inner) ≠ name (ops.extract innerDer i)) ↔ innerDer.weights.isSome ≠ (outer.weights.isSome || inner.weights.isSome) := by
          rw [Ne, name_eq k2 k3, w2, w3, w1, Ne, eq_comm]
        by_cases hw : innerDer.weights.isSome = (outer.weights.isSome || inner.weights.isSome)
        · rw [if_neg (fun h => hnm.1 h hw)]
          by_cases hp : innerDer.degrees.length = inner.degrees.length
          · rw [if_neg (not_not.2 hp.symm), if_neg (by simp)]
            simp [hdim, hp, hw]
            omega
          · rw [if_pos (Ne.symm hp)]
            simp [hp]
        · rw [if_pos (hnm.2 hw)]
          simp [hw]
  · rw [if_pos hdim]
    simp [hdim]

/-- C104, when the derivative is computed: exactly if the points of the inner function and its derivative have (at least) as many coordinates as the outer function has parameters, the
derivative has as many parameters as the inner function, the library supports this number, and the derivative is rational iff one of the functions is. -/
theorem composition_derivative_accepts_iff (h : Spec.Correct ops Q) {maxDim : ℕ} {outer inner innerDer : Spline ℝ (List ℝ)} (ho : Q outer) (hi : Q inner) (hd : Q innerDer)
    (h0 : 0 < outer.degrees.length) :
    (compositionDerivative ops maxDim outer inner innerDer).isSome ↔ (Create.dim inner = outer.degrees.length ∧ 1 ≤ inner.degrees.length ∧ inner.degrees.length ≤ maxDim ∧
      outer.degrees.length ≤ Create.dim innerDer ∧ innerDer.degrees.length = inner.degrees.length ∧ innerDer.weights.isSome = (outer.weights.isSome || inner.weights.isSome)) := by
  unfold compositionDerivative
  rw [if_neg (by simp [isBezier, h.bezier outer ho, h.bezier inner hi])]
  by_cases hdim : Create.dim inner = outer.degrees.length
  · rw [if_neg (not_not.2 hdim)]
    have key : ∀ m first, m ≤ outer.degrees.length - 1 → summand ops maxDim outer inner innerDer 0 = some first →
        (((List.range m).foldlM (fun acc i => (summand ops maxDim outer inner innerDer (i + 1)).bind (add ops acc)) first).isSome ↔ m < Create.dim innerDer) ∧
        ∀ r, (List.range m).foldlM (fun acc i => (summand ops maxDim outer inner innerDer (i + 1)).bind (add ops acc)) first = some r →
          Q r ∧ Spec.Shape r inner.degrees.length (Create.dim outer) (outer.weights.isSome || inner.weights.isSome) := by
      intro m first hm hf
      have hall := (summand_some h ho hi hd h0 (maxDim := maxDim)).1 (by rw [hf]; rfl)
      induction m with
      | zero =>
        simp only [List.range_zero, List.foldlM_nil]
        refine ⟨by simpa using hall.2.2.2.1, ?_⟩
        rintro r hr
        obtain rfl : first = r := by simpa using hr
        obtain ⟨q, s, -⟩ := summand_spec h ho hi hd h0 hf
        exact ⟨q, s⟩
      | succ m ih =>
        obtain ⟨ih1, ih2⟩ := ih (by omega)
        rw [List.range_succ, List.foldlM_append]
        cases hacc : (List.range m).foldlM (fun acc i => (summand ops maxDim outer inner innerDer (i + 1)).bind (add ops acc)) first with
        | none =>
          rw [hacc] at ih1
          simp at ih1 ⊢
          omega
        | some acc =>
          simp only [List.foldlM_cons, List.foldlM_nil, Option.bind_eq_bind, Option.bind_some]
          obtain ⟨q, ⟨k1, n1, d1, w1⟩⟩ := ih2 acc hacc
          have hsome := summand_some h ho hi hd (maxDim := maxDim) (show m + 1 < outer.degrees.length by omega)
          cases hs : summand ops maxDim outer inner innerDer (m + 1) with
          | none =>
            rw [hs] at hsome
            simp only [Option.isSome_none, Bool.false_eq_true, false_iff] at hsome
            simp
            by_contra hc
            exact hsome ⟨hall.1, hall.2.1, hall.2.2.1, by omega, hall.2.2.2.2⟩
          | some t =>
            rw [hs] at hsome
            obtain ⟨q', ⟨k2, n2, d2, w2⟩, -, v'⟩ := summand_spec h ho hi hd (by omega) hs
            have hadd : add ops acc t = some (ops.plus acc t) := by
              unfold add
              rw [if_neg (by simp [isBezier, k1]), if_neg (by rw [not_not, name_eq k1 k2, w1, w2]), if_neg (by rw [not_not, n1, n2]), if_neg (by rw [not_not, d1, d2])]
            rw [Option.bind_some, hadd]
            have hlt := (hsome.1 rfl).2.2.2.1
            refine ⟨by simpa using hlt, ?_⟩
            intro r hr
            obtain rfl : ops.plus acc t = r := by simpa using hr
            obtain ⟨q'', ⟨k3, n3, d3, w3⟩, -⟩ := h.plus acc t q q' (by rw [w1, w2]) (by rw [n1, n2]) (by rw [d1, d2])
            exact ⟨q'', ⟨k3, by rw [n3, n1], by rw [d3, d1], by rw [w3, w1]⟩⟩
    have hsome := summand_some h ho hi hd (maxDim := maxDim) h0
    cases hf : summand ops maxDim outer inner innerDer 0 with
    | none =>
      rw [hf] at hsome
      simp only [Option.isSome_none, Bool.false_eq_true, false_iff] at hsome
      simp only [Option.bind_none, Option.isSome_none, Bool.false_eq_true, false_iff]
      rintro ⟨a, b, c, d, e⟩
      exact hsome ⟨a, b, c, by omega, e⟩
    | some first =>
      rw [Option.bind_some, (key _ first le_rfl hf).1]
      rw [hf] at hsome
      obtain ⟨a, b, c, d, e⟩ := hsome.1 rfl
      constructor
      · intro hlt
        exact ⟨a, b, c, by omega, e⟩
      · rintro ⟨-, -, -, hle, -⟩
        omega
  · rw [if_pos hdim]
    simp [hdim]

/-- C104 is violated for rational functions: the derivative with respect to a parameter of a polynomial inner function is polynomial, and then nothing is computed if the outer function is
rational (such as a deformation function with a circular arc), although the composition itself and its derivative exist. -/
theorem composition_derivative_rational_violates (h : Spec.Correct ops Q) {maxDim : ℕ} {outer inner innerDer : Spline ℝ (List ℝ)} (ho : Q outer) (hi : Q inner) (hd : Q innerDer)
    (h0 : 0 < outer.degrees.length) (hr : outer.weights.isSome) (hp : innerDer.weights = none) : compositionDerivative ops maxDim outer inner innerDer = none := by
  have := composition_derivative_accepts_iff h ho hi hd h0 (maxDim := maxDim)
  rw [← Option.not_isSome_iff_eq_none, this]
  rintro ⟨-, -, -, -, -, hw⟩
  rw [hr, hp] at hw
  simp at hw

/-! ### operations exist -/

/-- Bernstein coefficients of a power -/
noncomputable def alpha (D k j : ℕ) : ℝ := if k ≤ j then ((D - k).choose (j - k) : ℝ) / (D.choose j : ℝ) else 0

theorem power_bernstein (D k : ℕ) (hk : k ≤ D) (x : ℝ) : ∑ j ∈ range (D + 1), alpha D k j * ((D.choose j : ℝ) * x ^ j * (1 - x) ^ (D - j)) = x ^ k := by
  obtain ⟨e, rfl⟩ := Nat.exists_eq_add_of_le hk
  have hsplit : k + e + 1 = k + (e + 1) := by ring
  rw [hsplit, sum_range_add]
  have h1 : ∑ j ∈ range k, alpha (k + e) k j * (((k + e).choose j : ℝ) * x ^ j * (1 - x) ^ (k + e - j)) = 0 := by
    refine sum_eq_zero fun j hj => ?_
    rw [alpha, if_neg (by have := mem_range.1 hj; omega), zero_mul]
  have h2 : ∀ j ∈ range (e + 1), alpha (k + e) k (k + j) * (((k + e).choose (k + j) : ℝ) * x ^ (k + j) * (1 - x) ^ (k + e - (k + j))) = x ^ k * (x ^ j * (1 - x) ^ (e - j) * (e.choose j : ℝ)) := by
    intro j hj
    have hj' := mem_range.1 hj
    have hc : ((k + e).choose (k + j) : ℝ) ≠ 0 := by exact_mod_cast (Nat.choose_pos (by omega)).ne'
    rw [alpha, if_pos (by omega), Nat.add_sub_cancel_left, Nat.add_sub_cancel_left, Nat.add_sub_add_left, pow_add]
    field_simp
  rw [h1, zero_add, sum_congr rfl h2, ← mul_sum, ← add_pow x (1 - x) e]
  simp

theorem digits_sum {n : ℕ} (D : ℕ) (F : Fin n → ℕ → ℝ) :
    ∑ g ∈ range ((List.replicate n D).map (· + 1)).prod, ∏ i : Fin n, F i ((digits ((List.replicate n D).map (· + 1)) g).getD i 0) = ∏ i : Fin n, ∑ j ∈ range (D + 1), F i j := by
  have h := basisProduct_sum (List.ofFn F) ((List.replicate n D).map (· + 1)) (by simp)
  have e1 : ∀ g, basisProduct (List.ofFn F) (digits ((List.replicate n D).map (· + 1)) g) = ∏ i : Fin n, F i ((digits ((List.replicate n D).map (· + 1)) g).getD i 0) := by
    intro g
    rw [basisProduct, ← List.prod_ofFn]
    congr 1
    apply List.ext_getElem
    · simp [DetSpline.digits_length']
    · intro i h1 h2
      simp only [List.getElem_zipWith, List.getElem_ofFn]
      rw [List.getD_eq_getElem _ 0 (by rw [DetSpline.digits_length']; simpa using h2)]
  rw [sum_congr rfl fun g _ => e1 g] at h
  rw [h, ← List.prod_ofFn]
  congr 1
  apply List.ext_getElem
  · simp
  · intro i h1 h2
    simp

open MvPolynomial in
/-- Bernstein coefficients of a polynomial -/
noncomputable def coefficients {n : ℕ} (D : ℕ) (p : MvPolynomial (Fin n) ℝ) (g : ℕ) : ℝ :=
  ∑ m ∈ p.support, coeff m p * ∏ i : Fin n, alpha D (m i) ((digits ((List.replicate n D).map (· + 1)) g).getD i 0)

open MvPolynomial in
theorem splinePoly_coefficients {n : ℕ} (D : ℕ) (p : MvPolynomial (Fin n) ℝ) (hp : p.totalDegree ≤ D) (v : Fin n → ℝ) :
    eval v (DetSpline.splinePoly (List.replicate n D) (coefficients D p)) = eval v p := by
  rw [DetSpline.splinePoly, map_sum, eval_eq' v p]
  have e : ∀ g ∈ range ((List.replicate n D).map (· + 1)).prod, eval v (C (coefficients D p g) * ∏ i : Fin n, DetSpline.bern i ((List.replicate n D).getD i 0) ((digits ((List.replicate n D).map (· + 1)) g).getD i 0)) =
      ∑ m ∈ p.support, coeff m p * ∏ i : Fin n, (fun j => alpha D (m i) j * ((D.choose j : ℝ) * v i ^ j * (1 - v i) ^ (D - j))) ((digits ((List.replicate n D).map (· + 1)) g).getD i 0) := by
    intro g _
    rw [map_mul, eval_C, coefficients, sum_mul, map_prod]
    refine sum_congr rfl fun m _ => ?_
    rw [mul_assoc, ← prod_mul_distrib]
    congr 1
    refine prod_congr rfl fun i _ => ?_
    rw [List.getD_eq_getElem (List.replicate n D) 0 (by simp)]
    simp [DetSpline.bern]
  rw [sum_congr rfl e, sum_comm]
  refine sum_congr rfl fun m hm => ?_
  rw [← mul_sum]
  congr 1
  rw [digits_sum D fun (i : Fin n) j => alpha D (m i) j * ((D.choose j : ℝ) * v i ^ j * (1 - v i) ^ (D - j))]
  refine prod_congr rfl fun i _ => power_bernstein D (m i) ?_ (v i)
  refine le_trans ?_ hp
  refine le_trans ?_ (le_totalDegree hm)
  by_cases h : m i = 0
  · rw [h]; exact Nat.zero_le _
  · exact Finset.single_le_sum (f := fun a => m a) (fun _ _ => Nat.zero_le _) (Finsupp.mem_support_iff.2 h)

/-- the Bezier splines with constant weights one -/
def Spec.Polynomial (s : Spline ℝ (List ℝ)) : Prop :=
  s.knotVectors = none ∧ s.controlPoints ≠ [] ∧ (∀ r ∈ s.controlPoints, r.length = Create.dim s) ∧ ∀ ws, s.weights = some ws → ws = List.replicate (s.degrees.map (· + 1)).prod 1

/-- a Bezier spline with given coordinate functions -/
noncomputable def represent (n dim : ℕ) (b : Bool) (f : ℕ → MvPolynomial (Fin n) ℝ) : Spline ℝ (List ℝ) :=
  let D := (range dim).sup fun k => (f k).totalDegree
  let N := ((List.replicate n D).map (· + 1)).prod
  ⟨List.replicate n D, none, if b then some (List.replicate N 1) else none, (List.range N).map fun g => (List.range dim).map fun k => coefficients D (f k) g⟩

theorem prod_pos' (n D : ℕ) : 0 < ((List.replicate n D).map (· + 1)).prod := by
  rw [List.map_replicate, List.prod_replicate]
  positivity

theorem represent_spec (n dim : ℕ) (b : Bool) (f : ℕ → MvPolynomial (Fin n) ℝ) :
    Spec.Polynomial (represent n dim b f) ∧ Spec.Shape (represent n dim b f) n dim b ∧
    ∀ u : List ℝ, u.length = n → ∀ k, point (represent n dim b f) u k = if k < dim then MvPolynomial.eval (fun i : Fin n => u.getD i 0) (f k) else 0 := by
  set D := (range dim).sup fun k => (f k).totalDegree with hD
  have hN := prod_pos' n D
  have hdim : Create.dim (represent n dim b f) = dim := by
    unfold Create.dim represent
    simp only [← hD]
    obtain ⟨m, hm⟩ := Nat.exists_eq_succ_of_ne_zero hN.ne'
    rw [hm, List.range_succ_eq_map]
    simp
  have hk : (represent n dim b f).knotVectors = none := rfl
  have hdeg : (represent n dim b f).degrees = List.replicate n D := rfl
  have hw : ∀ ws, (represent n dim b f).weights = some ws → ws = List.replicate ((represent n dim b f).degrees.map (· + 1)).prod 1 := by
    intro ws h
    unfold represent at h ⊢
    simp only at h ⊢
    split at h
    · exact (Option.some.inj h).symm
    · simp at h
  refine ⟨⟨hk, ?_, ?_, hw⟩, ⟨hk, by rw [hdeg]; simp, hdim, by unfold represent; simp only; cases b <;> simp⟩, fun u hu k => ?_⟩
  · unfold represent
    simp only [← hD, ne_eq, List.map_eq_nil_iff, List.range_eq_nil]
    omega
  · rw [hdim]
    intro r hr
    unfold represent at hr
    simp only [List.mem_map] at hr
    obtain ⟨g, -, rfl⟩ := hr
    simp
  · rw [DetSpline.point_poly (represent n dim b f) (n := n) (by rw [hdeg]; simp) hk (fun ws h => ⟨1, one_ne_zero, hw ws h⟩) u hu k, hdeg]
    have hc : ∀ g < ((List.replicate n D).map (· + 1)).prod, ((represent n dim b f).controlPoints.getD g []).getD k 0 = if k < dim then coefficients D (f k) g else 0 := by
      intro g hg
      unfold represent
      simp only [← hD]
      rw [List.getD_eq_getElem _ [] (by simpa using hg), List.getElem_map, List.getElem_range]
      split
      · rename_i h
        rw [DetSpline.getD_map_range _ _ _ h]
      · rename_i h
        rw [List.getD_eq_default _ _ (by simpa using h)]
    have hs : DetSpline.splinePoly (n := n) (List.replicate n D) (fun g => ((represent n dim b f).controlPoints.getD g []).getD k 0) =
        DetSpline.splinePoly (List.replicate n D) fun g => if k < dim then coefficients D (f k) g else 0 := by
      unfold DetSpline.splinePoly
      exact sum_congr rfl fun g hg => by simp only [hc g (mem_range.1 hg)]
    rw [hs]
    split
    · rename_i h
      exact splinePoly_coefficients D (f k) (Finset.le_sup (f := fun k => (f k).totalDegree) (mem_range.2 h)) _
    · simp [DetSpline.splinePoly]

/-- coordinate functions of a Bezier spline -/
noncomputable def polynomial (s : Spline ℝ (List ℝ)) (n : ℕ) (k : ℕ) : MvPolynomial (Fin n) ℝ := DetSpline.splinePoly s.degrees fun g => (s.controlPoints.getD g []).getD k 0

theorem polynomial_spec {s : Spline ℝ (List ℝ)} (h : Spec.Polynomial s) (u : List ℝ) (hu : u.length = s.degrees.length) (k : ℕ) :
    point s u k = MvPolynomial.eval (fun i : Fin s.degrees.length => u.getD i 0) (polynomial s s.degrees.length k) :=
  DetSpline.point_poly s rfl h.1 (fun ws hws => ⟨1, one_ne_zero, h.2.2.2 ws hws⟩) u hu k

theorem polynomial_zero {s : Spline ℝ (List ℝ)} (h : Spec.Polynomial s) (n k : ℕ) (hk : Create.dim s ≤ k) : polynomial s n k = 0 := by
  unfold polynomial DetSpline.splinePoly
  refine sum_eq_zero fun g _ => ?_
  have : (s.controlPoints.getD g []).getD k 0 = 0 := by
    rcases lt_or_ge g s.controlPoints.length with hg | hg
    · rw [List.getD_eq_default _ _ (by rw [List.getD_eq_getElem _ _ hg, h.2.2.1 _ (List.getElem_mem hg)]; exact hk)]
    · rw [List.getD_eq_default _ [] hg]
      simp
  simp only [this, map_zero, zero_mul]

/-- direction of the first order in a list of orders -/
def directionOf (n : ℕ) (orders : List ℕ) : Option (Fin n) := (List.finRange n).find? fun i => orders.getD i 0 == 1

open MvPolynomial in
/-- exact operations on polynomials -/
noncomputable def exact : Operations ℝ where
  derivative s orders := represent s.degrees.length (Create.dim s) s.weights.isSome fun k =>
    match directionOf s.degrees.length orders with
    | none => 0
    | some i => pderiv i (polynomial s s.degrees.length k)
  compose a b := represent b.degrees.length (Create.dim a) (a.weights.isSome || b.weights.isSome) fun k =>
    bind₁ (fun i : Fin a.degrees.length => polynomial b b.degrees.length i) (polynomial a a.degrees.length k)
  times a b := represent a.degrees.length (if Create.dim b = 1 then Create.dim a else 1) a.weights.isSome fun k =>
    if Create.dim b = 1 then polynomial a a.degrees.length k * polynomial b a.degrees.length 0
    else ∑ k ∈ range (Create.dim a), polynomial a a.degrees.length k * polynomial b a.degrees.length k
  plus a b := represent a.degrees.length (Create.dim a) a.weights.isSome fun k => polynomial a a.degrees.length k + polynomial b a.degrees.length k
  extract s i := represent s.degrees.length 1 s.weights.isSome fun _ => polynomial s s.degrees.length i

theorem directionOf_first (n : ℕ) (i : Fin n) : directionOf n (Spec.first n i) = some i := by
  unfold directionOf
  have hval : ∀ j : Fin n, (Spec.first n i).getD j 0 = if (j : ℕ) = i then 1 else 0 := by
    intro j
    unfold Spec.first
    rw [List.getD_eq_getElem _ _ (by simp), List.getElem_map, List.getElem_range]
  cases hf : (List.finRange n).find? fun j : Fin n => (Spec.first n i).getD j 0 == 1 with
  | none =>
    rw [List.find?_eq_none] at hf
    have := hf i (List.mem_finRange i)
    rw [hval i] at this
    simp at this
  | some j =>
    have := List.find?_some hf
    rw [hval j] at this
    by_cases hji : (j : ℕ) = i
    · rw [Fin.ext hji]
    · simp [hji] at this

theorem image_length (s : Spline ℝ (List ℝ)) (u : List ℝ) : (Spec.image s u).length = Create.dim s := by simp [Spec.image]

open MvPolynomial in
/-- There are operations that satisfy the assumptions, for all polynomial Bezier splines and for rational ones with weights one. -/
theorem operations_exist : Spec.Correct exact Spec.Polynomial where
  bezier s h := h.1
  derivative s hs i hi := by
    obtain ⟨q, sh, v⟩ := represent_spec s.degrees.length (Create.dim s) s.weights.isSome fun k =>
      match directionOf s.degrees.length (Spec.first s.degrees.length i) with
      | none => 0
      | some i => pderiv i (polynomial s s.degrees.length k)
    refine ⟨q, sh, fun u hu k => ?_⟩
    have e1 := v u hu.1 k
    rw [show point (exact.derivative s (Spec.first s.degrees.length i)) u k = _ from e1, directionOf_first s.degrees.length ⟨i, hi⟩]
    simp only
    have e2 : (if k < Create.dim s then eval (fun i : Fin s.degrees.length => u.getD i 0) (pderiv ⟨i, hi⟩ (polynomial s s.degrees.length k)) else 0) =
        eval (fun i : Fin s.degrees.length => u.getD i 0) (pderiv ⟨i, hi⟩ (polynomial s s.degrees.length k)) := by
      split
      · rfl
      · rename_i h
        rw [polynomial_zero hs _ _ (by omega)]
        simp
    rw [e2]
    have e3 : (fun x => point s (u.set i x) k) = fun x => eval (Function.update (fun i : Fin s.degrees.length => u.getD i 0) ⟨i, hi⟩ x) (polynomial s s.degrees.length k) := by
      funext x
      rw [polynomial_spec hs (u.set i x) (by simpa using hu.1) k]
      congr 2
      funext j
      have hul := hu.1
      by_cases hij : (j : ℕ) = i
      · obtain rfl : j = ⟨i, hi⟩ := Fin.ext hij
        rw [Function.update_self, List.getD_eq_getElem _ _ (by simpa [hul] using hi)]
        simp
      · rw [Function.update_of_ne (fun h => hij (congrArg Fin.val h))]
        simp only [List.getD_eq_getElem?_getD]
        rw [List.getElem?_set_ne (Ne.symm hij)]
    rw [e3]
    exact DetSpline.hasDerivAt_eval (polynomial s s.degrees.length k) (fun i : Fin s.degrees.length => u.getD i 0) ⟨i, hi⟩
  compose a b ha hb hab := by
    obtain ⟨q, sh, v⟩ := represent_spec b.degrees.length (Create.dim a) (a.weights.isSome || b.weights.isSome) fun k =>
      bind₁ (fun i : Fin a.degrees.length => polynomial b b.degrees.length i) (polynomial a a.degrees.length k)
    refine ⟨q, sh, fun u hu hK k => ?_⟩
    have e1 := v u hu.1 k
    rw [show point (exact.compose a b) u k = _ from e1, polynomial_spec ha (Spec.image b u) hK.1 k]
    have e2 : (fun i : Fin a.degrees.length => (Spec.image b u).getD i 0) = fun i : Fin a.degrees.length => eval (fun i : Fin b.degrees.length => u.getD i 0) (polynomial b b.degrees.length i) := by
      funext i
      rw [image_getD b u (by rw [hab]; exact i.2), polynomial_spec hb u hu.1]
    rw [e2]
    split
    · change (eval₂Hom (RingHom.id ℝ) _) (bind₁ _ _) = _
      rw [eval₂Hom_bind₁]
      rfl
    · rename_i h
      rw [polynomial_zero ha _ _ (by omega), map_zero]
  scaled a b ha hb _ hn hd := by
    obtain ⟨q, sh, v⟩ := represent_spec a.degrees.length (if Create.dim b = 1 then Create.dim a else 1) a.weights.isSome fun k =>
      if Create.dim b = 1 then polynomial a a.degrees.length k * polynomial b a.degrees.length 0
      else ∑ k ∈ range (Create.dim a), polynomial a a.degrees.length k * polynomial b a.degrees.length k
    refine ⟨q, ⟨sh.1, sh.2.1, sh.2.2.1.trans (if_pos hd), sh.2.2.2⟩, fun u hu k => ?_⟩
    have e1 := v u hu.1 k
    rw [show point (exact.times a b) u k = _ from e1, polynomial_spec ha u hu.1 k, polynomial_spec hb u (by rw [hu.1, hn]) 0, if_pos hd, if_pos hd]
    rw [← hn, ← map_mul]
    split
    · rfl
    · rename_i h
      rw [polynomial_zero ha _ _ (by omega), zero_mul, map_zero]
  inner a b ha hb _ hn hd h1 := by
    obtain ⟨q, sh, v⟩ := represent_spec a.degrees.length (if Create.dim b = 1 then Create.dim a else 1) a.weights.isSome fun k =>
      if Create.dim b = 1 then polynomial a a.degrees.length k * polynomial b a.degrees.length 0
      else ∑ k ∈ range (Create.dim a), polynomial a a.degrees.length k * polynomial b a.degrees.length k
    refine ⟨q, ⟨sh.1, sh.2.1, sh.2.2.1.trans (if_neg h1), sh.2.2.2⟩, fun u hu => ?_⟩
    have e1 := v u hu.1 0
    rw [show point (exact.times a b) u 0 = _ from e1, if_neg h1, if_neg h1, if_pos Nat.one_pos, map_sum]
    refine sum_congr rfl fun k _ => ?_
    rw [map_mul, polynomial_spec ha u hu.1 k, polynomial_spec hb u (by rw [hu.1, hn]) k, ← hn]
  plus a b ha hb _ hn hd := by
    obtain ⟨q, sh, v⟩ := represent_spec a.degrees.length (Create.dim a) a.weights.isSome fun k => polynomial a a.degrees.length k + polynomial b a.degrees.length k
    refine ⟨q, sh, fun u hu k => ?_⟩
    have e1 := v u hu.1 k
    rw [show point (exact.plus a b) u k = _ from e1, polynomial_spec ha u hu.1 k, polynomial_spec hb u (by rw [hu.1, hn]) k, ← hn, ← map_add]
    split
    · rfl
    · rename_i h
      rw [polynomial_zero ha _ _ (by omega), polynomial_zero hb _ _ (by omega), add_zero, map_zero]
  extract s hs i hi := by
    obtain ⟨q, sh, v⟩ := represent_spec s.degrees.length 1 s.weights.isSome fun _ => polynomial s s.degrees.length i
    refine ⟨q, sh, fun u hu => ?_⟩
    have e1 := v u hu.1 0
    rw [show point (exact.extract s i) u 0 = _ from e1, if_pos Nat.one_pos, polynomial_spec hs u hu.1 i]

/-! ### the hypotheses are met -/

/-- a bilinear deformation function -/
def sampleOuter : Spline ℝ (List ℝ) := ⟨[1, 1], none, none, [[0, 0], [2, 0], [0, 1], [3, 4]]⟩

/-- a segment in the unit square, and its motion with the parameter `β` -/
noncomputable def sampleInner (β : ℝ) : Spline ℝ (List ℝ) := ⟨[1], none, none, [[1 / 4 + β / 8, 1 / 4], [3 / 4, 1 / 2 - β / 8]]⟩

noncomputable def sampleDerivative : Spline ℝ (List ℝ) := ⟨[1], none, none, [[1 / 8, 0], [0, -1 / 8]]⟩

theorem sample_polynomial : Spec.Polynomial sampleOuter ∧ (∀ β, Spec.Polynomial (sampleInner β)) ∧ Spec.Polynomial sampleDerivative :=
  ⟨⟨rfl, by simp [sampleOuter], by simp [sampleOuter, Create.dim], by simp [sampleOuter]⟩,
    fun β => ⟨rfl, by simp [sampleInner], by simp [sampleInner, Create.dim], by simp [sampleInner]⟩,
    ⟨rfl, by simp [sampleDerivative], by simp [sampleDerivative, Create.dim], by simp [sampleDerivative]⟩⟩

theorem segment_point (p q : List ℝ) (x : ℝ) (k : ℕ) : point (⟨[1], none, none, [p, q]⟩ : Spline ℝ (List ℝ)) [x] k = (1 - x) * p.getD k 0 + x * q.getD k 0 := by
  have hr2 : List.range 2 = [0, 1] := rfl
  simp [point, value, tensorEval, netSize, directions, Direction.size, basisValues, Direction.basis, bernstein, basisProduct, digits, hr2]

/-- C104 in a concrete case: the derivative of a moving segment in a bilinear deformation is computed, and it is the derivative. -/
theorem composition_derivative_sample : ∃ r, compositionDerivative exact 3 sampleOuter (sampleInner 0) sampleDerivative = some r ∧
    ∀ x : ℝ, 0 ≤ x → x ≤ 1 → ∀ k, HasDerivAt (fun β => point sampleOuter (Spec.image (sampleInner β) [x]) k) (point r [x] k) 0 := by
  obtain ⟨h1, h2, h3⟩ := sample_polynomial
  have hs : (compositionDerivative exact 3 sampleOuter (sampleInner 0) sampleDerivative).isSome := by
    rw [composition_derivative_accepts_iff operations_exist h1 (h2 0) h3 (by simp [sampleOuter])]
    simp [sampleOuter, sampleInner, sampleDerivative, Create.dim]
  obtain ⟨r, hr⟩ := Option.isSome_iff_exists.1 hs
  refine ⟨r, hr, fun x hx0 hx1 k => ?_⟩
  have hval : ValidSpline sampleOuter :=
    ⟨by simp [sampleOuter], by simp [sampleOuter, directions, Direction.Valid], by simp [sampleOuter, netSize, directions, Direction.size], by simp [sampleOuter]⟩
  have himg : ∀ β, Spec.image (sampleInner β) [x] = [(1 - x) * (1 / 4 + β / 8) + x * (3 / 4), (1 - x) * (1 / 4) + x * (1 / 2 - β / 8)] := by
    intro β
    have hr2 : List.range 2 = [0, 1] := rfl
    unfold Spec.image
    rw [show Create.dim (sampleInner β) = 2 from rfl, hr2]
    unfold sampleInner
    rw [List.map_cons, List.map_cons, List.map_nil, segment_point, segment_point]
    simp
  refine composition_derivative_chain operations_exist h1 (h2 0) h3 hval (by simp [sampleOuter]) hr sampleInner 0 rfl (fun β => rfl) [x] ⟨rfl, by simp [hx0, hx1]⟩ ?_ ?_ k
  · rw [himg]
    refine ⟨rfl, ?_⟩
    simp
    refine ⟨⟨?_, ?_⟩, ?_, ?_⟩ <;> nlinarith
  · intro i hi
    have hi2 : i < 2 := hi
    have e : ∀ β, point (sampleInner β) [x] i = point (sampleInner 0) [x] i + β * point sampleDerivative [x] i := by
      intro β
      unfold sampleInner sampleDerivative
      rw [segment_point, segment_point, segment_point]
      interval_cases i <;> simp <;> ring
    rw [show (fun β => point (sampleInner β) [x] i) = fun β => point (sampleInner 0) [x] i + β * point sampleDerivative [x] i from funext e]
    simpa using ((hasDerivAt_id (0 : ℝ)).mul_const (point sampleDerivative [x] i)).const_add (point (sampleInner 0) [x] i)

/-- the hypotheses of the violation are met -/
example : compositionDerivative exact 3 { sampleOuter with weights := some [1, 1, 1, 1] } (sampleInner 0) sampleDerivative = none := by
  obtain ⟨h1, h2, h3⟩ := sample_polynomial
  exact composition_derivative_rational_violates operations_exist (outer := { sampleOuter with weights := some [1, 1, 1, 1] })
    ⟨rfl, by simp [sampleOuter], by simp [sampleOuter, Create.dim], by simp [sampleOuter]⟩ (h2 0) h3 (by simp [sampleOuter]) rfl rfl

end Splinepy.BezierAlgebra
