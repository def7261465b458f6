import Verif.Model.RationalBasis
import Verif.Lemma.Leibniz
import Verif.Lemma.Spline
import Verif.Lemma.MixedRadix

/-!
C42, C43: basis functions of rational splines and their derivatives.
-/
set_option linter.unusedSectionVars false
namespace Splinepy.RationalBasis
open Splinepy.Spec Finset

/-! ### C43 -/

theorem localIds_eq (order : List ℕ) (id : ℕ) : localIds order id = digits (order.map (· + 1)) id := by
  induction order generalizing id with
  | nil => rfl
  | cons o os ih =>
    simp only [localIds, List.map_cons, digits]
    split
    · rename_i h; subst h; simp [ih, Nat.mod_one]
    · rw [ih]
      congr 2
      have := Nat.div_add_mod id (o + 1)
      rw [show id - id % (o + 1) = (o + 1) * (id / (o + 1)) by omega, Nat.mul_div_cancel_left _ (by omega)]

theorem globalIds_eq (os ks : List ℕ) (h : List.Forall₂ (· ≤ ·) ks os) (id offset : ℕ) :
    globalIds os ks id offset = id + offset * flat (os.map (· + 1)) ks := by
  induction h generalizing id offset with
  | nil => simp [globalIds, flat]
  | cons hk _ ih =>
    rename_i k o ks os
    simp only [globalIds, List.map_cons, flat]
    split
    · rename_i h0
      subst h0
      rw [Nat.le_zero.1 hk, ih]; simp
    · rw [ih]; ring

theorem flat_full (os : List ℕ) : flat (os.map (· + 1)) os + 1 = (os.map (· + 1)).prod := by
  induction os with
  | nil => simp [flat]
  | cons o os ih =>
    simp only [List.map_cons, flat, List.prod_cons, ← ih]
    ring

theorem forall₂_le_refl (os : List ℕ) : List.Forall₂ (· ≤ ·) os os := by
  induction os with
  | nil => exact .nil
  | cons o os ih => exact .cons le_rfl ih

theorem digits_sub (rs : List ℕ) (i j : ℕ) (hi : i < rs.prod) (hj : j < rs.prod) (h : List.Forall₂ (· ≤ ·) (digits rs j) (digits rs i)) :
    j ≤ i ∧ digits rs (i - j) = List.zipWith (· - ·) (digits rs i) (digits rs j) := by
  induction rs generalizing i j with
  | nil => simp at hi hj; subst hi hj; simp [digits]
  | cons r rs ih =>
    rw [List.prod_cons] at hi hj
    simp only [digits] at h ⊢
    rw [List.forall₂_cons] at h
    have hr : 0 < r := by
      rcases Nat.eq_zero_or_pos r with h0 | h0
      · subst h0; simp at hi
      · exact h0
    obtain ⟨h1, h2⟩ := ih (i / r) (j / r) (Nat.div_lt_of_lt_mul hi) (Nat.div_lt_of_lt_mul hj) h.2
    have ei := Nat.div_add_mod i r
    have ej := Nat.div_add_mod j r
    have hm := Nat.mul_le_mul_left r h1
    have hlt := Nat.mod_lt i hr
    have hle : i % r - j % r < r := by omega
    have e : i - j = (i % r - j % r) + r * (i / r - j / r) := by
      rw [Nat.mul_sub]; omega
    refine ⟨by omega, ?_⟩
    rw [e, Nat.add_mul_mod_self_left, Nat.mod_eq_of_lt hle, Nat.add_mul_div_left _ _ hr, Nat.div_eq_of_lt hle, Nat.zero_add, h2]
    rfl

theorem isNotSubset_false {ks js : List ℕ} (hl : ks.length = js.length) : isNotSubset ks js = false ↔ List.Forall₂ (· ≤ ·) js ks := by
  induction ks generalizing js with
  | nil => cases js <;> simp [isNotSubset] at *
  | cons k ks ih =>
    cases js with
    | nil => simp at hl
    | cons j js =>
      have hl' : ks.length = js.length := by simpa using hl
      have := ih hl'
      simp only [isNotSubset, List.zipWith_cons_cons, List.any_cons, Bool.or_eq_false_iff, List.forall₂_cons] at this ⊢
      rw [this]
      simp

theorem binom_zero {ks js : List ℕ} (hl : ks.length = js.length) (h : ¬ List.Forall₂ (· ≤ ·) js ks) : binom ks js = 0 := by
  induction ks generalizing js with
  | nil => cases js <;> simp at *
  | cons k ks ih =>
    cases js with
    | nil => simp at hl
    | cons j js =>
      have hl' : ks.length = js.length := by simpa using hl
      rw [List.forall₂_cons, not_and_or] at h
      simp only [binom, List.zipWith_cons_cons, List.prod_cons]
      rcases h with h | h
      · rw [Nat.choose_eq_zero_of_lt (by omega), zero_mul]
      · have := ih hl' h
        unfold binom at this
        rw [this, mul_zero]

theorem binom_zeros (ks : List ℕ) (rs : List ℕ) (hl : ks.length = rs.length) : binom ks (digits rs 0) = 1 := by
  induction ks generalizing rs with
  | nil => simp [binom]
  | cons k ks ih =>
    cases rs with
    | nil => simp at hl
    | cons r rs =>
      have := ih rs (by simpa using hl)
      simp only [binom] at this
      simp only [binom, digits, Nat.zero_mod, Nat.zero_div, List.zipWith_cons_cons, List.prod_cons, Nat.choose_zero_right, this]

theorem digits_zero_sub (ks rs : List ℕ) (hl : ks.length = rs.length) : List.zipWith (· - ·) ks (digits rs 0) = ks := by
  induction ks generalizing rs with
  | nil => simp
  | cons k ks ih =>
    cases rs with
    | nil => simp at hl
    | cons r rs => simp only [digits, Nat.zero_mod, Nat.zero_div, List.zipWith_cons_cons, Nat.sub_zero, ih rs (by simpa using hl)]

theorem digits_le (os : List ℕ) (i : ℕ) : List.Forall₂ (· ≤ ·) (digits (os.map (· + 1)) i) os := by
  induction os generalizing i with
  | nil => exact .nil
  | cons o os ih =>
    simp only [List.map_cons, digits]
    exact .cons (by have := Nat.mod_lt i (show 0 < o + 1 by omega); omega) (ih _)

/-- loop over the lower orders for all basis functions at once -/
theorem fold_sub {nb : ℕ} (F : ℕ → ℝ) (js : List ℕ) (skip : ℕ → Bool) (c : ℕ → ℝ) (L : ℕ → List ℝ) (Q : ℕ → ℕ → ℝ)
    (hL : ∀ j ∈ js, skip j = false → L j = (List.range nb).map (Q j)) :
    js.foldl (fun acc j => if skip j then acc else List.zipWith (fun x y => x - c j * y) acc (L j)) ((List.range nb).map F) =
      (List.range nb).map (fun b => F b - (js.map (fun j => if skip j then 0 else c j * Q j b)).sum) := by
  induction js generalizing F with
  | nil => simp
  | cons j js ih =>
    rw [List.foldl_cons]
    by_cases hs : skip j = true
    · rw [if_pos hs, ih F (fun j' hj' => hL j' (by simp [hj']))]
      simp [hs]
    · rw [if_neg hs, hL j (by simp) (by simpa using hs)]
      have : List.zipWith (fun x y => x - c j * y) ((List.range nb).map F) ((List.range nb).map (Q j)) =
          (List.range nb).map (fun b => F b - c j * Q j b) := by
        rw [List.zipWith_map, List.zipWith_self]
      rw [this, ih (fun b => F b - c j * Q j b) (fun j' hj' => hL j' (by simp [hj']))]
      apply List.map_congr_left
      intro b _
      simp only [List.map_cons, List.sum_cons, if_neg hs]
      ring

theorem foldl_build {α : Type} (n : ℕ) (step : List α → ℕ → α) (G : ℕ → α) (h : ∀ i < n, step ((List.range i).map G) i = G i) :
    (List.range n).foldl (fun ders i => ders ++ [step ders i]) [] = (List.range n).map G := by
  induction n with
  | zero => rfl
  | succ n ih =>
    rw [List.range_succ, List.foldl_append, ih (fun i hi => h i (by omega)), List.map_append]
    simp only [List.foldl_cons, List.foldl_nil, List.map_cons, List.map_nil]
    rw [h n (by omega)]

/-- C43: for every number of parametric directions, every multi-order, every set of basis functions `N b` (smooth around the query, as B-splines are
inside of a knot span) and all weights with non-vanishing weight function: entry `b` of the result is the mixed partial derivative of
`w_b N_b / ∑ w_c N_c` at the query. The polynomial derivatives enter by their meaning. -/
theorem rational_derivative {n nb : ℕ} {U : Set (Fin n → ℝ)} (hU : IsOpen U) {x : Fin n → ℝ} (hx : x ∈ U) (N : ℕ → (Fin n → ℝ) → ℝ)
    (hN : ∀ b < nb, ContDiffOn ℝ (⊤ : ℕ∞) (N b) U) (ws : List ℝ) (hws : ws.length = nb)
    (hW : ∀ y ∈ U, ∑ c ∈ range nb, ws.getD c 0 * N c y ≠ 0) (order : List ℕ) (ho : order.length = n)
    (polyDer : List ℕ → List ℝ) (hpoly : ∀ ks, List.Forall₂ (· ≤ ·) ks order → polyDer ks = (List.range nb).map fun b => derivative ks (N b) x) :
    rationalDerivative polyDer ws order =
      (List.range nb).map fun b => derivative order (fun y => ws.getD b 0 * N b y / ∑ c ∈ range nb, ws.getD c 0 * N c y) x := by
  set W : (Fin n → ℝ) → ℝ := fun y => ∑ c ∈ range nb, ws.getD c 0 * N c y with hWdef
  set q : ℕ → (Fin n → ℝ) → ℝ := fun b y => ws.getD b 0 * N b y / W y with hq
  set R := order.map (· + 1) with hR
  have hRl : R.length = n := by rw [hR, List.length_map, ho]
  have hfin : (List.finRange n).length = n := List.length_finRange
  have hdl : ∀ i, (digits R i).length = n := fun i => by rw [digits_length, hRl]
  have hWs : Smooth U W := smooth_sum (range nb) (fun c => ws.getD c 0) N (fun c hc => hN c (mem_range.1 hc))
  have hqs : ∀ b < nb, Smooth U (q b) := fun b hb => (contDiffOn_const.mul (hN b hb)).div hWs hW
  have hnum : globalIds order order 0 1 + 1 = R.prod := by
    rw [globalIds_eq order order (forall₂_le_refl order), Nat.zero_add, Nat.one_mul, flat_full]
  have hRpos : 0 < R.prod := by rw [← hnum]; omega
  -- derivatives of the weighted basis functions and of the weight function
  have hA : ∀ b < nb, ∀ ks, derivative ks (fun y => ws.getD b 0 * N b y) x = ws.getD b 0 * derivative ks (N b) x := by
    intro b hb ks
    have := mixedD_sum hU (List.finRange n) ks ({b} : Finset ℕ) (fun c => ws.getD c 0) N (fun c hc => by
      rw [Finset.mem_singleton] at hc; subst hc; exact hN c hb) hx
    unfold derivative
    simpa using this
  have hWd : ∀ ks, derivative ks W x = ∑ c ∈ range nb, ws.getD c 0 * derivative ks (N c) x := fun ks =>
    mixedD_sum hU (List.finRange n) ks (range nb) (fun c => ws.getD c 0) N (fun c hc => hN c (mem_range.1 hc)) hx
  have hWx : W x ≠ 0 := hW x hx
  have hd0 : ∀ f : (Fin n → ℝ) → ℝ, derivative (digits R 0) f x = f x := by
    intro f
    have : ∀ (is : List (Fin n)) (rs : List ℕ), mixedD is (digits rs 0) f = f := by
      intro is
      induction is with
      | nil => intro rs; simp [mixedD]
      | cons i is ih =>
        intro rs
        cases rs with
        | nil => simp [digits, mixedD]
        | cons r rs => simp only [digits, Nat.zero_mod, Nat.zero_div, mixedD, Function.iterate_zero, id_eq]; exact ih rs
    unfold derivative
    rw [this]
  -- Leibniz identity of the quotient
  have hleib : ∀ b < nb, ∀ i < R.prod, ws.getD b 0 * derivative (digits R i) (N b) x =
      ((List.range R.prod).map fun j => (binom (digits R i) (digits R j) : ℝ) *
        (derivative (digits R j) W x * derivative (List.zipWith (· - ·) (digits R i) (digits R j)) (q b) x)).sum := by
    intro b hb i _
    rw [← hA b hb]
    have hEq : Set.EqOn (fun y => ws.getD b 0 * N b y) (fun y => W y * q b y) U := by
      intro y hy
      simp only [hq]
      rw [mul_div_assoc', mul_comm (W y), mul_div_assoc, div_self (hW y hy), mul_one]
    unfold derivative
    rw [mixedD_congr hU _ _ hEq hx]
    exact mixedD_mul hU (List.finRange n) order (digits R i) (digits_le order i) (by rw [hfin, hdl]) hWs (hqs b hb) hx
  have hdrop : ∀ b < nb, ∀ i < R.prod, W x * derivative (digits R i) (q b) x = ws.getD b 0 * derivative (digits R i) (N b) x -
      ((List.range i).map fun j => if isNotSubset (digits R i) (digits R (j + 1)) then 0 else
        (binom (digits R i) (digits R (j + 1)) : ℝ) * derivative (digits R (j + 1)) W x * derivative (digits R (i - (j + 1))) (q b) x).sum := by
    intro b hb i hi
    rw [hleib b hb i hi, show R.prod = (i + 1) + (R.prod - (i + 1)) by omega, List.range_add, List.map_append, List.sum_append,
      List.range_succ_eq_map, List.map_cons, List.sum_cons]
    rw [binom_zeros _ _ (by rw [hdl, hRl]), digits_zero_sub _ _ (by rw [hdl, hRl]), hd0]
    have htail : (List.map (fun j => (binom (digits R i) (digits R j) : ℝ) *
        (derivative (digits R j) W x * derivative (List.zipWith (· - ·) (digits R i) (digits R j)) (q b) x))
        (List.map (fun x => i + 1 + x) (List.range (R.prod - (i + 1))))).sum = 0 := by
      apply List.sum_eq_zero
      intro v hv
      rw [List.map_map, List.mem_map] at hv
      obtain ⟨l, hl, rfl⟩ := hv
      have hl' := List.mem_range.1 hl
      simp only [Function.comp]
      rw [binom_zero (by rw [hdl, hdl]), Nat.cast_zero, zero_mul]
      intro hc
      have := (digits_sub R i (i + 1 + l) hi (by omega) hc).1
      omega
    rw [htail]
    have hmid : (List.map (fun j => (binom (digits R i) (digits R j) : ℝ) *
        (derivative (digits R j) W x * derivative (List.zipWith (· - ·) (digits R i) (digits R j)) (q b) x))
        (List.map Nat.succ (List.range i))).sum = ((List.range i).map fun j => if isNotSubset (digits R i) (digits R (j + 1)) then 0 else
        (binom (digits R i) (digits R (j + 1)) : ℝ) * derivative (digits R (j + 1)) W x * derivative (digits R (i - (j + 1))) (q b) x).sum := by
      rw [List.map_map]
      congr 1
      apply List.map_congr_left
      intro j hj
      have hj' := List.mem_range.1 hj
      simp only [Function.comp, Nat.succ_eq_add_one]
      cases hs : isNotSubset (digits R i) (digits R (j + 1)) with
      | true =>
        rw [binom_zero (by rw [hdl, hdl])]
        · simp
        · intro hc
          rw [← isNotSubset_false (by rw [hdl, hdl])] at hc
          rw [hc] at hs
          exact absurd hs (by decide)
      | false =>
        have hc := (isNotSubset_false (by rw [hdl, hdl])).1 hs
        rw [(digits_sub R i (j + 1) hi (by omega) hc).2]
        simp only [Bool.false_eq_true, if_false]
        ring
    rw [hmid]
    push_cast
    ring
  -- the model computes it
  unfold rationalDerivative
  simp only [hnum, localIds_eq, ← hR]
  have hAlist : ∀ i, List.zipWith (fun a w => a * w) (polyDer (digits R i)) ws =
      (List.range nb).map fun b => ws.getD b 0 * derivative (digits R i) (N b) x := by
    intro i
    rw [hpoly _ (digits_le order i)]
    apply List.ext_getElem
    · simp [hws]
    · intro b h1 h2
      have hb : b < nb := by simpa using h2
      simp only [List.getElem_zipWith, List.getElem_map, List.getElem_range]
      rw [List.getD_eq_getElem _ _ (by omega)]
      ring
  have hwlist : ∀ i, (List.zipWith (fun a w => w * a) (polyDer (digits R i)) ws).sum = derivative (digits R i) W x := by
    intro i
    rw [hWd, hpoly _ (digits_le order i)]
    rw [← Spec.list_sum_range]
    congr 1
    apply List.ext_getElem
    · simp [hws]
    · intro b h1 h2
      have hb : b < nb := by simpa using h2
      simp only [List.getElem_zipWith, List.getElem_map, List.getElem_range]
      rw [List.getD_eq_getElem _ _ (by omega)]
  simp only [hAlist, hwlist]
  rw [foldl_build R.prod _ (fun i => (List.range nb).map fun b => derivative (digits R i) (q b) x)]
  · rw [List.getD_eq_getElem _ _ (by rw [List.length_map, List.length_range]; omega), List.getElem_map, List.getElem_range]
    have : R.prod - 1 = flat R order := by rw [← hnum, globalIds_eq order order (forall₂_le_refl order)]; simp [hR]
    rw [this, digits_flat]
    have : ∀ os : List ℕ, InGrid (os.map (· + 1)) os := by
      intro os
      induction os with
      | nil => exact .nil
      | cons o os ih => exact .cons (Nat.lt_succ_self o) ih
    exact this order
  · intro i hi
    unfold derivStep
    simp only [localIds_eq, ← hR]
    have e1 : ((List.range R.prod).map fun i => (List.range nb).map fun b => ws.getD b 0 * derivative (digits R i) (N b) x).getD i [] =
        (List.range nb).map fun b => ws.getD b 0 * derivative (digits R i) (N b) x := by
      rw [List.getD_eq_getElem _ _ (by simpa using hi), List.getElem_map, List.getElem_range]
    have e2 : ∀ j, j < R.prod → ((List.range R.prod).map fun i => derivative (digits R i) W x).getD j 0 = derivative (digits R j) W x := by
      intro j hj
      rw [List.getD_eq_getElem _ _ (by simpa using hj), List.getElem_map, List.getElem_range]
    rw [e1, e2 0 hRpos, hd0]
    rw [fold_sub _ (List.range i) (fun j => isNotSubset (digits R i) (digits R (j + 1)))
      (fun j => (binomFact (digits R i) (digits R (j + 1)) : ℝ) * ((List.range R.prod).map fun i => derivative (digits R i) W x).getD (j + 1) 0)
      (fun j => ((List.range i).map fun i => (List.range nb).map fun b => derivative (digits R i) (q b) x).getD (i - (j + 1)) [])
      (fun j b => derivative (digits R (i - (j + 1))) (q b) x)]
    · rw [List.map_map]
      apply List.map_congr_left
      intro b hb
      have hb' := List.mem_range.1 hb
      simp only [Function.comp]
      rw [mul_one_div, div_eq_iff hWx, mul_comm _ (W x), hdrop b hb' i hi]
      congr 2
      apply List.map_congr_left
      intro j hj
      have hj' := List.mem_range.1 hj
      rw [e2 (j + 1) (by omega)]
      rfl
    · intro j hj _
      have hj' := List.mem_range.1 hj
      rw [List.getD_eq_getElem _ _ (by rw [List.length_map, List.length_range]; omega), List.getElem_map, List.getElem_range]

/-- the hypotheses are met: linear Bernstein polynomials with weights 1, 2, second derivative -/
example (polyDer : List ℕ → List ℝ) (x : Fin 1 → ℝ) (hx : 0 < x 0)
    (h : ∀ ks, polyDer ks = (List.range 2).map fun b => derivative ks (fun y : Fin 1 → ℝ => if b = 0 then 1 - y 0 else y 0) x) :
    rationalDerivative polyDer [1, 2] [2] = (List.range 2).map fun b => derivative [2] (fun y : Fin 1 → ℝ =>
      ([1, 2] : List ℝ).getD b 0 * (if b = 0 then 1 - y 0 else y 0) /
        ∑ c ∈ range 2, ([1, 2] : List ℝ).getD c 0 * (if c = 0 then 1 - y 0 else y 0)) x := by
  refine rational_derivative (nb := 2) (U := {y : Fin 1 → ℝ | 0 < y 0}) ?_ hx (fun b y => if b = 0 then 1 - y 0 else y 0) ?_ [1, 2] rfl ?_ [2] rfl
    polyDer (fun ks _ => h ks)
  · exact isOpen_lt continuous_const (continuous_apply 0)
  · intro b _
    have h0 : ContDiff ℝ (⊤ : ℕ∞) (fun y : Fin 1 → ℝ => y 0) := contDiff_apply ℝ ℝ 0
    by_cases hb : b = 0
    · simp only [hb, if_true]; exact (contDiff_const.sub h0).contDiffOn
    · simp only [hb, if_false]; exact h0.contDiffOn
  · intro y hy
    have hy' : 0 < y 0 := hy
    simp [Finset.sum_range_succ]
    linarith

/-- the hypotheses on the polynomial derivatives are met by the derivatives themselves: first derivative of `u / (1 + u)` is `1 / (1 + u)²` in the model -/
example : rationalDerivative (K := ℚ) (fun ks => if ks = [0] then [1 / 2, 1 / 2] else [-1, 1]) [1, 2] [1] = [-8 / 9, 8 / 9] := by decide +kernel

/-! ### C42 -/

variable {K : Type} [Field K]

theorem fold_weights (w : ℕ → K) (l : List (K × ℕ)) (acc : List K × K) :
    l.foldl (fun (acc : List K × K) p => (acc.1 ++ [p.1 * w p.2], acc.2 + p.1 * w p.2)) acc =
      (acc.1 ++ l.map (fun p => p.1 * w p.2), acc.2 + (l.map (fun p => p.1 * w p.2)).sum) := by
  induction l generalizing acc with
  | nil => simp
  | cons p l ih => rw [List.foldl_cons, ih]; simp [add_assoc]

/-- closed form of the loops -/
theorem rationalBasis_eq (N : List K) (w : ℕ → K) (ids : List ℕ) : rationalBasis N w ids =
    (List.zip N ids).map (fun p => p.1 * w p.2 / ((List.zip N ids).map fun p => p.1 * w p.2).sum) := by
  unfold rationalBasis
  rw [fold_weights]
  simp only [List.nil_append, zero_add, List.map_map]
  apply List.map_congr_left
  intro p _
  simp [div_eq_mul_inv]

theorem list_sum_div (l : List K) (d : K) : (l.map (· / d)).sum = l.sum / d := by
  induction l with
  | nil => simp
  | cons a l ih => simp [ih, add_div]

theorem rational_sum' (N : List K) (w : ℕ → K) (ids : List ℕ) (h : ((List.zip N ids).map fun p => p.1 * w p.2).sum ≠ 0) :
    (rationalBasis N w ids).sum = 1 := by
  rw [rationalBasis_eq]
  have := list_sum_div ((List.zip N ids).map fun p => p.1 * w p.2) ((List.zip N ids).map fun p => p.1 * w p.2).sum
  rw [List.map_map] at this
  rw [div_self h] at this
  exact this

/-- basis functions of one direction vanish outside of the `n` functions starting at `start` -/
inductive Local : List (ℕ → K) → List ℕ → List ℕ → List ℕ → Prop
  | nil : Local [] [] [] []
  | cons {b r st n bs rs sts ns} (hz : ∀ j < r, b j ≠ 0 → st ≤ j ∧ j < st + n) (hle : st + n ≤ r) (h : Local bs rs sts ns) :
      Local (b :: bs) (r :: rs) (st :: sts) (n :: ns)

theorem sum_local (b F : ℕ → K) (r st n : ℕ) (hz : ∀ j < r, b j ≠ 0 → st ≤ j ∧ j < st + n) (hle : st + n ≤ r) :
    ∑ j ∈ range r, b j * F j = ∑ k ∈ range n, b (st + k) * F (st + k) := by
  have h1 : ∑ j ∈ range r, b j * F j = ∑ j ∈ Finset.Ico st (st + n), b j * F j := by
    symm
    apply sum_subset
    · intro j hj; rw [Finset.mem_Ico] at hj; rw [mem_range]; omega
    · intro j hj hn
      rw [mem_range] at hj
      rw [Finset.mem_Ico] at hn
      by_contra hc
      exact hn (hz j hj (fun h => hc (by rw [h, zero_mul])))
  rw [h1, Finset.sum_Ico_eq_sum_range, Nat.add_sub_cancel_left]

/-- a sum over the control net is the sum over the support -/
theorem sum_support {basis : List (ℕ → K)} {dims start counts : List ℕ} (h : Local basis dims start counts) (F : ℕ → K) :
    ∑ i ∈ range dims.prod, basisProduct basis (digits dims i) * F i =
      ∑ i ∈ range counts.prod, basisProduct basis (List.zipWith (· + ·) start (digits counts i)) *
        F (flat dims (List.zipWith (· + ·) start (digits counts i))) := by
  induction h generalizing F with
  | nil => simp [basisProduct, flat, digits]
  | cons hz hle _ ih =>
    rename_i b r st n bs rs sts ns _
    have key : ∀ (b' : ℕ → K) (m : ℕ) (ms : List ℕ) (G : List ℕ → ℕ → K), ∑ i ∈ range (m :: ms).prod, G (digits (m :: ms) i) i =
        ∑ l ∈ range ms.prod, ∑ g ∈ range m, G (g :: digits ms l) (g + m * l) := by
      intro _ m ms G
      rw [List.prod_cons, ← list_sum_range, sum_range_mul, ← list_sum_range]
      congr 1
      apply List.map_congr_left
      intro l _
      rw [list_sum_range]
      apply sum_congr rfl
      intro g hg
      rw [mem_range] at hg
      simp only [digits]
      rw [Nat.add_mul_mod_self_left, Nat.mod_eq_of_lt hg, Nat.add_mul_div_left _ _ (by omega), Nat.div_eq_of_lt hg, Nat.zero_add]
    rw [key b r rs (fun ds i => basisProduct (b :: bs) ds * F i),
      key b n ns (fun ds _ => basisProduct (b :: bs) (List.zipWith (· + ·) (st :: sts) ds) *
        F (flat (r :: rs) (List.zipWith (· + ·) (st :: sts) ds)))]
    have hl : ∀ l, ∑ g ∈ range r, basisProduct (b :: bs) (g :: digits rs l) * F (g + r * l) =
        basisProduct bs (digits rs l) * ∑ k ∈ range n, b (st + k) * F (st + k + r * l) := by
      intro l
      have := sum_local b (fun g => F (g + r * l)) r st n hz hle
      rw [← this, mul_sum]
      apply sum_congr rfl
      intro g _
      simp only [basisProduct, List.zipWith_cons_cons, List.prod_cons]
      ring
    rw [sum_congr rfl (fun l _ => hl l), ih (fun l => ∑ k ∈ range n, b (st + k) * F (st + k + r * l))]
    apply sum_congr rfl
    intro l _
    rw [mul_sum]
    apply sum_congr rfl
    intro k _
    simp only [basisProduct, List.zipWith_cons_cons, List.prod_cons, flat]
    ring

/-- values of the polynomial basis functions in the support (contract of `EvaluateBasisValues`): products of the univariate values -/
def Spec.polyValues (basis : List (ℕ → K)) (start counts : List ℕ) : List K :=
  (List.range counts.prod).map fun i => basisProduct basis (List.zipWith (· + ·) start (digits counts i))

theorem zip_polyValues (basis : List (ℕ → K)) (dims start counts : List ℕ) (w : ℕ → K) :
    (List.zip (Spec.polyValues basis start counts) (support dims start counts)).map (fun p => p.1 * w p.2) =
      (List.range counts.prod).map fun i => basisProduct basis (List.zipWith (· + ·) start (digits counts i)) *
        w (flat dims (List.zipWith (· + ·) start (digits counts i))) := by
  unfold Spec.polyValues support
  rw [List.zip_map', List.map_map]
  rfl

variable [LinearOrder K] [IsStrictOrderedRing K] {P : Type}

/-- The support found for a parameter: for a direction with knots, `degree + 1` functions starting at `span - degree`, where the non-empty span
contains the parameter; without knots all functions. -/
def Spec.SupportOf (d : Direction K) (x : K) (st n : ℕ) : Prop :=
  n = d.deg + 1 ∧ st + n ≤ d.size ∧ ∀ j < d.size, d.basis x j ≠ 0 → st ≤ j ∧ j < st + n

/-- every parameter inside of the domain has such a support -/
theorem supportOf_exists {d : Direction K} (hv : d.Valid) {x : K} (hx : d.Contains x) : ∃ st, Spec.SupportOf d x st (d.deg + 1) := by
  obtain ⟨deg, knots⟩ := d
  cases knots with
  | none => exact ⟨0, rfl, by simp [Direction.size], fun j hj _ => ⟨by omega, by simpa [Direction.size] using hj⟩⟩
  | some kv =>
    obtain ⟨hs, hl, hlt⟩ := hv kv rfl
    obtain ⟨μ, hp, hn, _, _, _, e⟩ := basisC_span (KnotInsertion.knotSeq_monotone hs) hlt hx.1 hx.2
    refine ⟨μ - deg, rfl, ?_, fun j _ hj => ?_⟩
    · simp only [Direction.size] at hp hn ⊢
      simp only at hl hp
      omega
    · simp only [Direction.basis, e] at hj
      have := Blossom.supp_bl _ _ _ _ _ hj
      simp only at hp ⊢
      omega

theorem local_of_support {s : Index.Spline K P} {u : List K} {start : List ℕ} (_hu : InDomain s u)
    (h : List.Forall₂ (fun (p : Direction K × K) st => Spec.SupportOf p.1 p.2 st (p.1.deg + 1)) (List.zip (directions s) u) start)
    (hl : (directions s).length = u.length) :
    Local (basisValues s u) (netSize s) start ((directions s).map fun d => d.deg + 1) := by
  unfold basisValues netSize
  clear _hu
  generalize directions s = ds at h hl ⊢
  induction ds generalizing u start with
  | nil =>
    have : u = [] := List.length_eq_zero_iff.1 hl.symm
    subst this
    cases h
    exact .nil
  | cons d ds ih =>
    cases u with
    | nil => simp at hl
    | cons x u =>
      rw [List.zip_cons_cons] at h
      cases h with
      | cons h1 h2 =>
        rw [List.zipWith_cons_cons, List.map_cons, List.map_cons]
        exact .cons h1.2.2 h1.2.1 (ih h2 (by simpa using hl))

section
variable {s : Index.Spline K P} {u : List K} {start : List ℕ} {ws : List K}

/-- what the library hands to the rational basis: values and ids of the supports of the parameter -/
structure Spec.Query (s : Index.Spline K P) (u : List K) (start : List ℕ) (ws : List K) : Prop where
  valid : ValidSpline s
  inside : InDomain s u
  rational : s.weights = some ws
  start : List.Forall₂ (fun (p : Direction K × K) st => Spec.SupportOf p.1 p.2 st (p.1.deg + 1)) (List.zip (directions s) u) start

/-- basis function values of the query -/
def Spec.result (s : Index.Spline K P) (u : List K) (start : List ℕ) (ws : List K) : List K :=
  rationalBasis (Spec.polyValues (basisValues s u) start ((directions s).map fun d => d.deg + 1)) (fun i => ws.getD i 0)
    (support (netSize s) start ((directions s).map fun d => d.deg + 1))

theorem Spec.Query.loc (q : Spec.Query s u start ws) : Local (basisValues s u) (netSize s) start ((directions s).map fun d => d.deg + 1) :=
  local_of_support q.inside q.start q.inside.length_eq

theorem Spec.Query.total (q : Spec.Query s u start ws) :
    ((List.range ((directions s).map fun d => d.deg + 1).prod).map fun i =>
      basisProduct (basisValues s u) (List.zipWith (· + ·) start (digits ((directions s).map fun d => d.deg + 1) i)) *
        ws.getD (flat (netSize s) (List.zipWith (· + ·) start (digits ((directions s).map fun d => d.deg + 1) i))) 0).sum =
      tensorEval (basisValues s u) (netSize s) ws := by
  rw [list_sum_range, tensorEval_eq_sum, sum_support q.loc]

theorem Spec.Query.pos (q : Spec.Query s u start ws) : 0 < tensorEval (basisValues s u) (netSize s) ws :=
  have hw := q.valid.weights ws q.rational
  tensorEval_pos q.valid.dirs q.inside ws (by rw [hw.1, q.valid.net]) hw.2

/-- closed form of the result -/
theorem result_eq (q : Spec.Query s u start ws) : Spec.result s u start ws =
    (List.range ((directions s).map fun d => d.deg + 1).prod).map fun i =>
      basisProduct (basisValues s u) (List.zipWith (· + ·) start (digits ((directions s).map fun d => d.deg + 1) i)) *
        ws.getD (flat (netSize s) (List.zipWith (· + ·) start (digits ((directions s).map fun d => d.deg + 1) i))) 0 /
          tensorEval (basisValues s u) (netSize s) ws := by
  unfold Spec.result
  have hz := zip_polyValues (basisValues s u) (netSize s) start ((directions s).map fun d => d.deg + 1) (fun i => ws.getD i 0)
  simp only at hz
  rw [rationalBasis_eq, hz, q.total]
  have := congrArg (List.map (· / tensorEval (basisValues s u) (netSize s) ws))
    (zip_polyValues (basisValues s u) (netSize s) start ((directions s).map fun d => d.deg + 1) (fun i => ws.getD i 0))
  rw [List.map_map, List.map_map] at this
  exact this

/-- C42: for every valid rational spline with positive weights and every parameter of the closed domain, the basis functions sum up to one. -/
theorem rational_partition_of_unity (q : Spec.Query s u start ws) : (Spec.result s u start ws).sum = 1 := by
  unfold Spec.result
  apply rational_sum'
  have hz := zip_polyValues (basisValues s u) (netSize s) start ((directions s).map fun d => d.deg + 1) (fun i => ws.getD i 0)
  simp only at hz ⊢
  rw [hz, q.total]
  exact q.pos.ne'

/-- C42: ... and they are not negative. -/
theorem rational_nonneg (q : Spec.Query s u start ws) : ∀ v ∈ Spec.result s u start ws, 0 ≤ v := by
  intro v hv
  rw [result_eq q, List.mem_map] at hv
  obtain ⟨i, _, rfl⟩ := hv
  apply div_nonneg _ q.pos.le
  apply mul_nonneg (basisProduct_nonneg _ _ (basisValues_nonneg q.valid.dirs q.inside))
  rw [List.getD_eq_getElem?_getD]
  cases h : ws[flat (netSize s) (List.zipWith (· + ·) start (digits ((directions s).map fun d => d.deg + 1) i))]? with
  | none => simp
  | some w => exact ((q.valid.weights ws q.rational).2 w (List.mem_of_getElem? h)).le

/-- C42: combining the control points in the support with the basis functions gives the point of the rational spline (projection of the weighted sum
of all control points by the weighted sum of the weights). -/
theorem rational_evaluates (q : Spec.Query s u start ws) (c : ℕ → K) :
    (List.zipWith (fun r i => r * c i) (Spec.result s u start ws) (support (netSize s) start ((directions s).map fun d => d.deg + 1))).sum =
      Splinepy.Spec.value s c u := by
  rw [result_eq q]
  unfold support
  rw [List.zipWith_map, List.zipWith_self, list_sum_range]
  unfold Splinepy.Spec.value
  rw [q.rational]
  simp only
  rw [tensorEval_eq_sum (c := (List.range (netSize s).prod).map _)]
  have h1 : ∀ i ∈ range (netSize s).prod, basisProduct (basisValues s u) (digits (netSize s) i) *
      ((List.range (netSize s).prod).map fun i => ws.getD i 0 * c i).getD i 0 =
      basisProduct (basisValues s u) (digits (netSize s) i) * (ws.getD i 0 * c i) := by
    intro i hi
    rw [mem_range] at hi
    rw [List.getD_eq_getElem _ _ (by simpa using hi), List.getElem_map, List.getElem_range]
  rw [sum_congr rfl h1, sum_support q.loc (fun i => ws.getD i 0 * c i), sum_div]
  apply sum_congr rfl
  intro i _
  ring

/-- C42: with equal weights the basis functions are the polynomial ones. -/
theorem rational_equal_weights (q : Spec.Query s u start ws) (w : K) (hw : ∀ i < ws.length, ws.getD i 0 = w) :
    Spec.result s u start ws = Spec.polyValues (basisValues s u) start ((directions s).map fun d => d.deg + 1) := by
  have hq := q.valid.weights ws q.rational
  have hlen : ws.length = (netSize s).prod := by rw [hq.1, q.valid.net]
  have hT : tensorEval (basisValues s u) (netSize s) ws = w := by
    rw [tensorEval_eq_sum, sum_congr rfl (g := fun i => basisProduct (basisValues s u) (digits (netSize s) i) * w), ← sum_mul,
      basisValues_sum q.valid.dirs q.inside, one_mul]
    intro i hi
    rw [mem_range] at hi
    rw [hw i (by omega)]
  have hw0 : w ≠ 0 := by rw [← hT]; exact q.pos.ne'
  rw [result_eq q, hT]
  unfold Spec.polyValues
  apply List.map_congr_left
  intro i hi
  have hflat : flat (netSize s) (List.zipWith (· + ·) start (digits ((directions s).map fun d => d.deg + 1) i)) < ws.length := by
    rw [hlen]
    apply flat_lt
    have hl := q.loc
    have hi' := List.mem_range.1 hi
    clear * - hl hi'
    generalize basisValues s u = b at hl
    generalize netSize s = rs at hl ⊢
    generalize (directions s).map (fun d => d.deg + 1) = ns at hl hi' ⊢
    induction hl generalizing i with
    | nil => exact .nil
    | cons hz hle _ ih =>
      rename_i b r st n bs rs sts ns _
      rw [List.prod_cons] at hi'
      have hn : 0 < n := by
        rcases Nat.eq_zero_or_pos n with h0 | h0
        · subst h0; simp at hi'
        · exact h0
      simp only [digits, List.zipWith_cons_cons]
      exact .cons (by have := Nat.mod_lt i hn; omega) (ih _ (Nat.div_lt_of_lt_mul hi'))
  rw [hw _ hflat, mul_div_assoc, div_self hw0, mul_one]

end

/-- a query that meets the hypotheses: quadratic NURBS curve with an inner knot, evaluated at the inner knot -/
example : Spec.Query (K := ℚ) (P := List ℚ)
    { degrees := [2], knotVectors := some [[0, 0, 0, 1, 2, 2, 2]], weights := some [1, 2, 1, 3], controlPoints := [[0], [1], [3], [4]] }
    [1] [1] [1, 2, 1, 3] where
  valid :=
    { knots := by intro kvs h; cases h; rfl
      dirs := by
        intro d hd
        simp only [directions, List.zipWith_cons_cons, List.zipWith_nil_left, List.mem_singleton] at hd
        subst hd
        intro kv h
        cases h
        decide +kernel
      net := by decide +kernel
      weights := by intro ws h; cases h; decide +kernel }
  inside := by
    simp only [InDomain, directions, List.zipWith_cons_cons, List.zipWith_nil_left]
    exact .cons ⟨by decide +kernel, by decide +kernel⟩ .nil
  rational := rfl
  start := by
    simp only [directions, List.zipWith_cons_cons, List.zipWith_nil_left, List.zip_cons_cons, List.zip_nil_right]
    exact .cons ⟨rfl, by decide +kernel, by decide +kernel⟩ .nil

end Splinepy.RationalBasis
