import Verif.Spec.Tensor
import Verif.Lemma.MixedRadix
import Mathlib.Algebra.BigOperators.Group.List.Basic
import Mathlib.Algebra.BigOperators.Ring.List
import Mathlib.Tactic.Ring

/-! Tensor products with one more parametric dimension. -/
namespace Splinepy.Spec

theorem digits_append (dims : List ℕ) (n g l : ℕ) (hg : g < dims.prod) (hl : l < n) :
    digits (dims ++ [n]) (g + dims.prod * l) = digits dims g ++ [l] := by
  induction dims generalizing g with
  | nil =>
    simp only [List.prod_nil] at hg
    have : g = 0 := by omega
    subst this
    simp [digits, Nat.mod_eq_of_lt hl]
  | cons r rs ih =>
    rw [List.prod_cons] at hg ⊢
    have hr : 0 < r := by
      rcases Nat.eq_zero_or_pos r with h | h
      · subst h; simp at hg
      · exact h
    rw [List.cons_append]
    simp only [digits]
    rw [Nat.mul_assoc, Nat.add_mul_mod_self_left, Nat.add_mul_div_left _ _ hr,
      ih (g / r) (Nat.div_lt_of_lt_mul hg)]
    rfl

theorem basisProduct_append {K : Type*} [CommSemiring K] (basis : List (ℕ → K)) (b : ℕ → K) (cs : List ℕ) (c : ℕ)
    (h : basis.length = cs.length) : basisProduct (basis ++ [b]) (cs ++ [c]) = basisProduct basis cs * b c := by
  unfold basisProduct
  rw [List.zipWith_append h]
  simp

theorem sum_range_mul {K : Type*} [AddCommMonoid K] (P n : ℕ) (f : ℕ → K) :
    ((List.range (P * n)).map f).sum = ((List.range n).map fun l => ((List.range P).map fun g => f (g + P * l)).sum).sum := by
  induction n with
  | zero => simp
  | succ n ih =>
    rw [Nat.mul_succ, List.range_add, List.map_append, List.sum_append, ih, List.range_succ, List.map_append, List.sum_append]
    congr 1
    simp only [List.map_map, List.map_cons, List.map_nil, List.sum_cons, List.sum_nil, add_zero]
    congr 1
    apply List.map_congr_left
    intro g _
    simp only [Function.comp]
    rw [Nat.add_comm]

/-- a tensor product with one more dimension is a combination of tensor products of the blocks of coefficients -/
theorem tensorEval_append {K : Type*} [CommSemiring K] (basis : List (ℕ → K)) (b : ℕ → K) (dims : List ℕ) (n : ℕ)
    (coef : List K) (blocks : ℕ → List K) (hb : basis.length = dims.length)
    (hc : ∀ l < n, ∀ g < dims.prod, coef.getD (g + dims.prod * l) 0 = (blocks l).getD g 0) :
    tensorEval (basis ++ [b]) (dims ++ [n]) coef = ((List.range n).map fun l => b l * tensorEval basis dims (blocks l)).sum := by
  unfold tensorEval
  rw [List.prod_append, List.prod_singleton, sum_range_mul]
  congr 1
  apply List.map_congr_left
  intro l hl
  rw [← List.sum_map_mul_left]
  congr 1
  apply List.map_congr_left
  intro g hg
  have hl' := List.mem_range.1 hl
  have hg' := List.mem_range.1 hg
  rw [digits_append dims n g l hg' hl', basisProduct_append _ _ _ _ (by rw [digits_length]; exact hb), hc l hl' g hg']
  ring

theorem tensorEval_add {K : Type*} [CommSemiring K] (basis : List (ℕ → K)) (dims : List ℕ) (c c' c'' : List K)
    (h : ∀ g < dims.prod, c''.getD g 0 = c.getD g 0 + c'.getD g 0) :
    tensorEval basis dims c'' = tensorEval basis dims c + tensorEval basis dims c' := by
  unfold tensorEval
  rw [← List.sum_map_add]
  congr 1
  apply List.map_congr_left
  intro g hg
  rw [h g (List.mem_range.1 hg)]
  ring

theorem tensorEval_smul {K : Type*} [CommSemiring K] (basis : List (ℕ → K)) (dims : List ℕ) (a : K) (c c' : List K)
    (h : ∀ g < dims.prod, c'.getD g 0 = a * c.getD g 0) : tensorEval basis dims c' = a * tensorEval basis dims c := by
  unfold tensorEval
  rw [← List.sum_map_mul_left]
  congr 1
  apply List.map_congr_left
  intro g hg
  rw [h g (List.mem_range.1 hg)]
  ring

theorem tensorEval_congr {K : Type*} [CommSemiring K] (basis : List (ℕ → K)) (dims : List ℕ) (c c' : List K)
    (h : ∀ g < dims.prod, c'.getD g 0 = c.getD g 0) : tensorEval basis dims c' = tensorEval basis dims c := by
  unfold tensorEval
  congr 1
  apply List.map_congr_left
  intro g hg
  rw [h g (List.mem_range.1 hg)]

end Splinepy.Spec
