import Mathlib.Algebra.Order.Field.Basic
import Mathlib.Algebra.BigOperators.Group.Finset.Basic
import Mathlib.Data.Nat.Choose.Basic

/-!
Specification of B-splines (Cox-de Boor recursion). Knots are a sequence `t : ℕ → K`; division by zero is zero in Lean, which is the usual
convention for repeated knots.
-/
namespace Splinepy.Spec

/-- B-spline basis function number `j` of degree `d` -/
def basis {K : Type*} [Field K] [LinearOrder K] (t : ℕ → K) : ℕ → ℕ → K → K
  | 0, j, x => if t j ≤ x ∧ x < t (j + 1) then 1 else 0
  | d + 1, j, x =>
    (x - t j) / (t (j + d + 1) - t j) * basis t d j x +
      (t (j + d + 2) - x) / (t (j + d + 2) - t (j + 1)) * basis t d (j + 1) x

/-- curve with `n` control coefficients `c` -/
def curve {K : Type*} [Field K] [LinearOrder K] (t : ℕ → K) (p n : ℕ) (c : ℕ → K) (x : K) : K :=
  ∑ j ∈ Finset.range n, c j * basis t p j x

/-- knot list as a sequence (the last knot is repeated; basis functions of the spline never look beyond the list) -/
def knotSeq {K : Type*} [Zero K] (kv : List K) (i : ℕ) : K := kv.getD i (kv.getLastD 0)

/-- Bernstein polynomial number `q` of degree `p` on the interval `[u, v]` -/
def bernstein {K : Type*} [Field K] (p q : ℕ) (u v x : K) : K :=
  (p.choose q : K) * ((x - u) / (v - u)) ^ q * ((v - x) / (v - u)) ^ (p - q)

end Splinepy.Spec
