import Verif.Spec.MixedRadix
import Mathlib.Algebra.Ring.Defs

/-!
Specification of the evaluation of a tensor product: `basis` holds, for every parametric dimension, the values of its univariate basis
functions at the queried parameter; the result is the sum over all control points of the product of basis values times coefficient.
-/
namespace Splinepy.Spec

/-- product of the univariate basis values at grid coordinates `cs` -/
def basisProduct {K : Type*} [CommSemiring K] (basis : List (ℕ → K)) (cs : List ℕ) : K :=
  (List.zipWith (fun b c => b c) basis cs).prod

/-- value of a tensor product function with control net `dims`, coefficients `coef` -/
def tensorEval {K : Type*} [CommSemiring K] (basis : List (ℕ → K)) (dims : List ℕ) (coef : List K) : K :=
  ((List.range dims.prod).map (fun i => basisProduct basis (digits dims i) * coef.getD i 0)).sum

end Splinepy.Spec
