import Verif.Spec.MixedRadix
import Mathlib.Algebra.Field.Basic
import Mathlib.Data.Nat.Choose.Basic
import Mathlib.Algebra.BigOperators.Group.List.Basic

/-!
Model of the basis functions of rational B-splines and their derivatives, include/splinepy/splines/helpers/basis_functions.hpp.
The polynomial basis values (`EvaluateBasisValues`, `EvaluateBasisDerivativeValues`) and the first non-zero basis function of each direction come
from BSplineLib, which is not part of the repository; they are parameters. Floating point numbers are elements of a field.
-/
namespace Splinepy.RationalBasis
open Splinepy.Spec (flat digits)

/-- `BSplineSupport`, basis_functions.hpp 113-143: global ids of the basis functions in the support. `start` is
`FindFirstNonZeroBasisFunction`, `counts` is `GetNumberOfNonZeroBasisFunctions`; the offset is incremented with the first dimension running
fastest, `GetIndex1d` numbers the control net `dims` the same way (both BSplineLib). -/
def support (dims start counts : List ℕ) : List ℕ :=
  (List.range counts.prod).map fun i => flat dims (List.zipWith (· + ·) start (digits counts i))

/-- `RationalBSplineBasis`, basis_functions.hpp 168-199: first loop (183-191) multiplies by the weights and sums up, second loop (193-196)
multiplies with the inverse of the sum. `weight i` is the last column of the homogeneous coordinates. -/
def rationalBasis {K : Type} [Field K] (polyBasis : List K) (weight : ℕ → K) (support : List ℕ) : List K :=
  let r := (List.zip polyBasis support).foldl (fun (acc : List K × K) p => (acc.1 ++ [p.1 * weight p.2], acc.2 + p.1 * weight p.2)) ([], 0)
  r.1.map (· * (1 / r.2))

/-- `local_ids_`, basis_functions.hpp 275-287: directions of order 0 are skipped. -/
def localIds : List ℕ → ℕ → List ℕ
  | [], _ => []
  | o :: os, id =>
    if o = 0 then 0 :: localIds os id
    else (id % (o + 1)) :: localIds os ((id - id % (o + 1)) / (o + 1))

/-- `global_ids_`, basis_functions.hpp 290-301, continued with `id` and `offset`. -/
def globalIds : List ℕ → List ℕ → ℕ → ℕ → ℕ
  | o :: os, k :: ks, id, offset =>
    if o = 0 then globalIds os ks id offset else globalIds os ks (id + offset * k) (offset * (o + 1))
  | _, _, id, _ => id

/-- `is_not_subset_`, basis_functions.hpp 304-312. -/
def isNotSubset (max req : List ℕ) : Bool := (List.zipWith (fun m r => decide (m < r)) max req).any id

/-- product of binomial coefficients, basis_functions.hpp 362-369; `ComputeBinomialCoefficient` is BSplineLib's. Simplification: the product is
computed in `int`; overflow is not modelled. -/
def binomFact (lhs rhs : List ℕ) : ℕ := (List.zipWith Nat.choose lhs rhs).prod

/-- body of the loop over `i_deriv`, basis_functions.hpp 346-381; `ders` are the entries of `derivatives` computed before. -/
def derivStep {K : Type} [Field K] (order : List ℕ) (A : List (List K)) (w : List K) (ders : List (List K)) (i : ℕ) : List K :=
  let lhs := localIds order i
  let acc := (List.range i).foldl (fun acc j' =>
    let rhs := localIds order (j' + 1)
    if isNotSubset lhs rhs then acc
    else List.zipWith (fun x y => x - (binomFact lhs rhs : K) * w.getD (j' + 1) 0 * y) acc (ders.getD (i - (j' + 1)) [])) (A.getD i [])
  acc.map (· * (1 / w.getD 0 0))

/-- `RationalBSplineBasisDerivative`, basis_functions.hpp 256-384. `polyDer ks` are the derivatives of order `ks` of the polynomial basis functions
in the support, `ws` the weights of the support. -/
def rationalDerivative {K : Type} [Field K] (polyDer : List ℕ → List K) (ws : List K) (order : List ℕ) : List K :=
  let n := globalIds order order 0 1 + 1
  let A := (List.range n).map fun i => List.zipWith (fun a w => a * w) (polyDer (localIds order i)) ws
  let w := (List.range n).map fun i => (List.zipWith (fun a w => w * a) (polyDer (localIds order i)) ws).sum
  let ders := (List.range n).foldl (fun ders i => ders ++ [derivStep order A w ders i]) []
  ders.getD (n - 1) []

end Splinepy.RationalBasis
