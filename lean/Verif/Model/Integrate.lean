import Verif.Model.Index
import Verif.Spec.Product
import Mathlib.Algebra.Field.Defs

/-!
Model of `splinepy/helpme/integrate.py`. `float` is an arbitrary field `K`; a measure (`_get_integral_measure`, lines 8-53)
is an arbitrary function of the parametric coordinates, `numpy.polynomial.legendre.leggauss` a parameter.
-/
namespace Splinepy.Integrate

/-- Orders of the rule per dimension, `_get_quadrature_information` 93-108: `ceil((e + 1) * 0.5)` is `(e + 2) / 2`.
`none`: `ValueError` of line 106. (splinepy/helpme/integrate.py) -/
def quadOrders (degrees : List ℕ) (rational : Bool) (orders : Option (List ℤ)) : Option (List ℤ) :=
  match orders with
  | none => some (degrees.map fun p =>
      let expected := p * degrees.length + 1
      let expected := if rational then expected + 2 else expected
      (((expected + 2) / 2 : ℕ) : ℤ))
  | some o => if o.length ≠ degrees.length then none else some o

/-- One pass of the loop, `_get_quadrature_information` 110-115; `leggauss` raises for non-positive orders. (splinepy/helpme/integrate.py) -/
def rule1 {K : Type*} [Field K] (leggauss : ℕ → List K × List K) (order : ℤ) : Option (List K × List K) :=
  if order ≤ 0 then none
  else
    let g := leggauss order.toNat
    some (g.1.map fun p => p * (1 / 2) + 1 / 2, g.2.map fun w => w * (1 / 2))

/-- Rows of `cartesian_product` (`Model/Index.lean`). (splinepy/helpme/integrate.py 116-121) -/
def rows {K : Type*} [Field K] (arrays : List (List K)) : Option (List (List K)) :=
  (Index.cartesianProduct arrays true).map fun t => t.map fun r => r.map fun x => x.getD 0

/-- `_get_quadrature_information`, 56-121: positions and weights. (splinepy/helpme/integrate.py) -/
def quadrature {K : Type*} [Field K] (leggauss : ℕ → List K × List K) (degrees : List ℕ) (rational : Bool)
    (orders : Option (List ℤ)) : Option (List (List K) × List K) :=
  match quadOrders degrees rational orders with
  | none => none
  | some o =>
    match o.mapM (rule1 leggauss) with
    | none => none
    | some rules =>
      match rows (rules.map (·.1)), rows (rules.map (·.2)) with
      | some p, some w => some (p, w.map List.prod)
      | _, _ => none

/-- `np.sum(f(positions) * weights)`, as in 154 and 159. (splinepy/helpme/integrate.py) -/
def weightedSum {K : Type*} [Field K] (f : List K → K) (q : List (List K) × List K) : K :=
  (List.zipWith (fun p w => f p * w) q.1 q.2).sum

/-- `volume`, 124-160: `patches` are the measures of the extracted Bezier patches, or the measure of the spline itself if it
has no knot vectors. (splinepy/helpme/integrate.py) -/
def volume {K : Type*} [Field K] (leggauss : ℕ → List K × List K) (degrees : List ℕ) (rational : Bool)
    (orders : Option (List ℤ)) (patches : List (List K → K)) : Option K :=
  (quadrature leggauss degrees rational orders).map fun q => (patches.map fun m => weightedSum m q).sum

/-- Consecutive pairs of a list of unique knots: the knot spans. (splinepy/helpme/integrate.py 195-217) -/
def spans {K : Type*} (uk : List K) : List (K × K) := uk.zip uk.tail

/-- Position inside of an element, `parametric_function` 200: the Bezier patches of `parametric_view` (create.py 458-565) are
linear and map the unit cube on the knot element. -/
def mapInto {K : Type*} [Field K] (element : List (K × K)) (t : List K) : List K :=
  List.zipWith (fun e x => e.1 + (e.2 - e.1) * x) element t

/-- `parametric_function`, 163-217, for a scalar function. `uniqueKnots` is `none` for a spline without knot vectors. (splinepy/helpme/integrate.py) -/
def parametricFunction {K : Type*} [Field K] (leggauss : ℕ → List K × List K) (degrees : List ℕ) (rational : Bool)
    (orders : Option (List ℤ)) (uniqueKnots : Option (List (List K))) (meas f : List K → K) : Option K :=
  (quadrature leggauss degrees rational orders).map fun q =>
    match uniqueKnots with
    | some uks =>
      ((Spec.firstFastest (uks.map spans)).map fun element =>
        weightedSum (fun x => f (mapInto element x) * meas (mapInto element x)) q).sum
    | none => weightedSum (fun x => f x * meas x) q

end Splinepy.Integrate
