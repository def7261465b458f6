import Verif.Model.Index
import Verif.Model.Greville
import Verif.Model.Integrate
import Verif.Model.Unique
import Verif.Spec.Spline
import Mathlib.Data.List.Dedup

/-!
Model of `determinant_spline`, splinepy/helpme/create.py 339-455.
-/
namespace Splinepy.DetSpline

variable {K : Type} [Field K] [LinearOrder K]

/-- Row of the coefficient matrix at a query: `basis_and_support` followed by `make_matrix`, create.py 447-450 (C54). Functions outside of the support are zero. The
values of the basis functions are computed outside of the repository and enter by their meaning. -/
def matrixRow (s : Index.Spline K (List K)) (q : List K) : List K :=
  (List.range (Spec.netSize s).prod).map fun g => Spec.basisProduct (Spec.basisValues s q) (Spec.digits (Spec.netSize s) g)

/-- Degrees of the determinant spline, create.py 396. -/
def determinantDegrees (dim : ℕ) (degrees : List ℕ) : List ℕ := degrees.map (· * dim - 1)

/-- `spline.knot_multiplicities` of one direction, splinepy/spline.py 904-925 and src/py/py_knot_vector.cpp 198-209. The numbers are counted by BSplineLib and enter by their meaning:
for every distinct knot, how often it occurs. -/
def knotMultiplicities (kv : List K) : List ℕ := kv.dedup.map fun k => kv.count k

/-- create.py 414-415: `kn_m[1:-1] += 1` and `kn_m + m`, all in integers. -/
def increased (m : ℤ) (mult : List ℕ) : List ℤ := mult.mapIdx fun (i c : ℕ) => (c : ℤ) + (if 0 < i ∧ i + 1 < mult.length then 1 else 0) + m

/-- `np.repeat(u_kv, counts)`, create.py 415: raises for negative numbers and for lists of different lengths, a single number is used for all. -/
def npRepeat (u : List K) (counts : List ℤ) : Option (List K) :=
  if counts.any (· < 0) then none
  else if counts.length = u.length then some (List.zipWith (fun k c => List.replicate c.toNat k) u counts).flatten
  else if counts.length = 1 then some (u.flatMap fun k => List.replicate (counts.getD 0 0).toNat k)
  else none

/-- Knot vector of the determinant spline in one direction, create.py 396-416. `eps` is the tolerance of `unique_knots`. -/
def determinantKnots (eps : K) (dim p : ℕ) (kv : List K) : Option (List K) :=
  npRepeat (Unique.uniqueKnots eps kv p) (increased ((p * dim - 1 : ℤ) - p) (knotMultiplicities kv))

/-- Interpolation of the determinant at the Greville abscissae, create.py 443-453: `shape` is `determinant_projection` without its control points, `abscissae` its Greville abscissae in each
direction, `det` gives `np.linalg.det(spline.jacobian(q))` at a query, `solve` is `spsolve` or `np.linalg.solve`. -/
def interpolate (det : List K → K) (solve : List (List K) → List K → Option (List K)) (shape : Index.Spline K (List K)) (abscissae : List (List K)) : Option (Index.Spline K (List K)) :=
  (Integrate.rows abscissae).bind fun queries =>
    (solve (queries.map (matrixRow shape)) (queries.map det)).map fun c => ⟨shape.degrees, shape.knotVectors, none, c.map fun x => [x]⟩

/-- `determinant_spline`, create.py 339-455. `none`: an exception, or a direction in which the determinant has degree 0 (the Greville abscissae divide by the degree). `tol` is
`settings.TOLERANCE`. The Bezier branch (433-439) calls the abscissae of Bezier splines, which are at least `1 / degree` apart, and the filter for duplicates is left out there. The
checks of the constructor `BSpline(...)` (C19) are not repeated here. -/
def determinantSpline (eps tol : K) (dim : ℕ) (det : List K → K) (solve : List (List K) → List K → Option (List K)) (s : Index.Spline K (List K)) : Option (Index.Spline K (List K)) :=
  if dim ≠ s.degrees.length then none
  else
    let degrees := determinantDegrees dim s.degrees
    if degrees.any (· == 0) then none
    else
      match s.knotVectors with
      | none => interpolate det solve ⟨degrees, none, none, []⟩ (degrees.map Greville.bezierAbscissae)
      | some kvs =>
        ((s.degrees.zip kvs).mapM fun a => determinantKnots eps dim a.1 a.2).bind fun knots =>
          interpolate det solve ⟨degrees, some knots, none, []⟩ (List.zipWith (fun d kv => Greville.greville kv d tol) degrees knots)

end Splinepy.DetSpline
