import Verif.Model.MicroGeometry
import Verif.Model.KnotInsertion
import Mathlib.Data.Int.Notation

/-!
Model of the whole call of `BSplineBase.uniform_refine`, splinepy/bspline.py 125-183: handling of the arguments and the loop over the directions. `insert_knots` is `MicroGeometry.pyInsertKnots`
(its insertion is BSplineLib's, a parameter), the new knots are `KnotInsertion.uniformNewKnots`.

Simplification: numbers that are not `int` (for example numpy's) are not modelled. Where the core raises inside of `insert_knots`, the spline is taken to be unchanged by this insertion.
-/
namespace Splinepy.UniformRefineCall
open Splinepy.Index (Spline)

variable {K : Type} [Field K] [LinearOrder K]

/-- the argument `para_dims`: `None`, an `int` or a list (splinepy/bspline.py 142-148) -/
inductive Dims where
  | all
  | one (i : ℤ)
  | list (l : List ℤ)

/-- the argument `n_knots`: an `int` or a list (splinepy/bspline.py 150-153) -/
inductive Counts where
  | one (n : ℤ)
  | list (l : List ℤ)

/-- splinepy/bspline.py 142-148 -/
def paraDims (paraDim : ℕ) : Dims → List ℤ
  | .all => (List.range paraDim).map fun (i : ℕ) => (i : ℤ)
  | .one i => [i]
  | .list l => l

/-- splinepy/bspline.py 150-153; `n` is the number of directions -/
def nKnots (n : ℕ) : Counts → List ℤ
  | .one c => List.replicate n c
  | .list l => l

/-- `determine_new_knots`, splinepy/bspline.py 162-172; `arange(1, n + 1)` is empty for negative `n` -/
def newKnots (unique : List K) (n : ℤ) : List K := KnotInsertion.uniformNewKnots unique n.toNat

/-- Body of the loop, splinepy/bspline.py 176-182: the spline after it, and whether it was left without an exception. `self.unique_knots[para_dim]` takes negative numbers from the end and raises
`IndexError` out of range. `insert_knots` (bspline.py 89-123) does not reject a negative direction either and passes it to the core, which reads the knot vector before the first one
(include/splinepy/splines/helpers/scalar_type_wrapper.hpp 250-251): `none`, undefined behaviour. -/
def refineOne (lib : MicroGeometry.Library K) (eps : K) (axis n : ℤ) (s : Spline K (List K)) : Option (Spline K (List K) × Bool) :=
  let unique := MicroGeometry.uniqueKnots eps s
  match (Index.pyIndex unique.length axis).bind fun j => unique[j]? with
  | none => some (s, false)
  | some u =>
    if axis < 0 then
      if newKnots u n = [] then some (s, true) else none
    else
      match MicroGeometry.pyInsertKnots lib s axis.toNat (newKnots u n) with
      | none => some (s, false)
      | some q => some (q, true)

/-- The loop, splinepy/bspline.py 175-182: an exception ends it and leaves what has been done. -/
def refineLoop (lib : MicroGeometry.Library K) (eps : K) : List (ℤ × ℤ) → Spline K (List K) → Option (Spline K (List K) × Bool)
  | [], s => some (s, true)
  | (axis, n) :: rest, s =>
    match refineOne lib eps axis n s with
    | none => none
    | some (q, false) => some (q, false)
    | some (q, true) => refineLoop lib eps rest q

/-- `uniform_refine`, splinepy/bspline.py 125-183: the spline after the call, and whether the call returned. `none`: undefined behaviour. -/
def uniformRefine (lib : MicroGeometry.Library K) (eps : K) (dims : Dims) (counts : Counts) (s : Spline K (List K)) : Option (Spline K (List K) × Bool) :=
  let ds := paraDims s.degrees.length dims
  let ns := nKnots ds.length counts
  if ns.length ≠ ds.length then some (s, false)                    -- 155-160
  else refineLoop lib eps (ds.zip ns) s

end Splinepy.UniformRefineCall
