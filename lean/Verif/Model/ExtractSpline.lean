import Verif.Model.Index
import Verif.Model.Create
import Mathlib.Algebra.Order.Group.Abs

/-!
Model of `extract.spline`, splinepy/helpme/extract.py 407-508: part of a spline between two parameters, or at one parameter, of an axis.
-/
namespace Splinepy.ExtractSpline
open Splinepy.Index (Spline controlMeshResolutions multiIndexGet)

variable {K : Type} [Field K] [LinearOrder K]

/-- Argument `split_plane` after the checks in 437-445; lengths other than one and two raise (an empty array in 461). (splinepy/helpme/extract.py) -/
inductive Plane (K : Type) where
  | at (a : K)
  | between (a b : K)

/-- `split_plane` as an array. (splinepy/helpme/extract.py 437-445) -/
def Plane.locations : Plane K → List K
  | .at a => [a]
  | .between a b => [a, b]

/-- `split_plane[0]` (splinepy/helpme/extract.py 459-482) -/
def Plane.first : Plane K → K
  | .at a => a
  | .between a _ => a

/-- `split_plane[-1]` (splinepy/helpme/extract.py 459-482) -/
def Plane.last : Plane K → K
  | .at a => a
  | .between _ b => b

/-- `np.where(abs(knot_vector - a) < TOLERANCE)[0][-1]`, extract.py 460-463; `none`: `IndexError`. -/
def lastWithin (tol : K) (kv : List K) (a : K) : Option ℕ := ((List.range kv.length).filter fun i => decide (|kv.getD i 0 - a| < tol)).getLast?

/-- Loop extract.py 453-456. -/
def insertLoop (insert : Spline K (List K) → ℕ → List K → Option (Spline K (List K))) (axis : ℕ) (locs : List K) :
    ℕ → Spline K (List K) → Option (Spline K (List K))
  | 0, s => some s
  | n + 1, s => (insert s axis locs).bind (insertLoop insert axis locs n)

/-- Lines 458-508 for the refined spline `q`. The ids 459-473 are natural numbers: a negative one would need a knot that occurs less than degree + 1
times among the first knots (simplification: `none`). The result holds the arguments of the constructor call in 508. (splinepy/helpme/extract.py) -/
def cut (tol : K) (bezier : Bool) (q : Spline K (List K)) (axis : ℕ) (plane : Plane K) : Option (Spline K (List K)) :=
  match q.degrees[axis]?, (q.knotVectors.getD [])[axis]? with
  | some p, some kv =>
    match lastWithin tol kv plane.first, lastWithin tol kv plane.last with
    | some i, some j =>
      if i < p ∨ j < p then none
      else
        let start := i - p
        let stop := j - p
        let res := controlMeshResolutions q
        let slices := res.map List.range
        match plane with
        | .at a =>
          let start : ℤ := if |kv.getD (kv.length - 1) 0 - a| < tol then (start : ℤ) - 1 else start
          if start < 0 then none
          else
            (multiIndexGet res (slices.set axis [start.toNat])).map fun ids =>
              { degrees := q.degrees.eraseIdx axis
                knotVectors := if bezier then none else some ((q.knotVectors.getD []).eraseIdx axis)
                weights := q.weights.map fun ws => ids.map fun g => ws.getD g 0
                controlPoints := ids.map fun g => q.controlPoints.getD g [] }
        | .between _ _ =>
          (multiIndexGet res (slices.set axis (((List.range (res.getD axis 0)).take stop).drop start))).map fun ids =>
            { degrees := q.degrees
              knotVectors := if bezier then none else some ((q.knotVectors.getD []).set axis ((kv.take (stop + p + 1)).drop start))
              weights := q.weights.map fun ws => ids.map fun g => ws.getD g 0
              controlPoints := ids.map fun g => q.controlPoints.getD g [] }
    | _, _ => none
  | _, _ => none

/-- `extract.spline`. `insert` stands for `insert_knots` (bspline.py 75-123) of BSplineLib. An axis that is too large raises in 431-435 or 453; negative
axes, for which `insert_knots` of the C++ core is called with a negative dimension, see `coreDimension`. -/
def extractSpline (insert : Spline K (List K) → ℕ → List K → Option (Spline K (List K))) (tol : K) (s : Spline K (List K)) (axis : ℕ) (plane : Plane K) :
    Option (Spline K (List K)) :=
  if axis > s.degrees.length then none
  else
    let c := Create.withKnotVectors s
    match c.degrees[axis]? with
    | none => none
    | some p => (insertLoop insert axis plane.locations (p + 1) c).bind fun q => cut tol s.knotVectors.isNone q axis plane

/-- The dimension that the first call of `insert_knots` of the C++ core gets for the argument `para_dim`; `none`: rejected before. Checks: extract.py 431-435,
`degrees[para_dim]` in 453 (python accepts negative indices down to `-para_dim`), bspline.py 94-95. -/
def coreDimension (paraDim : ℕ) (axis : ℤ) : Option ℤ :=
  if axis > paraDim then none
  else if axis < -(paraDim : ℤ) ∨ (paraDim : ℤ) ≤ axis then none
  else if axis ≥ paraDim then none
  else some axis

end Splinepy.ExtractSpline
