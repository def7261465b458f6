import Verif.Model.Index
import Verif.Model.BezierPatches

/-!
Model of `extract.beziers` (splinepy/helpme/extract.py 702-718), `extract_bezier_patches` (splinepy/bspline.py 347-364,
src/py/py_spline_extensions.cpp 154-161) and `ExtractBezierPatches` (include/splinepy/splines/helpers/extract.hpp 218-330).

External (BSplineLib): `DetermineBezierExtractionKnots` is the parameter `needed` (spline and dimension to list of knots), `InsertKnot` the parameter
`insertKnot`, `KnotMultiplicities` the parameter `mults` (knot vector to multiplicities).
-/
namespace Splinepy.BezierSpline
open Splinepy.Index (Spline)

variable {K : Type} [Field K]

/-- `GetCoordinates()` of the core, extract.hpp 276-278: rows of control points, for NURBS weighted coordinates with the weight in the last column. (include/splinepy/splines/helpers/extract.hpp) -/
def coordinates (s : Spline K (List K)) : List (List K) :=
  match s.weights with
  | none => s.controlPoints
  | some ws => List.zipWith (fun P w => P.map (w * ·) ++ [w]) s.controlPoints ws

/-- Inner loop 257-261: insert the required knots one after the other. (include/splinepy/splines/helpers/extract.hpp) -/
def insertAll (insertKnot : Spline K (List K) → ℕ → K → Option (Spline K (List K))) (axis : ℕ) : List K → Spline K (List K) → Option (Spline K (List K))
  | [], s => some s
  | x :: xs, s => (insertKnot s axis x).bind (insertAll insertKnot axis xs)

/-- Outer loop 247-262 over the dimensions `axis, …, axis + n - 1` (first argument `n`). (include/splinepy/splines/helpers/extract.hpp) -/
def refineAll (needed : Spline K (List K) → ℕ → List K) (insertKnot : Spline K (List K) → ℕ → K → Option (Spline K (List K))) :
    ℕ → ℕ → Spline K (List K) → Option (Spline K (List K))
  | 0, _, s => some s
  | n + 1, axis, s => (insertAll insertKnot axis (needed s axis) s).bind (refineAll needed insertKnot n (axis + 1))

/-- Loop 290-329 for one patch: rows `ids` of the coordinates, un-weighted for rational splines (296-308). The created spline (322-328) has no knot
vectors: it is a Bezier or rational Bezier. (include/splinepy/splines/helpers/extract.hpp) -/
def patch (degrees : List ℕ) (dim : ℕ) (rational : Bool) (coords : List (List K)) (ids : List ℕ) : Spline K (List K) :=
  let rows := ids.map fun i => coords.getD i []
  { degrees := degrees
    knotVectors := none
    weights := if rational then some (rows.map fun r => r.getD dim 0) else none
    controlPoints := rows.map fun r =>
      if rational then (List.range dim).map fun i => r.getD i 0 * (1 / r.getD dim 0) else r.take dim }

/-- `ExtractBezierPatches`, extract.hpp 218-330. A Bezier has no knot vectors and returns a copy of itself (include/splinepy/splines/bezier.inl 610-614,
include/splinepy/splines/rational_bezier.inl 654-658). -/
def extractBezierPatches (needed : Spline K (List K) → ℕ → List K) (insertKnot : Spline K (List K) → ℕ → K → Option (Spline K (List K)))
    (mults : List K → List ℕ) (s : Spline K (List K)) : Option (List (Spline K (List K))) :=
  match s.knotVectors with
  | none => some [s]
  | some _ =>
    (refineAll needed insertKnot s.degrees.length 0 s).map fun q =>
      let dim := (s.controlPoints.headD []).length
      (BezierPatches.extractBezierPatchIDs ((q.knotVectors.getD []).map mults) s.degrees).map (patch s.degrees dim s.weights.isSome (coordinates q))

/-- `beziers`, splinepy/helpme/extract.py 702-718: the spline itself without knot vectors. `clamped_knot_vectors` in bspline.py 360-361 only warns. -/
def beziers (needed : Spline K (List K) → ℕ → List K) (insertKnot : Spline K (List K) → ℕ → K → Option (Spline K (List K)))
    (mults : List K → List ℕ) (s : Spline K (List K)) : Option (List (Spline K (List K))) :=
  if s.knotVectors.isSome then extractBezierPatches needed insertKnot mults s else some [s]

end Splinepy.BezierSpline
