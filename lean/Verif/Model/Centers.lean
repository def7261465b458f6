import Verif.Spec.Spline

/-!
Model of the centers of the faces of patches: `ScalarTypeBoundaryCenters`, `ScalarTypeEvaluateBoundaryCenters` (include/splinepy/splines/helpers/scalar_type_wrapper.hpp 61-119) and
`PyMultipatch::SubPatchCenters` (src/py/py_multipatch.cpp 1176-1247).
-/
namespace Splinepy.Centers
open Splinepy.Index (Spline)
open Splinepy.Spec (Direction directions)

variable {K P : Type} [Field K]

/-- One query, scalar_type_wrapper.hpp 82-93: component `i` is at its lower or upper bound, the others in the middle. -/
def query (lower upper : List K) (i : ℕ) (last : Bool) : List K :=
  (List.range lower.length).map fun j => if i = j then (if last then upper.getD j 0 else lower.getD j 0) else (1 / 2) * (lower.getD j 0 + upper.getD j 0)

/-- `ScalarTypeBoundaryCenters`, scalar_type_wrapper.hpp 67-94: rows `2 i` and `2 i + 1` for each direction `i`. -/
def boundaryCenters (lower upper : List K) : List (List K) := (List.range lower.length).flatMap fun i => [query lower upper i false, query lower upper i true]

/-- `ScalarTypeEvaluateBoundaryCenters`, scalar_type_wrapper.hpp 96-119; `evaluate` is the evaluation of the spline, bounds are those of the knot vectors. -/
def evaluateBoundaryCenters (evaluate : Spline K P → List K → P) (s : Spline K P) : List P :=
  (boundaryCenters ((directions s).map (·.lower)) ((directions s).map (·.upper))).map (evaluate s)

/-- `PyMultipatch::SubPatchCenters`, py_multipatch.cpp 1176-1247, computed for the first time with bounds of each patch (`same_parametric_bounds_` is not set by the Python classes) and a number of threads
that covers all patches (C09). -/
def subPatchCenters (evaluate : Spline K P → List K → P) (patches : List (Spline K P)) : List P := patches.flatMap (evaluateBoundaryCenters evaluate)

end Splinepy.Centers
