import Verif.Model.Queries

/-!
Model of how calls read arrays of knots, ids, locations and control points.

* `splinepy/utils/data.py` 277-340 (enforce_contiguous, enforce_contiguous_values)
* `splinepy/spline.py` 696-697, 1484-1542, `splinepy/bspline.py` 115-117, 256-262, 310-315, `splinepy/bezier.py` 112-120, 232-252,
  `splinepy/helpme/extract.py` 541-545, `splinepy/multipatch.py` 125-129
* `src/py/py_spline.cpp` 64-75, 784-824, `src/py/py_spline_extensions.cpp` 33-63, 65-79, 114-151, 164-190,
  `src/py/py_knot_vector.cpp` 126-149, `src/py/py_parameter_space.cpp` 133-152, `src/py/py_multipatch.cpp` 1266-1284, 1294-1320,
  `src/py/py_knot_insertion_matrix.cpp` 205-260

The bound functions take `py::array_t<int>` or `py::array_t<double>`: pybind11 converts the dtype where needed (parameter `cast`), and keeps the
strides of an array that has the dtype already. Then the functions read `request().ptr[0], …, request().ptr[size - 1]`.
-/
namespace Splinepy.Layout
open Splinepy.Queries

/-- Calls that take an array of numbers besides queries (those are in `Model/Queries.lean`). (splinepy/spline.py 696-697, 1484-1542) -/
inductive Api where
  | construct          -- degrees, control points and weights, spline.py 696-697
  | insertKnots        -- bspline.py 115-117
  | removeKnots        -- bspline.py 310-315
  | insertionMatrix    -- bspline.py 256-262
  | derivativeSpline   -- bezier.py 112-120
  | boundaries         -- extract.py 541-545
  | elevateDegrees     -- spline.py 1501
  | reduceDegrees      -- spline.py 1523-1526
  | split              -- bezier.py 250
  | knotSlice          -- knot_vectors[i][a:b:c] = array, py_knot_vector.cpp 126-149
  | knotVector         -- knot_vectors[i] = array, py_parameter_space.cpp 133-152
  | setInterfaces      -- multipatch.py 125-129
deriving DecidableEq

/-- What the Python side hands over: a contiguous array, a list of the elements (which pybind11 makes a contiguous array), or the array
itself. (splinepy/spline.py 697, splinepy/bspline.py 116, 260, 313, splinepy/bezier.py 117, 250, splinepy/helpme/extract.py 541,
splinepy/spline.py 1501, 1523-1526, splinepy/multipatch.py 128) -/
def handOver {K : Type*} (api : Api) (a : NdArray K) : Option (NdArray K) :=
  match api with
  | .construct | .insertKnots | .removeKnots | .insertionMatrix | .derivativeSpline => enforceContiguous a
  | .boundaries => a.ascontiguousarray
  | .elevateDegrees | .reduceDegrees | .split | .knotSlice | .knotVector | .setInterfaces => some a

/-- The numbers a bound function works with: `ptr[0], …, ptr[size - 1]` (e.g. src/py/py_spline_extensions.cpp 36-41, 130-132,
src/py/py_spline.cpp 785-789). -/
def numbers {K : Type*} (cast : NdArray K → Option (NdArray K)) (api : Api) (a : NdArray K) : Option (List K) :=
  (handOver api a).bind (fun b => (cast b).bind (fun c => (List.range c.shape.prod).mapM c.raw))

/-- A call: what it does with the numbers is a function of them (see the models of the single calls). (src/py/py_spline.cpp 784-824) -/
def call {K R : Type*} (cast : NdArray K → Option (NdArray K)) (api : Api) (f : List K → R) (a : NdArray K) : Option R :=
  (numbers cast api a).map f

end Splinepy.Layout
