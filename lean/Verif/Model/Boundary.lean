import Verif.Model.Grid
import Verif.Model.Index

/-!
Model of boundary extraction, `SplinepyExtractBoundary` of all four spline types, include/splinepy/splines/helpers/extract.hpp 45-172 and src/py/py_spline_extensions.cpp 164-190.
-/
namespace Splinepy.Boundary
open Splinepy.Index

variable {K P : Type}

/-- `ExtractBoundaryMeshSlice` with `ExtractControlMeshSliceFromIDs`, extract.hpp 45-172: the rows of control points (homogeneous for rational splines, which is the same as selecting
points and weights) with the ids of the face; the direction is removed from degrees and knot vectors. `none`: only one parametric dimension (a warning is printed and an empty spline is
returned, 50-56), or an id out of range. -/
def boundary (s : Spline K P) (b : ℕ) : Option (Spline K P) :=
  if s.degrees.length ≤ 1 then none
  else
    (Grid.boundaryIds (controlMeshResolutions s) b).bind fun ids =>
      (Grid.sliceControlPoints s.controlPoints ids).bind fun points =>
        match s.weights with
        | none => some ⟨s.degrees.eraseIdx (b / 2), s.knotVectors.map fun kvs => kvs.eraseIdx (b / 2), none, points⟩
        | some ws => (Grid.sliceControlPoints ws ids).map fun weights =>
          ⟨s.degrees.eraseIdx (b / 2), s.knotVectors.map fun kvs => kvs.eraseIdx (b / 2), some weights, points⟩

/-- `ExtractBoundaries`, py_spline_extensions.cpp 164-190: all boundaries for an empty list of ids, otherwise the listed ones; negative ids and ids from `2 * para_dim` on raise. -/
def boundaries (s : Spline K P) (ids : List ℤ) : Option (List (Spline K P)) :=
  if ids = [] then (List.range (2 * s.degrees.length)).mapM (boundary s)
  else ids.mapM fun i => if i < 0 ∨ 2 * (s.degrees.length : ℤ) - 1 < i then none else boundary s i.toNat

end Splinepy.Boundary
