import Verif.Model.KnotInsertion
import Verif.Model.BezierPatches
import Verif.Model.MicroGeometry
import Verif.Spec.KnotInsertion

/-!
Model of the matrices of `_compute_tiling_prerequisites` with `macro_sensitivity` (splinepy/microstructure/microstructure.py 354-405): they map the control points of the
deformation function to the control points of the Bezier patches. `knot_insertion_matrix` is splinepy/bspline.py 182-269.
-/
namespace Splinepy.MacroMatrix
open Splinepy.KnotInsertion

variable {K : Type} [Field K] [LinearOrder K]

/-- A sparse matrix applied to a vector (`csr_matrix` or `np.zeros` with assigned entries: no entry occurs twice, C03). (splinepy/bspline.py 219-224, 262-269) -/
def apply (g : Global K) (c : List K) : List K :=
  (List.range g.shape.1).map (Spec.sparseMulVec (g.entries.map fun e => (e.row, e.col, e.value)) c)

/-- The product of the matrices applied to a vector, the first one first. Simplified: the code multiplies the matrices, here the product is given by its action.
(splinepy/bspline.py 226-228, splinepy/microstructure/microstructure.py 361-367) -/
def applyAll (gs : List (Global K)) (c : List K) : List K := gs.foldl (fun c g => apply g c) c

/-- Insertion matrices, one direction after the other beginning with `dim`, and the refined knot vectors, 354-368. The knot vectors after `insert_knots` are those
the matrix belongs to (C03). (splinepy/microstructure/microstructure.py) -/
def insertionChain (degrees : List ℕ) (tol : K) : ℕ → List (List K) → List (List K) → Option (List (Global K) × List (List K))
  | _, [], kvs => some ([], kvs)
  | dim, knots :: rest, kvs =>
    (globalInsertionMatrix kvs degrees dim knots tol).bind fun g =>
      (insertionChain degrees tol (dim + 1) rest (kvs.set dim g.newKnotVector)).map fun r => (g :: r.1, r.2)

/-- `bezier_matrices` of 388-400: for each Bezier patch the entry `(l, a)` in row `l` and column `a`; `N` columns. (splinepy/microstructure/microstructure.py; rows are selected in
splinepy/bspline.py 230-232 with the ids of src/py/py_knot_insertion_matrix.cpp 435-450) -/
def bezierMatrices (degrees : List ℕ) (tol : K) (mults : List K → List ℕ) (kvs additional : List (List K)) (N : ℕ) : Option (List (ℕ → ℕ → K)) :=
  (insertionChain degrees tol 0 additional kvs).bind fun ins =>
    (extractionChain degrees tol degrees.length 0 ins.2).map fun ext =>
      (BezierPatches.extractBezierPatchIDs (ext.2.map mults) degrees).map fun ids l a =>
        (applyAll ext.1 (applyAll ins.1 ((List.range N).map fun j => if j = a then 1 else 0))).getD (ids.getD l 0) 0

/-- `bezier_matrices` returned by `_compute_tiling_prerequisites`, 352-405, for the tiling of the microstructure; `additional_knots[0]` of an empty list raises. Only for splines that are not
rational. (splinepy/microstructure/microstructure.py) -/
def macroMatrices (tol : K) (mults : List K → List ℕ) (knotSpanWise : Bool) (tiling : List Int) (s : Index.Spline K (List K)) : Option (List (ℕ → ℕ → K)) :=
  (Micro.additionalKnots knotSpanWise tiling (MicroGeometry.uniqueKnots tol s)).bind fun added =>
    if added.2 = [] then none
    else bezierMatrices s.degrees tol mults ((Create.withKnotVectors s).knotVectors.getD []) added.2 s.controlPoints.length

end Splinepy.MacroMatrix
