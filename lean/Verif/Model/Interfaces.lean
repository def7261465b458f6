import Mathlib.Data.List.GetD
import Mathlib.Data.List.Range
import Mathlib.Algebra.BigOperators.Group.List.Basic
import Mathlib.Algebra.Field.Defs
import Mathlib.Order.Defs.LinearOrder

/-!
Model of the interface detection of multipatches, `src/py/py_multipatch.cpp` 396-590.

Simplifications: numbers are from an arbitrary linearly ordered field instead of `double`; `std::sqrt` is a parameter `sqrt`, and so is the
result `order` of `ArgSort` (lines 103-111: a stable sort of the indices), so that the theorems hold for any sorting of equal values. Points
are rows of a table. The threshold `1e-20` is the parameter `eps`.
-/
namespace Splinepy.Interfaces

variable {K : Type} [Field K] [LinearOrder K]

/-- lines 440-458: the metric vector, normalised; all ones if its norm is below the threshold. (src/py/py_multipatch.cpp) -/
def normedMetric (sqrt : K → K) (eps : K) (metric : List K) : List K :=
  let norm := sqrt (metric.map (fun m => m * m)).sum   -- lines 443-448
  if norm < eps then metric.map (fun _ => 1)           -- lines 447, 449-450
  else metric.map (fun m => m * (1 / norm))            -- lines 452-455

/-- lines 478-487: the scalar metric of one point. The loop assigns (does not accumulate), so the last component is what remains. (src/py/py_multipatch.cpp) -/
def scalarMetric (nm : List K) (v : List K) : K :=
  (List.range (nm.length - 1)).foldl (fun _ j => nm.getD (j + 1) 0 * v.getD (j + 1) 0) (nm.getD 0 0 * v.getD 0 0)

/-- lines 461-472: squared euclidian distance of the points `i`, `j`. (src/py/py_multipatch.cpp) -/
def squaredDistance (dim : ℕ) (pts : List (List K)) (i j : ℕ) : K :=
  (List.range dim).foldl (fun acc k =>
    let c := (pts.getD j []).getD k 0 - (pts.getD i []).getD k 0
    acc + c * c) 0

/-- inner loop, lines 497-514: from the points after `l` in sorted order, find the first that is closer than the tolerance. The loop stops as
soon as the difference of the scalar metric reaches the tolerance. (src/py/py_multipatch.cpp) -/
def findDuplicate (metric : ℕ → K) (dist : ℕ → ℕ → K) (tol : K) (l : ℕ) : List ℕ → Option ℕ
  | [] => none
  | u :: rest =>
    if metric u - metric l < tol then
      if dist l u < tol * tol then some u else findDuplicate metric dist tol l rest
    else none

/-- outer loop, lines 493-540, over the sorted indices; `none` is the exception of line 523. The last point (lines 543-546) has no
points after it and follows the `else` branch. (src/py/py_multipatch.cpp) -/
def sweep (metric : ℕ → K) (dist : ℕ → ℕ → K) (tol : K) : List ℕ → List Int → Option (List Int)
  | [], conn => some conn
  | l :: rest, conn =>
    match findDuplicate metric dist tol l rest with
    | some u =>
      if conn.getD l 0 ≠ -2 then none                                                        -- lines 522-527
      else sweep metric dist tol rest ((conn.set l (Int.ofNat u)).set u (Int.ofNat l))       -- lines 530-533
    | none => sweep metric dist tol rest (if conn.getD l 0 = -2 then conn.set l (-1) else conn)  -- lines 536-538

/-- `FindConnectivityFromCenters`, lines 396-551; the connectivity is returned as flat list (the reshape of line 549 does not move data).
`none`: exception, or undefined behaviour (no points at all: line 543 reads before the array; no parametric dimension: division by zero). (src/py/py_multipatch.cpp) -/
def findConnectivity (sqrt : K → K) (eps : K) (order : List ℕ) (pts : List (List K)) (paraDim dim : ℕ) (metric : List K) (tol : K) :
    Option (List Int) :=
  let nFaces := paraDim * 2
  if nFaces = 0 ∨ pts.length = 0 ∨ dim = 0 then none
  else if pts.length % nFaces ≠ 0 then none            -- lines 415-419
  else if metric.length ≠ dim then none                -- lines 420-424
  else
    let nm := normedMetric sqrt eps metric
    sweep (fun i => scalarMetric nm (pts.getD i [])) (squaredDistance dim pts) tol order (List.replicate pts.length (-2))

/-- lines 569-583: largest minus smallest coordinate, per dimension (src/py/py_multipatch.cpp) -/
def extents (dim : ℕ) (pts : List (List K)) : List K :=
  (List.range dim).map (fun k =>
    let first := (pts.getD 0 []).getD k 0
    (pts.drop 1).foldl (fun m p => max (p.getD k 0) m) first - (pts.drop 1).foldl (fun m p => min (p.getD k 0) m) first)

/-- `InterfacesFromBoundaryCenters`, lines 553-590 (src/py/py_multipatch.cpp) -/
def interfacesFromBoundaryCenters (sqrt : K → K) (eps : K) (order : List ℕ) (pts : List (List K)) (tol : K) (paraDim dim : ℕ) :
    Option (List Int) :=
  findConnectivity sqrt eps order pts paraDim dim (extents dim pts) tol

end Splinepy.Interfaces
