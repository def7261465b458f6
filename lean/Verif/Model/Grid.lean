import Verif.Model.Threads
import Mathlib.Algebra.Field.Defs

/-!
Model of `include/splinepy/utils/grid_points.hpp` and of the boundary slicing in
`include/splinepy/splines/helpers/extract.hpp`. `double` is an arbitrary field `K`.
-/
namespace Splinepy.Grid
open Splinepy.Threads (Write)

/-- Data members of `GridPoints`, `grid_points.hpp` 43-53 (`dim_` is the length of the lists, `bounds_` is never used). -/
structure GridPoints (K : Type*) where
  entries : List (List K)
  resolutions : List ℕ
  stepSize : List K
  len : ℕ

/-- One pass of the loop body of `SetUp`, `grid_points.hpp` 72-93, for dimension `i`; `bounds` is the pointer argument:
lower bounds at `0 … dim-1`, upper bounds at `dim … 2 dim - 1`. `none` is the exception for resolutions below two. -/
def setUpDim {K : Type*} [Field K] (dim : ℕ) (bounds : ℕ → K) (resolutions : ℕ → ℤ) (i : ℕ) :
    Option (List K × ℕ × K) :=
  let res := resolutions i
  if res < 2 then none
  else
    let lower := bounds i
    let upper := bounds (i + dim)
    let stepSize := (upper - lower) / ((res.toNat - 1 : ℕ) : K)
    some ((List.range res.toNat).map (fun (j : ℕ) => lower + stepSize * (j : K)), res.toNat, stepSize)

/-- `GridPoints::SetUp`, `grid_points.hpp` 64-95. -/
def setUp {K : Type*} [Field K] (dim : ℕ) (bounds : ℕ → K) (resolutions : ℕ → ℤ) :
    Option (GridPoints K) :=
  match (List.range dim).mapM (setUpDim dim bounds resolutions) with
  | none => none
  | some ds => some
      { entries := ds.map (·.1)
        resolutions := ds.map (·.2.1)
        stepSize := ds.map (·.2.2)
        len := ds.foldl (fun l d => l * d.2.1) 1 }

/-- Loop of `IdToGridPoint`, `grid_points.hpp` 100-106. `none`: out of range access of `entries_[i]`. -/
def idToGridPointGo {K : Type*} : List (List K) → List ℕ → ℕ → Option (List K)
  | e :: es, r :: rs, tmp =>
    match e[tmp % r]?, idToGridPointGo es rs (tmp / r) with
    | some x, some xs => some (x :: xs)
    | _, _ => none
  | _, _, _ => some []

/-- `GridPoints::IdToGridPoint`, `grid_points.hpp` 100-106. -/
def idToGridPoint {K : Type*} (gp : GridPoints K) (id : ℕ) : Option (List K) :=
  idToGridPointGo gp.entries gp.resolutions id

/-- The three inner loops of `Fill`, `grid_points.hpp` 116-123: the values written for one dimension, in order. -/
def fillColumn {K : Type*} (tile rep : ℕ) (entry : List K) : List K :=
  (List.range tile).flatMap (fun _ => entry.flatMap (fun e => (List.range rep).map (fun _ => e)))

/-- Outer loop of `Fill`, `grid_points.hpp` 112-126; `output_id` starts at `i` and advances by `dim_`. -/
def fillGo {K : Type*} (dim : ℕ) : List (List K) → ℕ → ℕ → ℕ → List (Write K)
  | [], _, _, _ => []
  | e :: es, i, tile, rep =>
    let tile := tile / e.length
    (fillColumn tile rep e).zipIdx.map (fun vk => (i + vk.2 * dim, vk.1))
      ++ fillGo dim es (i + 1) tile (rep * e.length)

/-- `GridPoints::Fill`, `grid_points.hpp` 110-127: the sequence of memory writes. -/
def fill {K : Type*} (gp : GridPoints K) : List (Write K) :=
  fillGo gp.entries.length gp.entries 0 gp.len 1

/-- Loop of the lambda `local_to_global_bd_id` in `IdsOnHyperPlane`, `grid_points.hpp` 146-164:
remaining resolutions, current dimension, `combined_offsets`, `id`, `global_id`. -/
def localToGlobalGo (axis planeId : ℕ) : List ℕ → ℕ → ℕ → ℕ → ℕ → ℕ
  | [], _, _, _, globalId => globalId
  | res :: rs, i, off, id, globalId =>
    if i = axis then
      localToGlobalGo axis planeId rs (i + 1) (off * res) id (globalId + off * planeId)
    else
      let r := id % res
      localToGlobalGo axis planeId rs (i + 1) (off * res) ((id - r) / res) (globalId + r * off)

/-- Size computation in `IdsOnHyperPlane`, `grid_points.hpp` 139-144. -/
def nPointsOnPlane (axis : ℕ) (res : List ℕ) : ℕ :=
  res.zipIdx.foldl (fun n ri => if ri.2 = axis then n else n * ri.1) 1

/-- `GridPoints::IdsOnHyperPlane`, `grid_points.hpp` 134-172. -/
def idsOnHyperPlane (res : List ℕ) (axis planeId : ℕ) : List ℕ :=
  (List.range (nPointsOnPlane axis res)).map (fun i => localToGlobalGo axis planeId res 0 1 i 0)

/-- `ExtractBoundaryMeshSlice`, `extract.hpp` 146-172, the ids of the control points of a boundary and its normal axis.
`none`: the axis is outside of the spline (C++ reads out of bounds; callers are expected to pass `boundary_id < 2 * para_dim`). -/
def boundaryIds (cmr : List ℕ) (boundaryId : ℕ) : Option (List ℕ) :=
  let axis := boundaryId / 2
  match cmr[axis]? with
  | none => none
  | some r =>
    let planeId := if boundaryId % 2 = 0 then 0 else r - 1
    some (idsOnHyperPlane cmr axis planeId)

/-- `ExtractBoundaryFromAxisAndExtrema`, `extract.hpp` 39-43. -/
def boundaryFromAxisAndExtrema (axis : ℕ) (extreme : ℤ) : ℕ :=
  if 0 < extreme then 2 * axis + 1 else 2 * axis

/-- Copy loops of `ExtractControlMeshSliceFromIDs`, `extract.hpp` 89-92, 122-126, 131-135: control points of the slice;
the removed dimension is erased from the per-dimension properties (72-73, 103-112). `none`: id outside of the control points. -/
def sliceControlPoints {P : Type*} (cps : List P) (ids : List ℕ) : Option (List P) :=
  ids.mapM (fun id => cps[id]?)

end Splinepy.Grid
