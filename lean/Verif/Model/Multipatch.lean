import Mathlib.Data.List.Range
import Mathlib.Order.Lattice
import Mathlib.Order.Defs.LinearOrder
import Verif.Model.Threads
import Verif.Model.Index

/-!
Model of the boundary bookkeeping of `splinepy/multipatch.py` and of the face ids and control point offsets of
`src/py/py_multipatch.cpp`.

The interface table (shape: number of patches x number of faces per patch) is the list of its entries in row-major order. Negative entries are
boundary ids, the others are ids of the neighbouring face. Simplifications: `int` is unbounded; a raised exception is `none` (a method that
raises has not assigned anything yet, see the operations below).
-/
namespace Splinepy.Multipatch
open Splinepy.Threads Splinepy.Index

/-- `numpy.ndarray.min` of a non-empty array. (splinepy/multipatch.py 211-268) -/
def tableMin : List Int → Int
  | [] => 0
  | x :: xs => xs.foldl min x

/-- numpy broadcasting of the two index arrays in `interfaces[spline_ids, boundary_faces]` (multipatch.py 251, 268). -/
def broadcast (a b : List Int) : Option (List (Int × Int)) :=
  if a.length = b.length then some (a.zip b)
  else if a.length = 1 then some (b.map (fun y => (a.getD 0 0, y)))
  else if b.length = 1 then some (a.map (fun x => (x, b.getD 0 0)))
  else none

/-- positions in the row-major table selected by `interfaces[spline_ids, boundary_faces]`; negative indices count from the end, an index out of
range raises. (splinepy/multipatch.py 211-268, 342-417) -/
def positions (nP nF : ℕ) (splineIds faces : List Int) : Option (List ℕ) :=
  (broadcast splineIds faces).bind (fun ps => ps.mapM (fun p =>
    match pyIndex nP p.1, pyIndex nF p.2 with
    | some i, some j => some (i * nF + j)
    | _, _ => none))

/-- the id that is written: multipatch.py 234-241 and 367-374. -/
def newBoundaryId (t : List Int) : Option Int → Int
  | none => tableMin t - 1
  | some b => -(b.natAbs : Int)

/-- assignment of one value at several positions (splinepy/multipatch.py 211-268, 342-417) -/
def assign (t : List Int) (ps : List ℕ) (v : Int) : List Int := ps.foldl (fun t p => t.set p v) t

/-- `set_boundary`, multipatch.py 211-268. -/
def setBoundary (nP nF : ℕ) (t : List Int) (splineIds faces : List Int) (bid : Option Int) : Option (List Int) :=
  match positions nP nF splineIds faces with
  | none => none                                                       -- lines 250-257
  | some ps =>
    if ps.any (fun p => decide (t.getD p 0 > -1)) then none            -- lines 261-265
    else some (assign t ps (newBoundaryId t bid))                      -- line 268

/-- the faces considered by `boundary_from_function`, multipatch.py 384-387 and 403. -/
def candidates (t : List Int) : Option (List Int) → List ℕ
  | none => (List.range t.length).filter (fun p => decide (t.getD p 0 < 0))
  | some mask => (List.range t.length).filter (fun p => decide (-(t.getD p 0) ∈ mask.map (fun (m : Int) => (m.natAbs : Int))))

/-- `boundary_from_function`, multipatch.py 342-417. `centers` are the face centers in the order of the table; `function` maps a list of
centers to booleans, `none` if it raises (line 409). A list of wrong length is an `IndexError` in line 416. -/
def boundaryFromFunction {C : Type} [Inhabited C] (centers : List C) (t : List Int) (function : List C → Option (List Bool))
    (mask : Option (List Int)) (bid : Option Int) : Option (List Int) :=
  let cand := candidates t mask
  if cand = [] then some t                                             -- lines 390-395
  else
    match function (cand.map (fun p => centers.getD p default)) with   -- lines 398-407
    | none => none
    | some bools =>
      if bools.length ≠ cand.length then none
      else some (assign t (((cand.zip bools).filter (fun c => c.2)).map Prod.fst) (newBoundaryId t bid))  -- lines 415-417

/-- `combine_boundaries`, multipatch.py 511-535. -/
def combineBoundaries (t : List Int) (mask : List Int) : List Int :=
  let cand := candidates t (some mask)                                 -- line 526
  if cand = [] then t                                                  -- lines 528-533
  else assign t cand (tableMin mask)                                   -- line 535

/-- one call of the bookkeeping API (splinepy/multipatch.py 211-268, 342-417, 473-535) -/
inductive Op (C : Type) where
  | setBoundary (splineIds faces : List Int) (bid : Option Int)
  | fromFunction (function : List C → Option (List Bool)) (mask : Option (List Int)) (bid : Option Int)
  | combine (mask : List Int)

/-- effect of one call; a call that raises leaves the table as it is, since the assignment is the last statement of each method (splinepy/multipatch.py 211-268, 342-417, 473-535) -/
def apply {C : Type} [Inhabited C] (nP nF : ℕ) (centers : List C) (t : List Int) : Op C → List Int
  | .setBoundary s f b => (setBoundary nP nF t s f b).getD t
  | .fromFunction fn m b => (boundaryFromFunction centers t fn m b).getD t
  | .combine m => combineBoundaries t m

/-- `boundaries`, multipatch.py 155-180: one list of (patch, face) per boundary id. -/
def boundaries (nF : ℕ) (t : List Int) : List (List (ℕ × ℕ)) :=
  -- range(-1, max_BID - 1, -1), line 172
  (List.range (-(tableMin t)).toNat).map (fun (k : ℕ) =>
    ((List.range t.length).filter (fun p => decide (t.getD p 0 = -((k : Int) + 1)))).map (fun p => (p / nF, p % nF)))

/-- `BoundaryPatchIds` without the cache, py_multipatch.cpp 1292-1325: `j` slots of the array have been written, the array is cut to them
(line 1325), which is the list of the pushed ids. -/
def boundaryPatchIds (t : List Int) (bid : Int) : List ℕ :=
  (List.range t.length).foldl (fun acc i =>
    if bid < 0 then (if t.getD i 0 < 0 then acc ++ [i] else acc)                 -- lines 1308-1313
    else (if t.getD i 0 = -bid then acc ++ [i] else acc)) []                     -- lines 1316-1321

/-- `SplinepyNumberOfControlPoints` of the patches: null splines (`None` in a field) say -1 (`include/splinepy/splines/null_spline.hpp` 90). -/
def splineNcps : Option ℕ → ℤ
  | some n => n
  | none => -1

/-- `GetNumberOfControlPoints`, py_multipatch.cpp 1610-1617. -/
def numberOfControlPoints (ncps : List ℤ) : ℤ := ncps.foldl (· + ·) 0

/-- loop of `GetControlPointOffsets`, py_multipatch.cpp 1626-1629. -/
def offsetsLoop (offset : ℤ) : List ℤ → List ℤ
  | [] => []
  | n :: ns => offset :: offsetsLoop (offset + n) ns

/-- `GetControlPointOffsets`, py_multipatch.cpp 1619-1631. -/
def controlPointOffsets (ncps : List ℤ) : List ℤ := offsetsLoop 0 ncps

/-- body of `copy_control_points` for one patch, py_multipatch.cpp 1650-1654: the coordinates of the patch (its control points one after the other,
`dim` numbers each) are written to consecutive slots that start at `offset * dim`. -/
def copyWrites {α : Type} [Inhabited α] (dim : ℕ) (offset : ℕ) (coords : List α) : List (Write α) :=
  (List.range coords.length).map (fun k => (offset * dim + k, coords.getD k default))

/-- `GetControlPoints`, py_multipatch.cpp 1633-1666: the writes of each thread. `none`: a thread accesses a patch beyond the list, or the division by
zero in the distribution. A patch is the list of its coordinates (no null splines: for these, line 1650 raises). -/
def controlPoints {α : Type} [Inhabited α] (hw dim : ℕ) (nthreads : ℤ) (patches : List (List α)) : Option (List (List (Write α))) :=
  let offsets := controlPointOffsets (patches.map (fun p => splineNcps (some (p.length / dim))))
  match chunkThreads hw patches.length nthreads with
  | none => none
  | some ts => ts.mapM (fun idx => (idx.mapM (fun i =>
      (patches[i]?).map (fun p => copyWrites dim (offsets.getD i 0).toNat p))).map List.flatten)

end Splinepy.Multipatch
