import Verif.Spec.MixedRadix
import Mathlib.Algebra.Field.Basic
import Mathlib.Data.Int.Order.Basic

/-!
Model of the index helpers on the python side: `cartesian_product` and `make_matrix` (`splinepy/utils/data.py`),
`MultiIndex` (`splinepy/helpme/multi_index.py`), `permute_parametric_axes` and `flip_axes`
(`splinepy/helpme/reparametrize.py`).
numpy arrays of known shape are functions from multi indices to entries; numpy exceptions are `none`.
-/
namespace Splinepy.Index
open Splinepy.Spec (flat digits)

/-! ### cartesian_product -/

/-- Array of shape `(len(arrays[0]), …, len(arrays[n-1]), n)`: multi index, column ↦ entry; `none` is the uninitialised memory of
`np.empty` (data.py 378). -/
abbrev Table (α : Type*) := List ℕ → ℕ → Option α

/-- `dim_reducing_views[i][..., i] = arrays[i][idx[: n_arr - i]]`, data.py 392. View `i` (384-389) fixes the first `i` indices to 0. -/
def assignColumn {α : Type*} (arrays : List (List α)) (i : ℕ) (t : Table α) : Table α := fun ks j =>
  if j = i ∧ (ks.take i).all (· == 0) then (arrays[i]?).bind (fun a => a[ks.getD i 0]?) else t ks j

/-- `dim_reducing_views[i - 1][1:] = dim_reducing_views[i]`, data.py 393. -/
def copyBlock {α : Type*} (i : ℕ) (t : Table α) : Table α := fun ks j =>
  if (ks.take (i - 1)).all (· == 0) ∧ 1 ≤ ks.getD (i - 1) 0 then t (ks.set (i - 1) 0) j else t ks j

/-- Loop `for i in range(n_arr - 1, 0, -1)`, data.py 391-393, remaining iterations `i, i-1, …, 1`. -/
def fillLoop {α : Type*} (arrays : List (List α)) : ℕ → Table α → Table α
  | 0, t => t
  | i + 1, t => fillLoop arrays i (copyBlock (i + 1) (assignColumn arrays (i + 1) t))

/-- `_cartesian` after line 394. (splinepy/utils/data.py) -/
def filledTable {α : Type*} (arrays : List (List α)) : Table α :=
  assignColumn arrays 0 (fillLoop arrays (arrays.length - 1) (fun _ _ => none))

/-- `reshape(-1, n)` reads the leading axes in C order (last axis fastest): the multi index of row `r`. (splinepy/utils/data.py 346-396) -/
def cOrderIndex (shape : List ℕ) (r : ℕ) : List ℕ := (digits shape.reverse r).reverse

/-- `cartesian_product`, data.py 346-396; an empty list of arrays raises in `np.result_type()` (371). For `reverse` the
arrays are read in reverse order (375) and the columns of the result are the reversed columns of `_cartesian` (382).
Simplification: no dtype conversion. -/
def cartesianProduct {α : Type*} (arrays : List (List α)) (reverse : Bool) : Option (List (List (Option α))) :=
  if arrays.length = 0 then none
  else
    let arrs := if reverse then arrays.reverse else arrays
    let n := arrs.length
    let shape := arrs.map List.length
    let t := filledTable arrs
    some ((List.range shape.prod).map (fun r =>
      (List.range n).map (fun j => t (cOrderIndex shape r) (if reverse then n - 1 - j else j))))

/-! ### MultiIndex -/

/-- `MultiIndex.__getitem__`, multi_index.py 38-52, for one index list per axis (an integer is a list of length 1, which does not change the
raveled result; slices are lists of indices). The stored array holds `arange(prod)` in shape `grid_resolutions`, Fortran order (32-36),
so the entry at `cs` is `cs₀ + r₀ (cs₁ + …)`; `.T.ravel()` reads the transposed selection in C order.
Simplification: int32 overflow of `arange` not modelled. An index outside of the axis raises `IndexError`. -/
def multiIndexGet (res : List ℕ) (sel : List (List ℕ)) : Option (List ℕ) :=
  if sel.length = res.length ∧ (List.zipWith (fun s r => s.all (· < r)) sel res).all id then
    let shape := sel.map List.length
    let entry : List ℕ → ℕ := fun ks => flat res (List.zipWith (fun s k => s.getD k 0) sel ks)
    let transposed : List ℕ → ℕ := fun ks => entry ks.reverse
    some ((List.range shape.prod).map (fun r => transposed (cOrderIndex shape.reverse r)))
  else none

/-! ### make_matrix -/

/-- Sparse variant, data.py 433-442: entries with the same row and column are summed up by `csr_array`. -/
def makeMatrixSparse {K : Type*} [AddCommMonoid K] (values : List (List K)) (supports : List (List ℕ)) (r c : ℕ) : K :=
  ((List.zip (values.getD r []) (supports.getD r [])).map (fun p => if p.2 = c then p.1 else 0)).sum

/-- One row of `put_along_axis`, data.py 444-445: entries are written one after another into a row of zeros. -/
def putAlong {K : Type*} (row : ℕ → K) : List (K × ℕ) → (ℕ → K)
  | [] => row
  | p :: ps => putAlong (Function.update row p.2 p.1) ps

/-- Dense variant, data.py 443-446. -/
def makeMatrixDense {K : Type*} [AddCommMonoid K] (values : List (List K)) (supports : List (List ℕ)) (r : ℕ) : ℕ → K :=
  putAlong (fun _ => 0) (List.zip (values.getD r []) (supports.getD r []))

/-! ### permute_parametric_axes, flip_axes -/

/-- The defining properties of a spline (`current_core_properties`). (splinepy/spline.py 31-46) -/
structure Spline (K P : Type*) where
  degrees : List ℕ
  knotVectors : Option (List (List K))
  weights : Option (List K)
  controlPoints : List P
deriving DecidableEq

/-- `GetControlMeshResolutions`, include/splinepy/splines/helpers/properties.hpp 69-89. -/
def controlMeshResolutions {K P : Type*} (s : Spline K P) : List ℕ :=
  match s.knotVectors with
  | some kvs => List.zipWith (fun (kv : List K) d => kv.length - d - 1) kvs s.degrees
  | none => s.degrees.map (· + 1)

/-- Loop reparametrize.py 61-64: local indices of one control point. -/
def localIndices : List ℕ → ℕ → List ℕ
  | [], _ => []
  | r :: rs, g =>
    let l := g % r
    l :: localIndices rs ((g - l) / r)

/-- `np.cumprod([1] + dims)[0:-1]`, reparametrize.py 71, continued with running product `p`. -/
def cumprod (p : ℕ) : List ℕ → List ℕ
  | [] => []
  | r :: rs => p :: cumprod (p * r) rs

/-- Reordered flat id of the control point `g`, reparametrize.py 57-72. -/
def permutedId (dims perm : List ℕ) (g : ℕ) : ℕ :=
  let loc := localIndices dims g
  let newDims := perm.map (fun p => dims.getD p 0)
  (List.zipWith (· * ·) (perm.map (fun p => loc.getD p 0)) (cumprod 1 newDims)).sum

/-- `permute_parametric_axes`, reparametrize.py 6-87. `argsort` stands for `np.argsort` (74). A list with the right set of entries but
more entries than dimensions passes the check in line 34 and then fails with a shape mismatch in line 67. -/
def permuteAxes {K P : Type*} [Inhabited P] [Inhabited K] (argsort : List ℕ → List ℕ) (perm : List ℕ) (s : Spline K P) :
    Option (Spline K P) :=
  let n := s.degrees.length
  if ¬ ((List.range n).all (fun i => perm.contains i) ∧ perm.all (fun p => (List.range n).contains p)) then none
  else if perm.length ≠ n then none
  else
    let dims := controlMeshResolutions s
    let order := argsort ((List.range s.controlPoints.length).map (permutedId dims perm))
    some
      { degrees := perm.map (fun p => s.degrees.getD p 0)
        knotVectors := s.knotVectors.map (fun kvs => perm.map (fun p => kvs.getD p []))
        weights := s.weights.map (fun ws => order.map (fun i => ws.getD i default))
        controlPoints := order.map (fun i => s.controlPoints.getD i default) }

/-- Lower and upper parametric bound, properties.hpp 33-57. -/
def bounds {K : Type*} [Inhabited K] (kv : List K) (deg : ℕ) : K × K :=
  (kv.getD deg default, kv.getD (kv.length - deg - 1) default)

/-- Mirrored knot vector, reparametrize.py 134-139. -/
def flipKnots {K : Type*} [Field K] [Inhabited K] (deg : ℕ) (kv : List K) : List K :=
  let b := bounds kv deg
  kv.reverse.map (fun k => b.1 + b.2 - k)

/-- Python list index: negative values count from the end; `none` is `IndexError`. (lists of splinepy/helpme/reparametrize.py 90-150) -/
def pyIndex (n : ℕ) (i : ℤ) : Option ℕ :=
  if 0 ≤ i ∧ i < n then some i.toNat else if -(n : ℤ) ≤ i ∧ i < 0 then some (i + n).toNat else none

/-- Loop `for axis in axes`, reparametrize.py 128-139: flags of reversed axes and knot vectors. -/
def flipLoop {K : Type*} [Field K] [Inhabited K] (degrees : List ℕ) :
    List ℤ → List Bool → Option (List (List K)) → Option (List Bool × Option (List (List K)))
  | [], rev, kvs => some (rev, kvs)
  | a :: as, rev, kvs =>
    match pyIndex degrees.length a with
    | none => none
    | some i =>
      flipLoop degrees as (rev.set i true)
        (kvs.map (fun ks => ks.set i (flipKnots (degrees.getD i 0) (ks.getD i []))))

/-- `flip_axes`, reparametrize.py 90-150. -/
def flipAxes {K P : Type*} [Field K] [Inhabited K] [Inhabited P] (axes : List ℤ) (s : Spline K P) : Option (Spline K P) :=
  match flipLoop s.degrees axes (s.degrees.map (fun _ => false)) s.knotVectors with
  | none => none
  | some (rev, kvs) =>
    let dims := controlMeshResolutions s
    (multiIndexGet dims (List.zipWith (fun (b : Bool) r => if b then (List.range r).reverse else List.range r) rev dims)).map
      (fun ids =>
        { degrees := s.degrees
          knotVectors := kvs
          weights := s.weights.map (fun ws => ids.map (fun i => ws.getD i default))
          controlPoints := ids.map (fun i => s.controlPoints.getD i default) })

/-- `uniform_query`, data.py 449-474; `linspace` stands for `np.linspace`. -/
def uniformQuery {K : Type*} (linspace : K → K → ℕ → List K) (lower upper : List K) (res : List ℕ) :
    Option (List (List (Option K))) :=
  if lower.length = upper.length ∧ upper.length = res.length then
    cartesianProduct (List.zipWith (fun f r => f r) (List.zipWith linspace lower upper) res) true
  else none

end Splinepy.Index
