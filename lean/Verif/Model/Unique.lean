import Mathlib.Algebra.Order.Field.Basic
import Mathlib.Algebra.Order.Group.Unbundled.Abs
import Mathlib.Data.List.Sort

/-!
Model of sorting and counting of requests (`include/splinepy/utils/arrays.hpp` 587-652), of `unique_knots` (`src/py/py_parameter_space.cpp` 176-223), of
knot insertion and degree elevation by lists of requests (`src/py/py_spline_extensions.cpp` 33-63, `src/py/py_spline.cpp` 784-824,
`include/splinepy/splines/helpers/scalar_type_wrapper.hpp` 197-269, `splinepy/bspline.py` 75-123).

Simplifications: `double` is an ordered field; array indices are natural numbers; undefined behaviour and exceptions are `none`. The spline operations of BSplineLib
(`InsertKnot`, `ElevateDegree`) are parameters.
-/
namespace Splinepy.Unique

/-- `ArgSort`, arrays.hpp 587-601: `std::stable_sort` of `0, 1, ...` comparing the data. A stable sort has exactly one result. -/
def argSort {α : Type} (le : α → α → Bool) (data : ℕ → α) (n : ℕ) : List ℕ :=
  (List.range n).insertionSort (fun a b => le (data a) (data b) = true)

/-- the loop of `std::unique` and `std::unique_copy`: every element is compared to the last one that was kept (include/splinepy/utils/arrays.hpp 587-652) -/
def uniqueFrom {α : Type} (same : α → α → Bool) : α → List α → List α
  | _, [] => []
  | kept, x :: xs => if same kept x then uniqueFrom same kept xs else x :: uniqueFrom same x xs

/-- `std::unique` (arrays.hpp 629) and `std::unique_copy` (py_parameter_space.cpp 198-209) -/
def stdUnique {α : Type} (same : α → α → Bool) : List α → List α
  | [] => []
  | x :: xs => x :: uniqueFrom same x xs

/-- arrays.hpp 643-645: advance `arg_ptr` until it points to `u_next`; returns the number of steps and the rest of `arg_sorted` from `u_next` on.
The argument is what follows `*arg_ptr`; running over the end of the array is `none`. -/
def countUntil (uNext : ℕ) : List ℕ → Option (ℕ × List ℕ)
  | [] => none
  | a :: rest => if a = uNext then some (1, a :: rest) else (countUntil uNext rest).map (fun r => (r.1 + 1, r.2))

/-- arrays.hpp 638-651: the loop over all but the last unique index, and the last multiplicity as distance to the end -/
def multiplicities : (args : List ℕ) → (nexts : List ℕ) → Option (List ℕ)
  | args, [] => some [args.length]
  | args, u :: us =>
    match countUntil u args.tail with
    | none => none
    | some (m, rest) => (multiplicities rest us).map (m :: ·)

/-- `UniqueIndicesAndMultiplicities`, arrays.hpp 604-652. Without any request, line 650-651 writes before the start of an array of size 0. -/
def uniqueIndicesAndMultiplicities (same : ℕ → ℕ → Bool) (argSorted : List ℕ) : Option (List ℕ × List ℕ) :=
  let unique := stdUnique same argSorted
  match unique with
  | [] => none
  | _ :: nexts => (multiplicities argSorted nexts).map (fun m => (unique, m))

variable {K : Type} [Field K] [LinearOrder K]

/-- `is_same` for floating point numbers, arrays.hpp 617-624 -/
def close (eps a b : K) : Bool := decide (abs (a - b) < eps)

/-- `unique_knots` of one direction, py_parameter_space.cpp 179-214: only the knots from index `degree` to `size - degree`; `eps` is `kEpsilon`. -/
def uniqueKnots (eps : K) (knots : List K) (degree : ℕ) : List K :=
  stdUnique (close eps) ((knots.drop degree).take (knots.length - 2 * degree))

/-- `ScalarTypeInsertKnot`, scalar_type_wrapper.hpp 240-269: nothing outside of the open interval of the parametric bounds, else BSplineLib inserts and the
number of new knots is returned. -/
def insertKnot (insert : List K → K → ℕ → List K) (degree : ℕ) (kv : List K) (query : K) (multiplicity : ℕ) : List K × ℕ :=
  if kv.getD degree 0 ≥ query ∨ kv.getD (kv.length - degree - 1) 0 ≤ query then (kv, 0)
  else
    let kv' := insert kv query multiplicity
    (kv', kv'.length - kv.length)

/-- py_spline_extensions.cpp 56-58: set the flags of the next `m` sorted requests; returns the rest of the sorted requests. Flags that have not been written
are `none`. `n_added` may become negative in the code; only its comparison with 0 matters, so it stays at 0 here. -/
def setFlags (nAdded : ℕ) : ℕ → List ℕ → List (Option Bool) → List ℕ × List (Option Bool)
  | 0, args, flags => (args, flags)
  | m + 1, args, flags => setFlags (nAdded - 1) m args.tail (flags.set (args.headD 0) (some (decide (nAdded > 0))))

/-- the loop over the unique requests, py_spline_extensions.cpp 52-59 -/
def insertLoop (insert : List K → K → ℕ → List K) (degree : ℕ) (queries : ℕ → K) :
    List (ℕ × ℕ) → List K → List ℕ → List (Option Bool) → List K × List (Option Bool)
  | [], kv, _, flags => (kv, flags)
  | (u, m) :: rest, kv, args, flags =>
    let r := insertKnot insert degree kv (queries u) m
    let s := setFlags r.2 m args flags
    insertLoop insert degree queries rest r.1 s.1 s.2

/-- `InsertKnots`, py_spline_extensions.cpp 33-63: the new knot vector and the flags -/
def insertKnots (insert : List K → K → ℕ → List K) (eps : K) (degree : ℕ) (kv queries : List K) : Option (List K × List (Option Bool)) :=
  let q := fun i => queries.getD i 0
  let args := argSort (fun a b => decide (a ≤ b)) q queries.length
  match uniqueIndicesAndMultiplicities (fun a b => close eps (q a) (q b)) args with
  | none => none
  | some (unique, mult) => some (insertLoop insert degree q (unique.zip mult) kv args (List.replicate queries.length none))

/-- `BSplineBase.insert_knots`, bspline.py 89-123, for a valid parametric dimension: nothing to do without knots, exception outside of the range of the knot
vector. -/
def pyInsertKnots (insert : List K → K → ℕ → List K) (eps : K) (degree : ℕ) (kv queries : List K) : Option (List K × List (Option Bool)) :=
  if queries = [] then some (kv, [])
  else if queries.any (fun q => kv.all (fun k => decide (k < q))) then none
  else if queries.any (fun q => kv.all (fun k => decide (q < k))) then none
  else insertKnots insert eps degree kv queries

/-- `ElevateDegrees`, py_spline.cpp 784-806. The state is any type `S` of splines with `elevate` for one direction and multiplicity. An exception leaves the
spline in the state reached so far: the result is the state, and whether the call returned. `none` is undefined behaviour. -/
def elevateDegrees {S : Type} (elevate : S → ℕ → ℕ → S) (paraDim : ℕ) (s : S) (dims : List Int) : Option (S × Bool) :=
  let d := fun i => dims.getD i 0
  let args := argSort (fun a b => decide (a ≤ b)) d dims.length
  match uniqueIndicesAndMultiplicities (fun a b => decide (d a = d b)) args with
  | none => none
  | some (unique, mult) => some ((unique.zip mult).foldl (fun (st : S × Bool) um =>
      if st.2 = false then st
      else if ¬ (d um.1 < paraDim) ∨ d um.1 < 0 then (st.1, false)
      else (elevate st.1 (d um.1).toNat um.2, true)) (s, true))

/-- `ReduceDegrees`, py_spline.cpp 808-824: one after the other; `reduce` returns the new spline and whether it succeeded -/
def reduceDegrees {S : Type} (reduce : S → ℕ → S × Bool) (paraDim : ℕ) : S → List Int → S × Option (List Bool)
  | s, [] => (s, some [])
  | s, d :: ds =>
    if ¬ (d < paraDim) ∨ d < 0 then (s, none)
    else
      let r := reduce s d.toNat
      let t := reduceDegrees reduce paraDim r.1 ds
      (t.1, t.2.map (r.2 :: ·))

end Splinepy.Unique
