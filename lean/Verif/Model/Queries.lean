import Verif.Model.Threads
import Mathlib.Algebra.BigOperators.Group.List.Basic

/-!
Model of batched queries: how the wrappers of a spline read the arrays of queries and orders, and where they write results.

* `splinepy/utils/data.py` 277-306 (enforce_contiguous)
* `splinepy/spline.py` 1136-1161, 1187-1484 and `splinepy/multipatch.py` 628-647 (the Python methods)
* `include/splinepy/py/py_spline.hpp` 39-90 (checks of array shapes)
* `src/py/py_spline.cpp` 376-398, 434-782 (Evaluate, Jacobian, Derivative, Support, Basis, …, Proximities)
* `src/py/py_multipatch.cpp` 1398-1428 (Evaluate)
* `include/splinepy/splines/helpers/scalar_type_wrapper.hpp` 164-195 (ScalarTypeJacobian)

The core functions (value, derivative, basis functions … at one parameter) are parameters: they are pure functions of the numbers they
read. Strides count elements instead of bytes. A list passed in place of an array is turned by pybind11 into a new C-contiguous array,
which is one of the arrays here. A change of the dtype keeps the memory order (numpy's order "K") and is not modelled.
`none` stands for an exception or for reading outside of the memory of an array.
-/
namespace Splinepy.Queries
open Splinepy.Threads

/-- A numpy array: the allocation it looks at, position of its first element, shape and strides (`py::array_t`,
src/py/py_spline.cpp 376-386: the wrappers use `shape`, `size` and the raw pointer `request().ptr`). -/
structure NdArray (α : Type*) where
  mem : List α
  ptr : ℕ
  shape : List ℕ
  strides : List ℤ

/-- Element at an index as Python sees it: `ptr + Σ index * stride` (numpy's indexing; used by splinepy/utils/data.py 302-303 when an
array is copied). -/
def NdArray.at {α : Type*} (a : NdArray α) (idx : List ℕ) : Option α :=
  let o : ℤ := a.ptr + ((idx.zip a.strides).map (fun p => (p.1 : ℤ) * p.2)).sum
  if o < 0 then none else a.mem[o.toNat]?

/-- Element `k` behind the raw pointer (`queries_ptr[k]`, src/py/py_spline.cpp 386-391). Strides are not looked at. -/
def NdArray.raw {α : Type*} (a : NdArray α) (k : ℕ) : Option α := a.mem[a.ptr + k]?

/-- `width` numbers from position `i * width` on, as a core function reads them from `&queries_ptr[i * para_dim_]`
(src/py/py_spline.cpp 389-390, 451-452, 492-495). -/
def NdArray.rawRow {α : Type*} (a : NdArray α) (width i : ℕ) : Option (List α) :=
  (List.range width).mapM (fun k => a.raw (i * width + k))

/-- Loop of numpy over the axes, last one first, which computes the flag C_CONTIGUOUS (splinepy/utils/data.py 299). Axes of length one
do not count. -/
def contiguousLoop : List (ℕ × ℤ) → ℤ → Bool
  | [], _ => true
  | (d, s) :: rest, sd =>
    if d = 1 then contiguousLoop rest sd else s == sd && contiguousLoop rest (sd * d)

/-- `array.flags["C_CONTIGUOUS"]` (splinepy/utils/data.py 299). Empty arrays are contiguous. -/
def NdArray.cContiguous {α : Type*} (a : NdArray α) : Bool :=
  if a.shape.contains 0 then true else contiguousLoop (a.shape.zip a.strides).reverse 1

/-- All indices of a shape, last index fastest (order of elements in splinepy/utils/data.py 303). -/
def indices : List ℕ → List (List ℕ)
  | [] => [[]]
  | d :: ds => (List.range d).flatMap (fun i => (indices ds).map (i :: ·))

/-- Strides of a new C-contiguous array (splinepy/utils/data.py 303). -/
def cStrides : List ℕ → List ℤ
  | [] => []
  | _ :: ds => (ds.prod : ℤ) :: cStrides ds

/-- `numpy.ascontiguousarray` (splinepy/utils/data.py 303, 306): a copy, element by element, in C order. -/
def NdArray.ascontiguousarray {α : Type*} (a : NdArray α) : Option (NdArray α) :=
  ((indices a.shape).mapM a.at).map (fun m => ⟨m, 0, a.shape, cStrides a.shape⟩)

/-- `enforce_contiguous` for an array of the requested dtype (splinepy/utils/data.py 277-308). -/
def enforceContiguous {α : Type*} (a : NdArray α) : Option (NdArray α) :=
  if a.cContiguous then some a else a.ascontiguousarray

/-- `CheckPyArrayShape(arr, {-1, width})`, include/splinepy/py/py_spline.hpp 39-74, with the following `arr.shape(0)`.
`none`: mismatch. -/
def checkRows (shape : List ℕ) (width : ℕ) : Option ℕ :=
  match shape with
  | [n, w] => if w = width then some n else none
  | _ => none

/-- Number of orders, src/py/py_spline.cpp 468-477 (likewise 591-600, 637-646). `none`: exception. -/
def nOrders (shape : List ℕ) (paraDim : ℕ) : Option ℕ :=
  if shape.prod = paraDim then some 1 else checkRows shape paraDim

/-- Entries of results: numbers, or ids of control points. (src/py/py_spline.cpp 556-584) -/
inductive Value (K : Type*) where
  | num (x : K)
  | id (i : ℤ)

/-- A position in the returned arrays: number of the array in the returned tuple, and element. (src/py/py_spline.cpp 556-584) -/
abbrev Cell := ℕ × ℕ

/-- A core function writes its result to `&ptr[base]`: element `k` goes to `base + k` (include/splinepy/splines/helpers/
scalar_type_wrapper.hpp 141-148). -/
def put {K : Type*} (array base : ℕ) (vals : List (Value K)) : List (Cell × Value K) :=
  vals.zipIdx.map (fun p => ((array, base + p.2), p.1))

/-- `NThreadExecution` with a loop over a chunk of queries (src/py/py_spline.cpp 386-394): writes of every thread in program order. -/
def fill {W : Type*} (hw total : ℕ) (nthreads : ℤ) (body : ℕ → Option (List W)) : Option (List (List W)) :=
  (chunkThreads hw total nthreads).bind (fun ts => ts.mapM (fun is => (is.mapM body).map List.flatten))

/-- What a call does: shapes of the returned arrays, and what the threads write into them. (src/py/py_spline.cpp 556-584) -/
structure Call (K : Type*) where
  shapes : List (List ℕ)
  threads : List (List (Cell × Value K))

/-- Content of the arrays after the writes have been executed in some order; `none` is uninitialised. (src/py/py_spline.cpp 386-394) -/
def after {K : Type*} : List (Cell × Value K) → Cell → Option (Value K)
  | [], _ => none
  | w :: ws, c => (after ws c).or (if c = w.1 then some w.2 else none)

section
variable {K : Type*}

/-- `PySpline::Evaluate`, src/py/py_spline.cpp 376-398. `value` is `SplinepyEvaluate` of the core. -/
def evaluate (value : List K → List K) (paraDim dim hw : ℕ) (queries : NdArray K) (nthreads : ℤ) : Option (Call K) :=
  (checkRows queries.shape paraDim).bind (fun n =>
    (fill hw n nthreads (fun i =>
      (queries.rawRow paraDim i).map (fun q => put 0 (i * dim) ((value q).map .num)))).map
    (fun ts => ⟨[[n, dim]], ts⟩))

/-- Order of the derivative along direction `i` (`der_query`, include/splinepy/splines/helpers/scalar_type_wrapper.hpp 174-175, 182,
193). -/
def eye (paraDim i : ℕ) : List ℤ := (List.range paraDim).map (fun k => if k = i then 1 else 0)

/-- `ScalarTypeJacobian`, include/splinepy/splines/helpers/scalar_type_wrapper.hpp 164-195, writing to `&jacobians_ptr[base]`: transposed
fill of the derivatives along the directions. -/
def jacobianAt (derive : List K → List ℤ → List K) (paraDim base : ℕ) (q : List K) : List (Cell × Value K) :=
  (List.range paraDim).flatMap (fun i =>
    (derive q (eye paraDim i)).zipIdx.map (fun p => ((0, base + (p.2 * paraDim + i)), .num p.1)))

/-- `PySpline::Jacobian`, src/py/py_spline.cpp 434-460. -/
def jacobian (derive : List K → List ℤ → List K) (paraDim dim hw : ℕ) (queries : NdArray K) (nthreads : ℤ) :
    Option (Call K) :=
  (checkRows queries.shape paraDim).bind (fun n =>
    (fill hw n nthreads (fun i =>
      (queries.rawRow paraDim i).map (jacobianAt derive paraDim (i * (paraDim * dim))))).map
    (fun ts => ⟨[[n, dim, paraDim]], ts⟩))

/-- Loop over the orders for query `i` (src/py/py_spline.cpp 487-498, likewise 610-621 and 659-671): blocks of `width` numbers at
`i * (width * n_orders) + j * width`. -/
def overOrders (derive : List K → List ℤ → List K) (paraDim width no : ℕ) (queries : NdArray K) (orders : NdArray ℤ) (i : ℕ) :
    Option (List (Cell × Value K)) :=
  (queries.rawRow paraDim i).bind (fun q =>
    ((List.range no).mapM (fun j =>
      (orders.rawRow paraDim j).map (fun o =>
        put 0 (i * (width * no) + j * width) ((derive q o).map .num)))).map List.flatten)

/-- Shape of the result for one or several orders: `resize` in src/py/py_spline.cpp 480, 502-504 (likewise 604, 625-627, 650, 679-681). -/
def ordersShape (n no width : ℕ) : List ℕ := if 1 < no then [n, no, width] else [n * no, width]

/-- `PySpline::Derivative`, src/py/py_spline.cpp 462-506. -/
def derivative (derive : List K → List ℤ → List K) (paraDim dim hw : ℕ) (queries : NdArray K) (orders : NdArray ℤ)
    (nthreads : ℤ) : Option (Call K) :=
  (checkRows queries.shape paraDim).bind (fun n =>
    (nOrders orders.shape paraDim).bind (fun no =>
      (fill hw n nthreads (overOrders derive paraDim dim no queries orders)).map
        (fun ts => ⟨[ordersShape n no dim], ts⟩)))

/-- `PySpline::Support`, src/py/py_spline.cpp 508-530. -/
def support (supp : List K → List ℤ) (paraDim nSupport hw : ℕ) (queries : NdArray K) (nthreads : ℤ) : Option (Call K) :=
  (checkRows queries.shape paraDim).bind (fun n =>
    (fill hw n nthreads (fun i =>
      (queries.rawRow paraDim i).map (fun q => put 0 (i * nSupport) ((supp q).map .id)))).map
    (fun ts => ⟨[[n, nSupport]], ts⟩))

/-- `PySpline::Basis`, src/py/py_spline.cpp 532-554. -/
def basis (bas : List K → List K) (paraDim nSupport hw : ℕ) (queries : NdArray K) (nthreads : ℤ) : Option (Call K) :=
  (checkRows queries.shape paraDim).bind (fun n =>
    (fill hw n nthreads (fun i =>
      (queries.rawRow paraDim i).map (fun q => put 0 (i * nSupport) ((bas q).map .num)))).map
    (fun ts => ⟨[[n, nSupport]], ts⟩))

/-- `PySpline::BasisAndSupport`, src/py/py_spline.cpp 556-584. -/
def basisAndSupport (bas : List K → List K) (supp : List K → List ℤ) (paraDim nSupport hw : ℕ) (queries : NdArray K)
    (nthreads : ℤ) : Option (Call K) :=
  (checkRows queries.shape paraDim).bind (fun n =>
    (fill hw n nthreads (fun i =>
      (queries.rawRow paraDim i).map (fun q =>
        put 0 (i * nSupport) ((bas q).map .num) ++ put 1 (i * nSupport) ((supp q).map .id)))).map
    (fun ts => ⟨[[n, nSupport], [n, nSupport]], ts⟩))

/-- `PySpline::BasisDerivative`, src/py/py_spline.cpp 586-630. -/
def basisDerivative (basDer : List K → List ℤ → List K) (paraDim nSupport hw : ℕ) (queries : NdArray K) (orders : NdArray ℤ)
    (nthreads : ℤ) : Option (Call K) :=
  (checkRows queries.shape paraDim).bind (fun n =>
    (nOrders orders.shape paraDim).bind (fun no =>
      (fill hw n nthreads (overOrders basDer paraDim nSupport no queries orders)).map
        (fun ts => ⟨[ordersShape n no nSupport], ts⟩)))

/-- `PySpline::BasisDerivativeAndSupport`, src/py/py_spline.cpp 632-684. -/
def basisDerivativeAndSupport (basDer : List K → List ℤ → List K) (supp : List K → List ℤ) (paraDim nSupport hw : ℕ)
    (queries : NdArray K) (orders : NdArray ℤ) (nthreads : ℤ) : Option (Call K) :=
  (checkRows queries.shape paraDim).bind (fun n =>
    (nOrders orders.shape paraDim).bind (fun no =>
      (fill hw n nthreads (fun i =>
        (overOrders basDer paraDim nSupport no queries orders i).bind (fun ders =>
          (queries.rawRow paraDim i).map (fun q => ders ++ put 1 (i * nSupport) ((supp q).map .id))))).map
        (fun ts => ⟨[ordersShape n no nSupport, [n, nSupport]], ts⟩)))

/-- What `SplinepyVerboseProximity` stores for one query (src/py/py_spline.cpp 724-735). -/
structure Verbose (K : Type*) where
  paraCoord : List K
  physCoord : List K
  physDiff : List K
  distance : K
  convergence : K
  first : List K
  second : List K

/-- The check of the resolutions of the search grid, src/py/py_spline.cpp 750-769: `some true` a tree is planted, `some false` the
previous one is used, `none` an exception. -/
def plantTree : List ℤ → Option Bool
  | [] => some true
  | r :: rs => if r < 0 then some false else if r < 2 then none else plantTree rs

/-- `PySpline::Proximities`, src/py/py_spline.cpp 686-782, without the tree. `search` is the core's search from the physical point. -/
def proximities (search : List K → Verbose K) (paraDim dim hw : ℕ) (queries : NdArray K) (resolutions : NdArray ℤ)
    (nthreads : ℤ) : Option (Call K) :=
  (checkRows queries.shape dim).bind (fun n =>
    if resolutions.shape.prod = paraDim then
      (resolutions.rawRow paraDim 0).bind (fun res => (plantTree res).bind (fun _ =>
        (fill hw n nthreads (fun i =>
          (queries.rawRow dim i).map (fun q =>
            put 0 (i * paraDim) ((search q).paraCoord.map .num) ++ put 1 (i * dim) ((search q).physCoord.map .num)
              ++ put 2 (i * dim) ((search q).physDiff.map .num) ++ put 3 i [.num (search q).distance]
              ++ put 4 i [.num (search q).convergence]
              ++ put 5 (i * (paraDim * dim)) ((search q).first.map .num)
              ++ put 6 (i * (paraDim * (paraDim * dim))) ((search q).second.map .num)))).map
        (fun ts => ⟨[[n, paraDim], [n, dim], [n, dim], [n, 1], [n, 1], [n, paraDim, dim], [n, paraDim, paraDim, dim]], ts⟩)))
    else none)

/-- `PyMultipatch::Evaluate`, src/py/py_multipatch.cpp 1398-1428. `values` are the patches. -/
def multipatchEvaluate (values : List (List K → List K)) (paraDim dim hw : ℕ) (queries : NdArray K) (nthreads : ℤ) :
    Option (Call K) :=
  (checkRows queries.shape paraDim).bind (fun n =>
    ((stridedThreads hw (values.length * n) nthreads).bind (fun ts => ts.mapM (fun is =>
      (is.mapM (fun i =>
        (values[i / n]?).bind (fun value => (queries.rawRow paraDim (i % n)).map (fun q =>
          put 0 ((i / n * n + i % n) * dim) ((value q).map .num))))).map List.flatten))).map
      (fun ts => ⟨[[values.length * n, dim]], ts⟩))

/-- `Spline.evaluate`, splinepy/spline.py 1136-1161 (bounds are not checked by default). -/
def pyEvaluate (value : List K → List K) (paraDim dim hw : ℕ) (queries : NdArray K) (nthreads : ℤ) : Option (Call K) :=
  (enforceContiguous queries).bind (fun q => evaluate value paraDim dim hw q nthreads)

/-- `Spline.jacobian`, splinepy/spline.py 1219-1244. -/
def pyJacobian (derive : List K → List ℤ → List K) (paraDim dim hw : ℕ) (queries : NdArray K) (nthreads : ℤ) :
    Option (Call K) :=
  (enforceContiguous queries).bind (fun q => jacobian derive paraDim dim hw q nthreads)

/-- `Spline.derivative`, splinepy/spline.py 1187-1217. -/
def pyDerivative (derive : List K → List ℤ → List K) (paraDim dim hw : ℕ) (queries : NdArray K) (orders : NdArray ℤ)
    (nthreads : ℤ) : Option (Call K) :=
  (enforceContiguous queries).bind (fun q => (enforceContiguous orders).bind (fun o =>
    derivative derive paraDim dim hw q o nthreads))

/-- `Spline.support`, splinepy/spline.py 1246-1270. -/
def pySupport (supp : List K → List ℤ) (paraDim nSupport hw : ℕ) (queries : NdArray K) (nthreads : ℤ) : Option (Call K) :=
  (enforceContiguous queries).bind (fun q => support supp paraDim nSupport hw q nthreads)

/-- `Spline.basis`, splinepy/spline.py 1272-1296. -/
def pyBasis (bas : List K → List K) (paraDim nSupport hw : ℕ) (queries : NdArray K) (nthreads : ℤ) : Option (Call K) :=
  (enforceContiguous queries).bind (fun q => basis bas paraDim nSupport hw q nthreads)

/-- `Spline.basis_and_support`, splinepy/spline.py 1298-1324. -/
def pyBasisAndSupport (bas : List K → List K) (supp : List K → List ℤ) (paraDim nSupport hw : ℕ) (queries : NdArray K)
    (nthreads : ℤ) : Option (Call K) :=
  (enforceContiguous queries).bind (fun q => basisAndSupport bas supp paraDim nSupport hw q nthreads)

/-- `Spline.basis_derivative`, splinepy/spline.py 1326-1356. -/
def pyBasisDerivative (basDer : List K → List ℤ → List K) (paraDim nSupport hw : ℕ) (queries : NdArray K)
    (orders : NdArray ℤ) (nthreads : ℤ) : Option (Call K) :=
  (enforceContiguous queries).bind (fun q => (enforceContiguous orders).bind (fun o =>
    basisDerivative basDer paraDim nSupport hw q o nthreads))

/-- `Spline.basis_derivative_and_support`, splinepy/spline.py 1358-1390. -/
def pyBasisDerivativeAndSupport (basDer : List K → List ℤ → List K) (supp : List K → List ℤ) (paraDim nSupport hw : ℕ)
    (queries : NdArray K) (orders : NdArray ℤ) (nthreads : ℤ) : Option (Call K) :=
  (enforceContiguous queries).bind (fun q => (enforceContiguous orders).bind (fun o =>
    basisDerivativeAndSupport basDer supp paraDim nSupport hw q o nthreads))

/-- `Spline.proximities` with `return_verbose`, splinepy/spline.py 1392-1484: the resolutions are passed as they are. -/
def pyProximities (search : List K → Verbose K) (paraDim dim hw : ℕ) (queries : NdArray K) (resolutions : NdArray ℤ)
    (nthreads : ℤ) : Option (Call K) :=
  (enforceContiguous queries).bind (fun q => proximities search paraDim dim hw q resolutions nthreads)

/-- `Multipatch.evaluate`, splinepy/multipatch.py 628-647: the queries are passed as they are. -/
def pyMultipatchEvaluate (values : List (List K → List K)) (paraDim dim hw : ℕ) (queries : NdArray K) (nthreads : ℤ) :
    Option (Call K) :=
  multipatchEvaluate values paraDim dim hw queries nthreads

end

end Splinepy.Queries
