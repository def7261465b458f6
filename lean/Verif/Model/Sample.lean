import Verif.Model.Queries
import Verif.Model.Grid

/-!
Model of `sample` of splines and multipatches: splinepy/spline.py 1163-1185, splinepy/multipatch.py 596-626, src/py/py_spline.cpp 399-421,
src/py/py_multipatch.cpp 1430-1531. The core functions (value and parametric bounds of a spline) are parameters. `none` is an exception (in Python or, if more than one
thread is started, the end of the process, see C122) or an access outside of an array. An array of another integer type than `int` is first copied by pybind11: the arrays
here are those which reach the C++ function.
-/
namespace Splinepy.Sample
open Splinepy.Queries Splinepy.Threads

variable {K : Type} [Field K]

/-- The argument `resolutions` in Python: a number, or an array. splinepy/spline.py 1163-1178 -/
inductive Resolutions where
  | one (r : ℤ)
  | many (a : NdArray ℤ)

/-- `gustaf.utils.arr.enforce_len(resolutions, para_dim)` (external): a number is repeated, an array must have this length. splinepy/spline.py 1178 -/
def enforceLen (paraDim : ℕ) : Resolutions → Option (NdArray ℤ)
  | .one r => some ⟨List.replicate paraDim r, 0, [paraDim], [1]⟩
  | .many a => if a.shape.head? = some paraDim then some a else none

/-- `PySpline::Sample`, src/py/py_spline.cpp 399-421. `value` and `bounds` are `SplinepyEvaluate` and `SplinepyParametricBounds` of the core. -/
def coreSample (value : List K → List K) (bounds : ℕ → K) (paraDim dim hw : ℕ) (resolutions : NdArray ℤ) (nthreads : ℤ) : Option (Call K) :=
  if resolutions.shape.prod = paraDim then                                                      -- 401
    (resolutions.rawRow paraDim 0).bind fun rs =>                                               -- 411
      (Grid.setUp paraDim bounds (fun i => rs.getD i 0)).bind fun gp =>                         -- 408-411
        (fill hw gp.len nthreads fun i =>                                                       -- 418-427
          (Grid.idToGridPoint gp i).map fun q => put 0 (i * dim) ((value q).map .num)).map
          fun ts => ⟨[[gp.len, dim]], ts⟩                                                       -- 431
  else none

/-- `Spline.sample`, splinepy/spline.py 1163-1185. -/
def sample (value : List K → List K) (bounds : ℕ → K) (paraDim dim hw : ℕ) (resolutions : Resolutions) (nthreads : ℤ) : Option (Call K) :=
  (enforceLen paraDim resolutions).bind fun a => coreSample value bounds paraDim dim hw a nthreads

/-- A patch: its value and its parametric bounds. src/py/py_multipatch.cpp 1502, 1522 -/
structure Patch (K : Type) where
  value : List K → List K
  bounds : ℕ → K

/-- `PyMultipatch::Sample` with `same_parametric_bounds = false`, src/py/py_multipatch.cpp 1430-1452, 1486-1531. The threads of 1496-1509 set up the grids of the patches
they visit and have ended before those of 1513-1530 start. A negative number of samples (an exception of numpy) and resolutions below two (1504) are `none`. -/
def coreMultipatchSample (patches : List (Patch K)) (paraDim dim hw : ℕ) (resolution nthreads : ℤ) : Option (Call K) :=
  if resolution < 2 then none
  else
    let n := resolution.toNat ^ paraDim                                                         -- 1443-1446
    (chunkThreads hw patches.length nthreads).bind fun ts =>                                    -- 1496, 1509
      if ts.flatten.all (fun i => decide (i < patches.length)) then                             -- 1500-1505
        let grid := fun i => if ts.flatten.contains i then (patches[i]?).bind fun p => Grid.setUp paraDim p.bounds (fun _ => resolution) else none
        ((stridedThreads hw (patches.length * n) nthreads).bind fun ts => ts.mapM fun is =>     -- 1518, 1530
          (is.mapM fun i =>
            (patches[i / n]?).bind fun p => (grid (i / n)).bind fun gp =>                       -- 1519-1520
              (Grid.idToGridPoint gp (i % n)).map fun q =>                                      -- 1521
                put 0 ((i / n * n + i % n) * dim) ((p.value q).map .num)).map List.flatten).map -- 1522-1524
          fun ts => ⟨[[patches.length * n, dim]], ts⟩                                           -- 1449-1450
      else none

/-- The argument `resolutions` of `Multipatch.sample`: an `int`, or anything that can be indexed. splinepy/multipatch.py 610-617 -/
inductive UniformResolutions where
  | one (r : ℤ)
  | many (rs : List ℤ)

/-- `Multipatch.sample`, splinepy/multipatch.py 596-626. -/
def multipatchSample (patches : List (Patch K)) (paraDim dim hw : ℕ) (resolutions : UniformResolutions) (nthreads : ℤ) : Option (Call K) :=
  match resolutions with
  | .one r => coreMultipatchSample patches paraDim dim hw r nthreads
  | .many [] => none
  | .many (r :: _) => coreMultipatchSample patches paraDim dim hw r nthreads                    -- 617

end Splinepy.Sample
