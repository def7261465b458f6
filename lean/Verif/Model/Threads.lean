import Mathlib.Data.List.Range

/-!
Model of the work distribution over threads.

* `include/splinepy/utils/nthreads.hpp` (NThreadExecution)
* the two kinds of callers: contiguous chunks (e.g. `src/py/py_spline.cpp` 386-394) and strided loops
  (`src/py/py_multipatch.cpp` 1415-1425).

A job is the triple of arguments `(begin, end, i_thread)` a thread is started with.
Simplification: C++ `int` is unbounded here; `std::div(_, 0)` is the value `none`.
-/
namespace Splinepy.Threads

/-- Arguments of one call of the thread function `f(begin, end, i_thread)`. (include/splinepy/utils/nthreads.hpp 34-76) -/
structure Job where
  first : ℕ
  last : ℕ
  thread : ℕ
deriving DecidableEq, Repr

/-- `NThreadExecution`, `include/splinepy/utils/nthreads.hpp` 33-76.
`hw` is the value of `std::thread::hardware_concurrency()` (may be 0).
`none` models the integer division by zero in line 62, reached for `total = 0` with two or more threads. -/
def nThreadExecution (hw total : ℕ) (nthread : ℤ) : Option (List Job) :=
  -- lines 43-45
  let nthread : ℤ := if nthread < 0 then (hw : ℤ) else nthread
  -- lines 48-51
  if nthread ≤ 1 then some [⟨0, total, 0⟩]
  else
    -- line 54
    let n : ℕ := min total nthread.toNat
    if n = 0 then none
    else
      -- line 62
      let chunk := (total + n - 1) / n
      -- lines 64-71
      some ((List.range (n - 1)).map (fun i => ⟨i * chunk, (i + 1) * chunk, i⟩)
        ++ [⟨(n - 1) * chunk, total, n - 1⟩])

/-- `for (int i{begin}; i < end; ++i)`: the indices visited by a chunk job, in order
(`src/py/py_spline.cpp` 388, 422, 450, ...). -/
def chunkIndices (j : Job) : List ℕ := List.range' j.first (j.last - j.first)

/-- `for (int i{i_thread}; i < n_total; i += nthreads)` (`src/py/py_multipatch.cpp` 1416, 1474, 1518).
`none`: the loop does not terminate normally (step zero, or a negative step that leaves the array). -/
def stridedIndices (nTotal : ℕ) (step : ℤ) (i : ℕ) : Option (List ℕ) :=
  if _h : nTotal ≤ i then some []
  else if _hs : step ≤ 0 then none
  else (stridedIndices nTotal step (i + step.toNat)).map (i :: ·)
termination_by nTotal - i
decreasing_by omega

/-- The items a strided caller visits, one list per thread. `PyMultipatch::Evaluate`,
`src/py/py_multipatch.cpp` 1415-1425: note that the *stride* is the requested number of threads,
while the number of threads that are started comes from `NThreadExecution`. -/
def stridedThreads (hw nTotal : ℕ) (nthreads : ℤ) : Option (List (List ℕ)) :=
  match nThreadExecution hw nTotal nthreads with
  | none => none
  | some jobs => jobs.mapM (fun j => stridedIndices nTotal nthreads j.thread)

/-- The items a chunked caller visits, one list per thread. `PySpline::Evaluate`,
`src/py/py_spline.cpp` 386-394. -/
def chunkThreads (hw total : ℕ) (nthreads : ℤ) : Option (List (List ℕ)) :=
  (nThreadExecution hw total nthreads).map (·.map chunkIndices)

/-- One memory write: slot and value. (src/py/py_spline.cpp 386-394) -/
abbrev Write (α : Type*) := ℕ × α

/-- Body of `evaluate_step`, `src/py/py_multipatch.cpp` 1417-1420:
`std::div(i, n_queries)` gives spline and query, the result goes to slot
`i_spline * n_queries + i_query` (in units of `dim`). -/
def evaluateStep {α : Type*} (eval : ℕ → ℕ → α) (nQueries i : ℕ) : Write α :=
  let iSpline := i / nQueries
  let iQuery := i % nQueries
  (iSpline * nQueries + iQuery, eval iSpline iQuery)

/-- `PyMultipatch::Evaluate`, `src/py/py_multipatch.cpp` 1408-1425: the writes of each thread, in program order. -/
def multipatchEvaluate {α : Type*} (eval : ℕ → ℕ → α) (hw nSplines nQueries : ℕ) (nthreads : ℤ) :
    Option (List (List (Write α))) :=
  (stridedThreads hw (nSplines * nQueries) nthreads).map
    (·.map (·.map (evaluateStep eval nQueries)))

/-- `PySpline::Evaluate`, `src/py/py_spline.cpp` 376-398: writes of each thread. The query array and the result are
indexed by the same `i` (lines 389-390). -/
def splineEvaluate {α : Type*} (eval : ℕ → α) (hw nQueries : ℕ) (nthreads : ℤ) :
    Option (List (List (Write α))) :=
  (chunkThreads hw nQueries nthreads).map (·.map (·.map (fun i => (i, eval i))))

/-- Memory after executing the writes one after the other. Memory is a function from slots; `none` is an uninitialised slot. (src/py/py_spline.cpp 386-394) -/
def runWrites {α : Type*} (mem : ℕ → Option α) : List (Write α) → ℕ → Option α
  | [] => mem
  | w :: ws => runWrites (fun k => if k = w.1 then some w.2 else mem k) ws

/-- `ExtractAllBoundarySplines`, `src/py/py_multipatch.cpp` 792-846. `interfaces` has one row per patch, one entry
per face; the result lists (patch, face) of the extracted boundary splines.
`none`: an error is raised or an array is accessed out of its bounds (a patch index beyond the table).
Line 838 calls the executor with `n_threads` as *total*, the per-thread lists are concatenated (841-843). -/
def extractAllBoundarySplines (hw : ℕ) (interfaces : List (List ℤ)) (nThreads : ℤ) :
    Option (List (ℕ × ℕ)) :=
  -- lines 805-808
  if nThreads < 1 then none
  else
    match nThreadExecution hw nThreads.toNat nThreads with
    | none => none
    | some jobs =>
      (jobs.mapM (fun j =>
        ((chunkIndices j).mapM (fun i =>
          (interfaces[i]?).map (fun row =>
            ((List.range row.length).filter (fun f => row.getD f 0 < 0)).map (fun f => (i, f))))).map
              List.flatten)).map List.flatten

end Splinepy.Threads
