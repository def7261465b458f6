import Verif.Model.Queries

/-!
Model of errors raised inside of threaded loops, and of reference counts of Python objects touched by them.

* `include/splinepy/utils/nthreads.hpp` 33-76 (NThreadExecution): the function is called directly, or from `std::thread`s
* `src/py/py_multipatch.cpp` 41-56, 59-86 (ToCoreSplineVector), 1083-1100 (SetPatchesNThreads), 1537-1597 (AddFields)
* `src/py/py_spline.cpp` 686-782 (Proximities), `src/proximity/proximity.cpp` 205-219 (MakeInitialGuess)

C++ contract used: an exception that leaves the function of a `std::thread` ends the process (`std::terminate`); an integer division by
zero ends the process as well. pybind11 contract used: an accessor to an element of a Python list takes a reference to the element (the
count is loaded, increased and stored) and gives it back when it is destroyed; the count is an ordinary integer. pybind11 turns exceptions
of the calling thread into Python exceptions.
-/
namespace Splinepy.ThreadErrors
open Splinepy.Threads

/-- How a call ends for the Python user (include/splinepy/utils/nthreads.hpp 33-76). -/
inductive Outcome where
  | returned
  | raised
  | terminated
deriving DecidableEq, Repr

/-- Work on items, one after the other, until one of them throws (e.g. src/py/py_multipatch.cpp 47-52). -/
def runItems (onError : Outcome) (fails : ℕ → Bool) : List ℕ → Outcome
  | [] => .returned
  | i :: is => if fails i then onError else runItems onError fails is

/-- `NThreadExecution`, include/splinepy/utils/nthreads.hpp 33-76, for a loop over chunks whose item `i` throws if `fails i`.
`trace` is the order in which the threads come to work on the items. -/
def execute (hw total : ℕ) (nthread : ℤ) (fails : ℕ → Bool) (trace : List ℕ) : Outcome :=
  let n : ℤ := if nthread < 0 then (hw : ℤ) else nthread
  if n ≤ 1 then runItems .raised fails (List.range total)        -- lines 48-51: in the calling thread
  else if min total n.toNat = 0 then .terminated                 -- line 62: division by zero
  else runItems .terminated fails trace                          -- lines 64-71: inside of threads

/-- An element of a list of patches: a spline, a spline without a core, or something else (src/py/py_multipatch.cpp 49-50 and
src/py/py_spline.cpp 232-239). -/
inductive Patch where
  | spline
  | uninitialised
  | other
deriving DecidableEq

/-- `ToCoreSplineVector` for list `patches`, src/py/py_multipatch.cpp 41-56: the cast and `Core()` throw. -/
def toCoreSplines (hw : ℕ) (patches : List Patch) (nthread : ℤ) (trace : List ℕ) : Outcome :=
  execute hw patches.length nthread (fun i => patches.getD i .other != .spline) trace

/-- A new field for a multipatch: all right; its splines do not match the patches; or its list can not be turned into a multipatch
(src/py/py_multipatch.cpp 1559-1585). -/
inductive FieldState where
  | fine
  | mismatch
  | invalid
deriving DecidableEq

/-- `AddFields`, src/py/py_multipatch.cpp 1537-1597: mismatches are caught in the thread and reported in the end; the construction of the
multipatch of the field (1563-1564) is outside of the `try`. -/
def addFields (hw : ℕ) (fields : List FieldState) (nthread : ℤ) (trace : List ℕ) : Outcome :=
  match execute hw fields.length nthread (fun i => fields.getD i .invalid == .invalid) trace with
  | .returned => if fields.any (· == .mismatch) then .raised else .returned
  | o => o

/-- `Proximities`, src/py/py_spline.cpp 686-782, errors only: the resolutions are checked in the calling thread, the tree is asked for in
the threads (src/proximity/proximity.cpp 205-211). `tree`: there is a tree from an earlier call. -/
def proximities (hw nQueries : ℕ) (tree : Bool) (resolutions : List ℤ) (nthread : ℤ) (trace : List ℕ) : Outcome :=
  match Queries.plantTree resolutions with
  | none => .raised
  | some plant => execute hw nQueries nthread (fun _ => !(plant || tree)) trace

/-! ### Reference counts -/

/-- One thread: changes of counts still to be made (object, ±1), and the count that was loaded for the current change
(src/py/py_multipatch.cpp 47-52). -/
structure Thread where
  pending : List (ℕ × ℤ)
  loaded : Option ℤ

/-- Counts of the Python objects, and the threads (src/py/py_multipatch.cpp 47-53). -/
structure Config where
  counts : ℕ → ℤ
  threads : List Thread

/-- One step of thread `t`: load the count of the next object, or store the changed count (src/py/py_multipatch.cpp 49-50). -/
def step (c : Config) (t : ℕ) : Config :=
  match c.threads[t]? with
  | none => c
  | some th =>
    match th.pending, th.loaded with
    | [], _ => c
    | (o, _) :: _, none => { c with threads := c.threads.set t { th with loaded := some (c.counts o) } }
    | (o, d) :: rest, some v =>
      { counts := fun k => if k = o then v + d else c.counts k, threads := c.threads.set t { pending := rest, loaded := none } }

/-- Steps in the order of a schedule (src/py/py_multipatch.cpp 53). -/
def run (c : Config) (schedule : List ℕ) : Config := schedule.foldl step c

/-- Start of `ToCoreSplineVector` (src/py/py_multipatch.cpp 41-56, likewise 59-86): thread `k` handles the list positions `chunks[k]`,
each takes and gives back a reference to the object at the position. -/
def start (counts : ℕ → ℤ) (objects : List ℕ) (chunks : List (List ℕ)) : Config :=
  ⟨counts, chunks.map (fun is => ⟨is.flatMap (fun i => (objects[i]?).toList.flatMap (fun o => [(o, 1), (o, -1)])), none⟩)⟩

end Splinepy.ThreadErrors
