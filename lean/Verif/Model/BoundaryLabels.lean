import Mathlib.Data.List.GetD
import Mathlib.Data.List.Range
import Mathlib.Algebra.BigOperators.Group.List.Basic
import Mathlib.Algebra.Field.Defs
import Mathlib.Algebra.Order.Group.Abs
import Mathlib.Order.Defs.LinearOrder

/-!
Model of `AddBoundariesFromContinuity`, `src/py/py_multipatch.cpp` 848-1062.

Simplifications: numbers are from an arbitrary linearly ordered field; `std::sqrt` is the parameter `sqrt`; the normal vector of face `face` of
boundary patch `patch` (lines 907-948: computed from the Jacobian of the spline at the face center) is the parameter `normal patch face`; the
precomputation of lines 954-994 is modelled in sequential order (see `FlagRace.lean` for the threads). Tables are flat lists, as in the code.
An access outside of an array is `none`, and so is an exception.
-/
namespace Splinepy.BoundaryLabels

variable {K : Type} [Field K] [LinearOrder K]

/-- `areG1`, lines 890-904 (src/py/py_multipatch.cpp) -/
def areG1 (sqrt : K → K) (tol : K) (v0 v1 : List K) : Bool :=
  let norm0 := (v0.map (fun a => a * a)).sum
  let norm1 := (v1.map (fun a => a * a)).sum
  let dot := (List.zipWith (fun a b => a * b) v0 v1).sum
  decide (tol > |1 - |dot| / sqrt (norm0 * norm1)|)

/-- body of the loops in lines 958-988 for boundary patch `i`, face `j`: `g1 p f p' f'` is the verdict of `areG1` on the two normals. (src/py/py_multipatch.cpp) -/
def precomputeFace (nF nB : ℕ) (bi : List Int) (g1 : ℕ → ℕ → ℕ → ℕ → Bool) (i j : ℕ) (flags : List Bool) : Option (List Bool) := do
  let connected ← bi[i * nF + j]?                                -- lines 962-963
  let element := connected.tdiv nF                               -- lines 966-967, C++ division truncates
  let face := connected.tmod nF                                  -- lines 968-969
  if element < i then return flags else                          -- lines 973-975
  if face < 0 ∨ (nB : Int) ≤ element then none else              -- normal_vector of a face that does not exist
  let isG1 := g1 i j element.toNat face.toNat                    -- lines 976-984
  return (flags.set (i * nF + j) isG1).set connected.toNat isG1  -- lines 985-986

/-- lines 954-994: for all boundary patches and faces (src/py/py_multipatch.cpp) -/
def precompute (nF nB : ℕ) (bi : List Int) (g1 : ℕ → ℕ → ℕ → ℕ → Bool) : Option (List Bool) :=
  ((List.range nB).flatMap (fun i => (List.range nF).map (fun j => (i, j)))).foldlM
    (fun flags ij => precomputeFace nF nB bi g1 ij.1 ij.2 flags) (List.replicate (nF * nB) false)

/-- `is_assigned`, `new_boundary_id` and `queued_splines` (head of the list = back of the vector) (src/py/py_multipatch.cpp 996-1012) -/
structure State where
  assigned : List Bool
  ids : List ℕ
  queue : List ℕ

/-- lines 1016-1037: loop over the faces of the popped patch (src/py/py_multipatch.cpp) -/
def visitFaces (nF : ℕ) (bi : List Int) (flags : List Bool) (maxId current : ℕ) : List ℕ → State → Option State
  | [], st => some st
  | f :: fs, st =>
    match flags[current * nF + f]? with                          -- line 1020
    | none => none
    | some false => visitFaces nF bi flags maxId current fs st
    | some true =>
      match bi[current * nF + f]? with                           -- lines 1022-1023
      | none => none
      | some adjacentFace =>
        let adjacent := adjacentFace.tdiv nF                     -- lines 1024-1025
        if adjacent < 0 then none
        else match st.assigned[adjacent.toNat]? with             -- line 1028
          | none => none
          | some true => visitFaces nF bi flags maxId current fs st
          | some false => visitFaces nF bi flags maxId current fs
              { assigned := st.assigned.set adjacent.toNat true
                ids := st.ids.set adjacent.toNat maxId
                queue := adjacent.toNat :: st.queue }            -- lines 1032-1034

/-- lines 1013-1038: the `while` loop. The first argument bounds the number of iterations; running out of it is `none` (the theorems show that
this does not happen). (src/py/py_multipatch.cpp) -/
def propagate (nF : ℕ) (bi : List Int) (flags : List Bool) (maxId : ℕ) : ℕ → State → Option State
  | 0, st => if st.queue = [] then some st else none
  | fuel + 1, st =>
    match st.queue with
    | [] => some st
    | current :: rest => do
      let st' ← visitFaces nF bi flags maxId current (List.range nF) { st with queue := rest }
      propagate nF bi flags maxId fuel st'

/-- lines 1001-1042: loop over all boundary patches; returns the ids and `current_max_id` (src/py/py_multipatch.cpp) -/
def assignLoop (nF nB : ℕ) (bi : List Int) (flags : List Bool) : List ℕ → State → ℕ → Option (State × ℕ)
  | [], st, maxId => some (st, maxId)
  | i :: is, st, maxId => do
    let a ← st.assigned[i]?
    if a then assignLoop nF nB bi flags is st maxId             -- lines 1005-1007
    else
      let st' ← propagate nF bi flags maxId nB { assigned := st.assigned.set i true, ids := st.ids.set i maxId, queue := i :: st.queue }
      assignLoop nF nB bi flags is st' (maxId + 1)               -- line 1041

/-- lines 1044-1052: write the negated ids into the negative entries of the interface table, in order; remaining ids are returned. (src/py/py_multipatch.cpp) -/
def writeIds : List Int → List ℕ → Option (List Int × List ℕ)
  | [], ids => some ([], ids)
  | g :: gs, ids =>
    if g < 0 then
      match ids with
      | [] => none                                               -- reads past the end
      | id :: ids => (writeIds gs ids).map (fun r => (-(id : Int) :: r.1, r.2))
    else (writeIds gs ids).map (fun r => (g :: r.1, r.2))

/-- `AddBoundariesFromContinuity`, lines 848-1062: new interface table and the returned `current_max_id`. `nSplines` is the length of the list of
boundary splines. (src/py/py_multipatch.cpp) -/
def addBoundaries (nSplines nF nB : ℕ) (bi : List Int) (g1 : ℕ → ℕ → ℕ → ℕ → Bool) (globalInterfaces : List Int) : Option (List Int × ℕ) := do
  if nSplines ≠ nB then none else                                -- lines 854-862
  let flags ← precompute nF nB bi g1
  let (st, maxId) ← assignLoop nF nB bi flags (List.range nB) { assigned := List.replicate nB false, ids := List.replicate nB 0, queue := [] } 1
  let (table, left) ← writeIds globalInterfaces st.ids
  if left ≠ [] then none else                                    -- lines 1053-1059
  return (table, maxId)

end Splinepy.BoundaryLabels
