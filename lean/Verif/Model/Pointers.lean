import Mathlib.Algebra.Field.Basic

/-!
Model of the writes to control points and weights of a core spline: `include/splinepy/utils/coordinate_pointers.hpp` 36-49, 150-216,
`src/utils/coordinate_pointers.cpp` 29-122, with the size checks of `src/py/py_coordinate_pointers.cpp` 48-91.

Simplifications: `double` is a field `K`; the memory the pointers refer to is a list of coordinate rows and a list of weights; `int` is unbounded. Exceptions and
accesses out of range are `none`. The pointers are valid (`invalid_` is false).
-/
namespace Splinepy.Pointers

variable {K : Type} [Field K]

/-- the memory of a spline: coordinates as stored (weighted for rational splines) and, for rational splines, the weights (include/splinepy/utils/coordinate_pointers.hpp 54-148) -/
structure Core (K : Type) where
  coords : List (List K)
  weights : Option (List K)
deriving DecidableEq

/-- `WrapId`, hpp 36-49, and the access with the result. Outside of the range this is an exception in debug builds, an access out of range else. (src/utils/coordinate_pointers.cpp) -/
def wrapId (i : Int) (n : ℕ) : Option ℕ :=
  let j := if i < 0 then i + n else i
  if 0 ≤ j ∧ j < n then some j.toNat else none

/-- `ControlPointPointers::SetRow`, cpp 29-50 (and the body of the loops in hpp 161-176, 180-196): the row `id` is written, times the weight (src/utils/coordinate_pointers.cpp) -/
def setRow (c : Core K) (id : Int) (values : List K) : Option (Core K) :=
  (wrapId id c.coords.length).bind (fun i =>
    match c.weights with
    | none => some { c with coords := c.coords.set i values }
    | some w => (w[i]?).map (fun wi => { c with coords := c.coords.set i (values.map (· * wi)) }))

/-- `ControlPointPointers::SetRows<false>`, hpp 150-199: row `ids[i]` gets row `i` of the values (size check in py_coordinate_pointers.cpp 61-66) -/
def setRows (c : Core K) (ids : List Int) (values : List (List K)) : Option (Core K) :=
  if ids.length ≠ values.length then none else
  (ids.zip values).foldlM (fun c iv => setRow c iv.1 iv.2) c

/-- `ControlPointPointers::SetRows<true>`, hpp 150-199: row `current_id` gets row `current_id` of the values (size check 54-59) (src/utils/coordinate_pointers.cpp) -/
def syncRows (c : Core K) (ids : List Int) (values : List (List K)) : Option (Core K) :=
  if c.coords.length ≠ values.length then none else
  ids.foldlM (fun c id => (wrapId id c.coords.length).bind (fun i => (values[i]?).bind (fun v => setRow c id v))) c

/-- `ControlPointPointers::Sync`, cpp 52-85 (size check 82-87) (src/utils/coordinate_pointers.cpp) -/
def sync (c : Core K) (values : List (List K)) : Option (Core K) :=
  if c.coords.length ≠ values.length then none else
  match c.weights with
  | none => some { c with coords := values }
  | some w => some { c with coords := List.zipWith (fun v wi => v.map (· * wi)) values w }

/-- `WeightPointers::SetRow`, cpp 87-113: the coordinates are scaled by the ratio of the weights (src/utils/coordinate_pointers.cpp) -/
def setWeight (c : Core K) (id : Int) (value : K) : Option (Core K) :=
  match c.weights with
  | none => none
  | some w =>
    (wrapId id w.length).bind (fun i => (w[i]?).bind (fun wi => (c.coords[i]?).map (fun row =>
      { coords := c.coords.set i (row.map (· * (value / wi))), weights := some (w.set i value) })))

/-- `WeightPointers::SetRows<false>`, hpp 201-216 (src/utils/coordinate_pointers.cpp) -/
def setWeights (c : Core K) (ids : List Int) (values : List K) : Option (Core K) :=
  if ids.length ≠ values.length then none else
  (ids.zip values).foldlM (fun c iv => setWeight c iv.1 iv.2) c

/-- `WeightPointers::SetRows<true>`, hpp 201-216: the value is read at `values[ids[i]]`, without wrapping a negative id (src/utils/coordinate_pointers.cpp) -/
def syncWeightRows (c : Core K) (ids : List Int) (values : List K) : Option (Core K) :=
  match c.weights with
  | none => none
  | some w =>
    if w.length ≠ values.length then none else
    ids.foldlM (fun c id => (if id < 0 then none else values[id.toNat]?).bind (fun v => setWeight c id v)) c

/-- `WeightPointers::Sync`, cpp 115-122 (src/utils/coordinate_pointers.cpp) -/
def syncWeights (c : Core K) (values : List K) : Option (Core K) :=
  match c.weights with
  | none => none
  | some w =>
    if w.length ≠ values.length then none else
    (List.range w.length).foldlM (fun c (i : ℕ) => (values[i]?).bind (fun v => setWeight c (i : Int) v)) c

/-- the calls available from Python (src/py/py_coordinate_pointers.cpp 48-150) -/
inductive Op (K : Type)
  | setRow (id : Int) (values : List K)
  | setRows (ids : List Int) (values : List (List K))
  | syncRows (ids : List Int) (values : List (List K))
  | sync (values : List (List K))
  | setWeight (id : Int) (value : K)
  | setWeights (ids : List Int) (values : List K)
  | syncWeightRows (ids : List Int) (values : List K)
  | syncWeights (values : List K)

/-- Effect of one call, src/py/py_coordinate_pointers.cpp 48-150. -/
def step (c : Core K) : Op K → Option (Core K)
  | .setRow id v => setRow c id v
  | .setRows ids vs => setRows c ids vs
  | .syncRows ids vs => syncRows c ids vs
  | .sync vs => sync c vs
  | .setWeight id v => setWeight c id v
  | .setWeights ids vs => setWeights c ids vs
  | .syncWeightRows ids vs => syncWeightRows c ids vs
  | .syncWeights vs => syncWeights c vs

/-- A history of calls; `none` if one of them raises; src/py/py_coordinate_pointers.cpp 48-150. -/
def run (c : Core K) (ops : List (Op K)) : Option (Core K) := ops.foldlM step c

end Splinepy.Pointers
