import Verif.Model.Pointers

/-!
Model of item assignments on `spline.control_points` and `spline.weights` (`splinepy/utils/data.py` 172-250, `PhysicalSpaceArray.__setitem__`), with the numpy
semantics of the key, and of item assignments on `spline.knot_vectors[i]` (`src/py/py_knot_vector.cpp` 97-149, `src/py/py_parameter_space.cpp` 133-152).

Simplifications: array rows are values of an arbitrary type; column indices of tuple keys are not modelled (they do not matter for the rows that are
synchronised), the new content of the touched rows is arbitrary. `int32`, `size_t` are unbounded.
-/
namespace Splinepy.ArraySet

/-- Python's `range`/numpy's `arange` for integers, step nonzero (numpy, splinepy/utils/data.py 207-240) -/
def arange (start stop step : Int) : List Int :=
  let len : ℕ := if 0 < step then (if start < stop then ((stop - start - 1) / step + 1).toNat else 0)
    else (if stop < start then ((start - stop - 1) / (-step) + 1).toNat else 0)
  (List.range len).map (fun (i : ℕ) => start + i * step)

/-- Python's clipping of a slice bound: `PySlice_AdjustIndices` (numpy semantics of the keys of splinepy/utils/data.py 172-250) -/
def clip (n : ℕ) (step : Int) (b : Int) : Int :=
  let lower : Int := if step < 0 then -1 else 0
  let upper : Int := if step < 0 then n - 1 else n
  if b < 0 then max (b + n) lower else min b upper

/-- first index of a slice, before it is known whether the slice is empty (keys of splinepy/utils/data.py 172-250 and src/py/py_knot_vector.cpp 97-149) -/
def sliceStart (n : ℕ) (st : Int) : Option Int → Int
  | none => if st < 0 then (n : Int) - 1 else 0
  | some s => clip n st s

/-- end (excluded) of a slice (keys of splinepy/utils/data.py 172-250 and src/py/py_knot_vector.cpp 97-149) -/
def sliceStop (n : ℕ) (st : Int) : Option Int → Int
  | none => if st < 0 then -1 else (n : Int)
  | some e => clip n st e

/-- the indices of `slice(start, stop, step)` for length `n`: `slice.indices`, used by numpy and by pybind11's `slice.compute`; step 0 is an error (keys of splinepy/utils/data.py 172-250 and src/py/py_knot_vector.cpp 97-149) -/
def sliceIds (n : ℕ) (start stop step : Option Int) : Option (List Int) :=
  if step.getD 1 = 0 then none else
  some (arange (sliceStart n (step.getD 1) start) (sliceStop n (step.getD 1) stop) (step.getD 1))

/-- data.py 226-228 -/
def keyStart (n : ℕ) : Option Int → Int
  | none => 0
  | some s => if s < 0 then s + n else s

/-- data.py 229-231 -/
def keyStop (n : ℕ) : Option Int → Int
  | none => (n : Int)
  | some e => if e < 0 then e + n else e

/-- the kinds of keys told apart by `__setitem__` (splinepy/utils/data.py 172-250) -/
inductive Key
  | int (i : Int)                                -- `arr[i]`, `arr[i, ...]`, 0-d arrays
  | bool (b : Bool)                              -- `arr[True]`; for numpy a new axis, for Python an int
  | ints (l : List Int)                          -- integer array, or non-empty list, also as first of a tuple
  | emptyList                                    -- `arr[[]]`
  | mask (m : List Bool)                         -- boolean array or list, also as first of a tuple
  | slice (start stop step : Option Int)         -- slice, also as first of a tuple
  | ellipsis                                     -- `arr[...]`, `arr[..., j]`
  | other (rows : List ℕ)                        -- any other key; the rows it touches
deriving DecidableEq

/-- the rows numpy writes; `none` is an exception of numpy, before anything is written (splinepy/utils/data.py 174) -/
def numpyRows (n : ℕ) : Key → Option (List ℕ)
  | .int i => (Pointers.wrapId i n).map (fun j => [j])
  | .bool b => some (if b then List.range n else [])
  | .ints l => l.mapM (fun i => Pointers.wrapId i n)
  | .emptyList => some []
  | .mask m => if m.length = n then some ((List.range n).filter (fun i => m.getD i false)) else none
  | .slice a b c => (sliceIds n a b c).map (fun ids => ids.map Int.toNat)
  | .ellipsis => some (List.range n)
  | .other rows => if rows.all (· < n) then some rows else none

/-- the ids `__setitem__` hands to `set_row`/`sync_rows`, data.py 189-248; `none` is an exception -/
def syncedIds (n : ℕ) : Key → Option (List Int)
  | .int i => some [i]                                                           -- 189-193, 207-211
  | .bool b => some [if b then 1 else 0]                                         -- `isinstance(True, int)`, 189-193
  | .ints l => some l                                                            -- 195-204, 213-219
  | .emptyList => none                                                           -- `key[0]`, 202
  | .mask m => some (((List.range n).filter (fun i => m.getD i false)).map (fun (i : ℕ) => (i : Int)))   -- 196-197, 202-203, 216-217
  | .slice a b c =>                                                              -- 221-237
    if c.getD 1 = 0 then none else some (arange (keyStart n a) (keyStop n b) (c.getD 1))
  | .ellipsis => some ((List.range n).map (fun (i : ℕ) => (i : Int)))            -- 239-242
  | .other rows => some (((List.range n).filter (fun i => rows.contains i)).map (fun (i : ℕ) => (i : Int)))   -- 244-248, `np.unique`

variable {α : Type}

/-- array and core (splinepy/utils/data.py 14-86) -/
structure State (α : Type) where
  arr : List α
  core : List α

/-- the written array: the touched rows get new content (splinepy/utils/data.py 172-174) -/
def numpySet (arr : List α) (rows : List ℕ) (new : ℕ → α) : List α := rows.foldl (fun a i => a.set i (new i)) arr

/-- rows of the core are overwritten with the rows of the array (`Pointers.setRow`, `Pointers.syncRows`). With `weights`, `sync_rows` reads its value at
the unwrapped id (`Pointers.syncWeightRows`), `set_row` gets the row as argument. (splinepy/utils/data.py 182-250) -/
def mirror (weights : Bool) (arr : List α) (ids : List Int) (core : List α) : Option (List α) :=
  ids.foldlM (fun core id =>
    (Pointers.wrapId id core.length).bind (fun i =>
      (if weights ∧ id < 0 then none else arr[i]?).map (fun v => core.set i v))) core

/-- whether the key is handled with `set_row` (splinepy/utils/data.py 190-250) -/
def usesSetRow : Key → Bool
  | .int _ | .bool _ => true
  | _ => false

/-- outcome of an assignment: numpy raises and nothing is changed; the assignment is done, or an error or access out of range while mirroring, with the array already
changed (splinepy/utils/data.py 172-250) -/
inductive Outcome (α : Type)
  | rejected
  | failed (arr : List α)
  | done (s : State α)

/-- `__setitem__`, data.py 172-250, on the array of all control points (`weights = false`) or weights (`weights = true`) -/
def setItem (weights : Bool) (s : State α) (k : Key) (new : ℕ → α) : Outcome α :=
  match numpyRows s.arr.length k with
  | none => .rejected
  | some rows =>
    let arr := numpySet s.arr rows new
    match (syncedIds arr.length k).bind (fun ids => mirror (weights && !(usesSetRow k)) arr ids s.core) with
    | none => .failed arr
    | some core => .done ⟨arr, core⟩

/-- in-place operations and `__setitem__` of views, data.py 72-83, 94-170, 176-179: any rows change, then everything is mirrored -/
def inPlace (s : State α) (new : ℕ → α) : Outcome α :=
  let arr := numpySet s.arr (List.range s.arr.length) new
  match mirror false arr ((List.range arr.length).map (fun (i : ℕ) => (i : Int))) s.core with
  | none => .failed arr
  | some core => .done ⟨arr, core⟩

/-! ### knot vectors -/

variable {K : Type}

/-- outcome of an assignment to a knot vector, with the knots afterwards (src/py/py_knot_vector.cpp 97-149) -/
inductive KvOutcome (K : Type)
  | raised (knots : List K)
  | ok (knots : List K)
deriving DecidableEq

/-- Knots after the assignment, src/py/py_knot_vector.cpp 97-149. -/
def KvOutcome.knots : KvOutcome K → List K
  | .raised k => k
  | .ok k => k

/-- `__setitem__` with a slice, py_knot_vector.cpp 105-149. `valid` is `ThrowIfTooSmallOrNotNonDecreasing` (external, returns whether it does not throw). -/
def setSlice (valid : List K → Bool) (kv : List K) (start stop step : Option Int) (values : List K) : KvOutcome K :=
  match sliceIds kv.length start stop step with
  | none => .raised kv
  | some ids =>
    if ids.length ≠ values.length then .raised kv else
    let kv' := (ids.zip values).foldl (fun l iv => l.set iv.1.toNat iv.2) kv
    if valid kv' then .ok kv' else .raised kv'

/-- `__setitem__` with an int, py_knot_vector.cpp 97-104. `updateKnot` is `KnotVector::UpdateKnot` (external, `none` if it throws). -/
def setKnot (updateKnot : List K → ℕ → K → Option (List K)) (kv : List K) (i : Int) (knot : K) : KvOutcome K :=
  match Pointers.wrapId i kv.length with
  | none => .raised kv
  | some j => match updateKnot kv j knot with
    | none => .raised kv
    | some kv' => .ok kv'

/-- `ParameterSpace.__setitem__` with an array, py_parameter_space.cpp 133-152 -/
def setKnotVector (valid : List K → Bool) (kv values : List K) : KvOutcome K :=
  if kv.length ≠ values.length then .raised kv else
  if valid values then .ok values else .raised values

/-- The item assignments of src/py/py_knot_vector.cpp 97-149 and src/py/py_parameter_space.cpp 133-152. -/
inductive KvOp (K : Type)
  | slice (start stop step : Option Int) (values : List K)
  | knot (i : Int) (knot : K)
  | whole (values : List K)

/-- Effect of one assignment, src/py/py_knot_vector.cpp 97-149 and src/py/py_parameter_space.cpp 133-152. -/
def kvStep (valid : List K → Bool) (updateKnot : List K → ℕ → K → Option (List K)) (kv : List K) : KvOp K → KvOutcome K
  | .slice a b c vs => setSlice valid kv a b c vs
  | .knot i v => setKnot updateKnot kv i v
  | .whole vs => setKnotVector valid kv vs

end Splinepy.ArraySet
