import Verif.Model.Pointers

/-!
Model of reading `spline.knot_vectors` and `spline.knot_vectors[i]` as sequences: src/py/py_knot_vector.cpp 42-95, 157-181 and src/py/py_parameter_space.cpp 57-116.
`std::size_t` has 64 bit, `int` has 32 bit, python's integers are unbounded.
-/
namespace Splinepy.KnotRead

variable {α : Type}

/-- Outcome of a call: an exception, memory that does not belong to the vector is read, or a result. (src/py/py_knot_vector.cpp 42-95) -/
inductive Outcome (β : Type) where
  | raises
  | undefined
  | ok (x : β)
deriving DecidableEq

/-- Conversion of a bound of a slice to `Py_ssize_t`: `_PyEval_SliceIndex` of CPython. (called in src/py/py_knot_vector.cpp 83) -/
def clampSize (x : Int) : Int := max (-2 ^ 63) (min x (2 ^ 63 - 1))

/-- Step of a slice: `PySlice_Unpack` of CPython. (called in src/py/py_knot_vector.cpp 83) -/
def unpackStep : Option Int → Int
  | none => 1
  | some st => max (-(2 ^ 63 - 1)) (clampSize st)

/-- Start of a slice: `PySlice_Unpack` of CPython. (called in src/py/py_knot_vector.cpp 83) -/
def unpackStart (step : Int) : Option Int → Int
  | none => if step < 0 then 2 ^ 63 - 1 else 0
  | some a => clampSize a

/-- End of a slice: `PySlice_Unpack` of CPython. (called in src/py/py_knot_vector.cpp 83) -/
def unpackStop (step : Int) : Option Int → Int
  | none => if step < 0 then -2 ^ 63 else 2 ^ 63 - 1
  | some b => clampSize b

/-- One bound in `PySlice_AdjustIndices` of CPython. (called in src/py/py_knot_vector.cpp 83) -/
def adjust (n : ℕ) (step x : Int) : Int :=
  if x < 0 then (if x + n < 0 then (if step < 0 then -1 else 0) else x + n)
  else if x ≥ n then (if step < 0 then (n : Int) - 1 else n)
  else x

/-- Number of elements in `PySlice_AdjustIndices` of CPython. (called in src/py/py_knot_vector.cpp 83) -/
def sliceLength (start stop step : Int) : ℕ :=
  if step < 0 then (if stop < start then ((start - stop - 1) / (-step) + 1).toNat else 0)
  else (if start < stop then ((stop - start - 1) / step + 1).toNat else 0)

/-- Loop in src/py/py_knot_vector.cpp 87-90 and src/py/py_parameter_space.cpp 110-113: `start` and `step` are unsigned, the sum wraps. -/
def readLoop (read : BitVec 64 → Option α) : ℕ → BitVec 64 → BitVec 64 → Outcome (List α)
  | 0, _, _ => .ok []
  | m + 1, start, step =>
    match read start with
    | none => .undefined
    | some x =>
      match readLoop read m (start + step) step with
      | .ok l => .ok (x :: l)
      | o => o

/-- `kv[start]` with an index of the type `std::size_t`. (src/py/py_knot_vector.cpp 88) -/
def readWide (l : List α) (i : BitVec 64) : Option α := l[i.toNat]?

/-- `static_cast<int>(start)` before the access, src/py/py_parameter_space.cpp 111; also for `kv[start]` in src/py/py_knot_vector.cpp 88 if the operator of BSplineLib
takes an `int`. -/
def readInt (l : List α) (i : BitVec 64) : Option α :=
  let j := (i.setWidth 32).toInt
  if j < 0 then none else l[j.toNat]?

/-- `__getitem__` with a slice: src/py/py_knot_vector.cpp 78-92, src/py/py_parameter_space.cpp 98-116. `slice.compute` of pybind11 stores the signed numbers as unsigned. -/
def getSlice (read : BitVec 64 → Option α) (n : ℕ) (a b c : Option Int) : Outcome (List α) :=
  let step := unpackStep c
  if step = 0 then .raises
  else
    let start := adjust n step (unpackStart step a)
    let stop := adjust n step (unpackStop step b)
    readLoop read (sliceLength start stop step) (BitVec.ofInt 64 start) (BitVec.ofInt 64 step)

/-- `__getitem__` with an integer, src/py/py_knot_vector.cpp 70-77, src/py/py_parameter_space.cpp 91-97. -/
def getItem (l : List α) (i : Int) : Outcome α :=
  match Pointers.wrapId i l.length with
  | none => .raises
  | some j => match l[j]? with
    | none => .undefined
    | some x => .ok x

/-- Copy into an array: `numpy`, `__array__` (src/py/py_knot_vector.cpp 157-181), `to_list` of the parameter space (src/py/py_parameter_space.cpp 57-69). -/
def copied (l : List α) : List (Option α) := (List.range l.length).map fun i => l[i]?

/-- The `std::vector` of a knot vector: where it is stored, and its elements. (src/py/py_knot_vector.cpp 60-69) -/
structure Storage (α : Type) where
  place : ℕ
  knots : List α

/-- The iterator made in src/py/py_knot_vector.cpp 60-69: two pointers into the storage. -/
structure Iter where
  place : ℕ
  pos : ℕ
  last : ℕ

/-- `__iter__` (src/py/py_knot_vector.cpp 60-69) -/
def Storage.iter (v : Storage α) : Iter := ⟨v.place, 0, v.knots.length⟩

/-- What happens during an iteration. (src/py/py_knot_vector.cpp 60-69, 96-149) -/
inductive Event (α : Type) where
  /-- the next element is asked for -/
  | next
  /-- an element is assigned in place -/
  | assign (i : ℕ) (x : α)
  /-- knots are inserted or removed by a refinement: the pointers into the vector become invalid -/
  | resize (knots : List α)

/-- Answer to `next`: an element or the end. (src/py/py_knot_vector.cpp 60-69) -/
inductive Answer (α : Type) where
  | element (x : α)
  | stop
  | undefined
deriving DecidableEq

/-- Next element of the iterator of pybind11. (made in src/py/py_knot_vector.cpp 60-69) -/
def Iter.next (v : Storage α) (it : Iter) : Answer α × Iter :=
  if it.pos = it.last then (.stop, it)
  else if it.place ≠ v.place then (.undefined, it)
  else match v.knots[it.pos]? with
    | none => (.undefined, it)
    | some x => (.element x, { it with pos := it.pos + 1 })

/-- A history of events with the answers. (src/py/py_knot_vector.cpp 60-69) -/
def run : Storage α → Iter → List (Event α) → List (Answer α)
  | _, _, [] => []
  | v, it, .next :: es => (it.next v).1 :: run v (it.next v).2 es
  | v, it, .assign i x :: es => run { v with knots := v.knots.set i x } it es
  | v, it, .resize knots :: es => run ⟨v.place + 1, knots⟩ it es

end Splinepy.KnotRead
