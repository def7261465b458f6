import Verif.Model.Unique

/-!
Model of the properties a spline object stores on the Python side, and of the calls that change its degrees in place.

* `splinepy/spline.py` 755-778 (degrees), 945-965 (control points), 1484-1505 (elevate_degrees), 1507-1541 (reduce_degrees)
* `src/py/py_spline.cpp` 784-824 (ElevateDegrees, ReduceDegrees)

`S` is the type of core splines, `V` of the value of a property; `view` reads the property from the core.
-/
namespace Splinepy.RefineCache

/-- A spline: its core, and the stored value of a property (`_data`, splinepy/spline.py 767-776). -/
structure State (S V : Type) where
  core : S
  data : Option V

/-- What the core does (src/py/py_spline.cpp 804, 820). -/
structure Core (S V : Type) where
  view : S → V
  elevate : S → ℕ → ℕ → S
  reduce : S → ℕ → S × Bool
  paraDim : ℕ

variable {S V : Type} (c : Core S V)

/-- `spline.degrees` (or `control_points`), splinepy/spline.py 767-778: the stored value, or that of the core, which is stored. -/
def read (s : State S V) : State S V × V :=
  match s.data with
  | some v => (s, v)
  | none => ({ s with data := some (c.view s.core) }, c.view s.core)

/-- `elevate_degrees`, splinepy/spline.py 1484-1505: `_data` is cleared in the end, which an exception of line 1501 does not reach. `none`: undefined
behaviour. Second component: the call returned. -/
def elevateDegrees (s : State S V) (dims : List Int) : Option (State S V × Bool) :=
  (Unique.elevateDegrees c.elevate c.paraDim s.core dims).map fun r =>
    if r.2 then (⟨r.1, none⟩, true) else (⟨r.1, s.data⟩, false)

/-- `reduce_degrees`, splinepy/spline.py 1507-1541; the answer is `none` if it raised. -/
def reduceDegrees (s : State S V) (dims : List Int) : State S V × Option (List Bool) :=
  let r := Unique.reduceDegrees c.reduce c.paraDim s.core dims
  match r.2 with
  | none => (⟨r.1, s.data⟩, none)
  | some l => (⟨r.1, if l.any id then none else s.data⟩, some l)          -- lines 1538-1541

/-- Calls of a user (splinepy/spline.py 755-778, 1484-1541). -/
inductive Op where
  | read
  | elevate (dims : List Int)
  | reduce (dims : List Int)

/-- One call: new state, and whether it returned. `none`: undefined behaviour. (splinepy/spline.py 755-778, 1484-1541) -/
def step (s : State S V) : Op → Option (State S V × Bool)
  | .read => some ((read c s).1, true)
  | .elevate dims => elevateDegrees c s dims
  | .reduce dims => let r := reduceDegrees c s dims; some (r.1, r.2.isSome)

/-- A history; the flag tells whether every call returned. (splinepy/spline.py 755-778, 1484-1541) -/
def run (s : State S V) : List Op → Option (State S V × Bool)
  | [] => some (s, true)
  | op :: ops => (step c s op).bind fun r => (run r.1 ops).map fun t => (t.1, r.2 && t.2)

end Splinepy.RefineCache
