import Verif.Model.SplineCore

/-!
Model of pickling a spline (`src/py/py_spline.cpp` 914-932): what `pickle.dumps`, `copy.deepcopy` and the workers of `multiprocessing` use. The state of the object is that of `Verif/Model/SplineCore.lean`.

Simplifications: arrays are values. The contract of `pickle` and pybind11: the pickled state is what `__getstate__` returns; an object of a pybind11 class without pickling support in it (here: a
parameter space, `src/py/py_parameter_space.cpp`, which defines none) makes `dumps` raise; arrays and the helper for multi indices are stored by value; attributes in `__slots__` of the Python class are
not part of the state, because the class defines its own.
-/
namespace Splinepy.Pickle
open Splinepy.SplineCore

variable {K : Type} [Field K] [LinearOrder K]

/-- `CurrentCoreProperties`, src/py/py_spline.cpp 258-310 -/
def coreProperties (c : Core K) : Props K := ⟨some c.degrees, c.kvs, some c.cps, c.ws⟩

/-- the pickled state: core properties and `_data`, src/py/py_spline.cpp 915-917 -/
structure Pickled (K : Type) where
  properties : Props K
  data : Data K
deriving DecidableEq

/-- `__getstate__` and the pickling of its result, src/py/py_spline.cpp 915-917; `none` raises: there is no core (240-248), or `_data` has a parameter space -/
def dumps (s : State K) : Option (Pickled K) :=
  match s.core with
  | none => none
  | some c => match s.data.kvs with
    | some (.space _) => none
    | _ => some ⟨coreProperties c, s.data⟩

/-- `__setstate__`, src/py/py_spline.cpp 918-931: `_data` is restored, then `NewCore` (49-228), which stores the arrays it is given (65, 72, 200); `none` raises -/
def loads (maxDim : ℕ) (p : Pickled K) : Option (State K) :=
  match newCore maxDim p.properties with
  | .created c =>
    some ⟨{ p.data with degrees := p.properties.degrees, cps := p.properties.cps, ws := if p.properties.ws.isSome then p.properties.ws else p.data.ws }, [c], some 0⟩
  | .skipped => some ⟨p.data, [], none⟩
  | .raised => none

/-- a Python spline object with what is stored in its slots: show options and data for plotting (splinepy/spline.py 389-392, 627-657) -/
structure Obj (K V : Type) where
  state : State K
  options : List (String × V) := []
  splineData : List (String × V) := []

/-- pickling an object: the slots are not part of the state (src/py/py_spline.cpp 915-917, splinepy/spline.py 389-392) -/
def dumpsObj {V : Type} (o : Obj K V) : Option (Pickled K) := dumps o.state

/-- loading an object: the helpers are created when they are asked for (src/py/py_spline.cpp 918-931, splinepy/spline.py 224-248) -/
def loadsObj (V : Type) (maxDim : ℕ) (p : Pickled K) : Option (Obj K V) := (loads maxDim p).map fun s => { state := s }

end Splinepy.Pickle
