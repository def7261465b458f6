import Mathlib.Data.Rat.Defs
import Mathlib.Algebra.Order.Ring.Rat

/-!
Model of the settings of a multipatch that are replaced during a call: `determine_interfaces`, `boundary_multipatch`, `interfaces` and
`interface_orientations`.

* `splinepy/multipatch.py` 84-128, 131-154, 182-209, 306-340
* `src/py/py_multipatch.cpp` 699-790, 1250-1264, 1320-1380, 1702-1705

The computations themselves are parameters (see C11 and C14): `detect tol` is the table of interfaces for a tolerance, `none` if the
detection raises; `orient t tol` is the array of orientations after the loop over the interfaces of the table, and whether the loop raised;
`extract t n` tells whether the boundaries of the table can be extracted with `n` threads.
-/
namespace Splinepy.CallSettings

/-- What the calls compute (src/py/py_multipatch.cpp 1255-1256, 699-790, 1320-1380). -/
structure Computations (T O : Type) where
  detect : ℚ → Option T
  orient : T → ℚ → O × Bool
  extract : T → ℤ → Bool

/-- Attributes of a multipatch (include/splinepy/py/py_multipatch.hpp, src/py/py_multipatch.cpp 1702-1705). -/
structure State (T O : Type) where
  tolerance : ℚ
  threads : ℤ
  interfaces : Option T
  orientations : Option O

/-- Answer of a call: a value, or an exception (splinepy/multipatch.py 306-340). -/
inductive Answer (T O : Type) where
  | table (t : T)
  | rows (o : O)
  | done
  | raised

variable {T O : Type}

/-- `GetInterfaces`, src/py/py_multipatch.cpp 1250-1264. -/
def getInterfaces (c : Computations T O) (s : State T O) (recompute : Bool) : State T O × Option T :=
  match s.interfaces, recompute with
  | some t, false => (s, some t)
  | _, _ =>
    match c.detect s.tolerance with
    | none => (s, none)
    | some t => ({ s with interfaces := some t, orientations := none }, some t)

/-- `Multipatch.determine_interfaces`, splinepy/multipatch.py 306-340; `defaultTol` is `settings.TOLERANCE`. An exception leaves before
line 338. -/
def determineInterfaces (c : Computations T O) (defaultTol : ℚ) (s : State T O) (tolerance : Option ℚ) (recompute : Bool) :
    State T O × Answer T O :=
  let tol := tolerance.getD defaultTol                                   -- lines 323-324
  let previous := s.tolerance                                            -- line 327
  match getInterfaces c { s with tolerance := tol } recompute with       -- lines 330-333
  | (s', none) => (s', .raised)
  | (s', some t) => ({ s' with tolerance := previous }, .table t)        -- lines 338-340

/-- `Multipatch.interfaces`, splinepy/multipatch.py 84-121. -/
def readInterfaces (c : Computations T O) (s : State T O) : State T O × Answer T O :=
  match getInterfaces c s false with
  | (s', none) => (s', .raised)
  | (s', some t) => (s', .table t)

/-- `Multipatch.boundary_multipatch`, splinepy/multipatch.py 182-209; `defaultThreads` is `settings.NTHREADS`. -/
def boundaryMultipatch (c : Computations T O) (defaultThreads : ℤ) (s : State T O) (nthreads : Option ℤ) : State T O × Answer T O :=
  let previous := s.threads                                              -- line 202
  match getInterfaces c { s with threads := nthreads.getD defaultThreads } false with
  | (s', none) => (s', .raised)
  | (s', some t) => if c.extract t s'.threads then ({ s' with threads := previous }, .done) else (s', .raised)

/-- `Multipatch.interface_orientations`, splinepy/multipatch.py 131-154 and src/py/py_multipatch.cpp 699-790: a stored result is
returned whatever the tolerance; the array is stored before it is filled. (An empty array is not taken for a stored one and computed
again, with the same result.) -/
def interfaceOrientations (c : Computations T O) (defaultTol : ℚ) (s : State T O) (tolerance : Option ℚ) : State T O × Answer T O :=
  match s.orientations with
  | some o => (s, .rows o)
  | none =>
    match getInterfaces c s false with
    | (s', none) => (s', .raised)
    | (s', some t) =>
      let r := c.orient t (tolerance.getD defaultTol)
      let s'' := { s' with orientations := some r.1 }                    -- py_multipatch.cpp 732-733, before the loop that may throw
      if r.2 then (s'', .raised) else (s'', .rows r.1)

/-- Calls of a user (splinepy/multipatch.py 84-340, src/py/py_multipatch.cpp 1702-1705). -/
inductive Op where
  | setTolerance (t : ℚ)
  | setThreads (n : ℤ)
  | determine (tolerance : Option ℚ) (recompute : Bool)
  | interfaces
  | boundary (nthreads : Option ℤ)
  | orientations (tolerance : Option ℚ)

/-- One call (splinepy/multipatch.py 84-340). -/
def step (c : Computations T O) (defaultTol : ℚ) (defaultThreads : ℤ) (s : State T O) : Op → State T O × Answer T O
  | .setTolerance t => ({ s with tolerance := t }, .done)
  | .setThreads n => ({ s with threads := n }, .done)
  | .determine t r => determineInterfaces c defaultTol s t r
  | .interfaces => readInterfaces c s
  | .boundary n => boundaryMultipatch c defaultThreads s n
  | .orientations t => interfaceOrientations c defaultTol s t

/-- A history: the state after it, and all answers (splinepy/multipatch.py 84-340). -/
def run (c : Computations T O) (defaultTol : ℚ) (defaultThreads : ℤ) (s : State T O) : List Op → State T O × List (Answer T O)
  | [] => (s, [])
  | op :: ops =>
    let r := step c defaultTol defaultThreads s op
    let rest := run c defaultTol defaultThreads r.1 ops
    (rest.1, r.2 :: rest.2)

end Splinepy.CallSettings
