import Verif.Model.Multipatch

/-!
Model of the cached data of a multipatch: `src/py/py_multipatch.cpp` 699-790 and 1064-1395.

A patch is an element of an arbitrary type `P`; the geometric operations on patches are the parameters `Geometry`. Simplifications: the number of threads has
no influence (C09, C10); `int` is unbounded; an exception is `none`. Arrays whose `size()` is zero count as "not available" in the code, so caches that are
arrays are lists here, and the empty list means "not available". Python objects and C++ pointers that may be null are `Option`s. A read returns the new state
and the result.
-/
namespace Splinepy.MultipatchCache
open Splinepy.Multipatch

/-- the geometric operations: `SplinepyParaDim`, `SplinepyExtractBoundary`, evaluation at the center of a face (`SubPatchCenters` 1215-1241),
`InterfacesFromBoundaryCenters` (553-590, with the tolerance of the multipatch), and `GetInterfaceOrientation` (592-697) with its mapping and flags. (src/py/py_multipatch.cpp) -/
structure Geometry (P C : Type) where
  paraDim : P → ℕ
  face : P → ℕ → P
  center : P → ℕ → C
  connect : List C → ℕ → Option (List Int)
  orient : P → ℕ → P → ℕ → List Int

/-- members of `PyMultipatch`, `include/splinepy/py/py_multipatch.hpp` 211-240 -/
structure State (P C : Type) where
  patches : List P := []
  subMultipatch : Option (List P) := none
  pySubMultipatch : Option (List P) := none
  centers : List C := []
  boundaryIds : List ℕ := []
  boundaryMultipatch : Option (List P) := none
  pyBoundaryMultipatch : Option (List P) := none
  interfaces : List Int := []
  orientations : List (List Int) := []

variable {P C : Type} [Inhabited P]

/-- `Clear`, lines 1071-1082: the two Python objects are not reset. (src/py/py_multipatch.cpp) -/
def clear (s : State P C) : State P C :=
  { s with patches := [], subMultipatch := none, boundaryIds := [], boundaryMultipatch := none, interfaces := [], orientations := [], centers := [] }

/-- `SetPatchesNThreads`, lines 1084-1102, for a non-empty list. Whether the check of line 1095 raises makes no difference to the state. (src/py/py_multipatch.cpp) -/
def setPatches (s : State P C) (p : P) (ps : List P) : State P C := { clear s with patches := p :: ps }

/-- number of faces per patch (src/py/py_multipatch.cpp 1176-1248) -/
def nFaces (g : Geometry P C) (s : State P C) : ℕ := 2 * g.paraDim (s.patches.headD default)

/-- `SubMultipatch`, lines 1128-1167. (src/py/py_multipatch.cpp) -/
def subMultipatch (g : Geometry P C) (s : State P C) : State P C × Option (List P) :=
  match s.subMultipatch with
  | some m => (s, some m)                                                     -- lines 1130-1132
  | none =>
    if s.patches = [] then (s, none)                                          -- line 1134
    else
      let m := s.patches.flatMap (fun p => (List.range (nFaces g s)).map (g.face p))   -- lines 1143-1153
      ({ s with subMultipatch := some m }, some m)

/-- `PySubMultipatch`, lines 1169-1174. (src/py/py_multipatch.cpp) -/
def pySubMultipatch (g : Geometry P C) (s : State P C) : State P C × Option (List P) :=
  match s.pySubMultipatch with
  | some m => (s, some m)
  | none =>
    match subMultipatch g s with
    | (s', none) => (s', none)
    | (s', some m) => ({ s' with pySubMultipatch := some m }, some m)

/-- `SubPatchCenters`, lines 1176-1248. (src/py/py_multipatch.cpp) -/
def subPatchCenters (g : Geometry P C) (s : State P C) : State P C × Option (List C) :=
  if s.centers ≠ [] then (s, some s.centers)                                  -- lines 1178-1180
  else if s.patches = [] then (s, none)                                       -- line 1184
  else
    let c := s.patches.flatMap (fun p => (List.range (nFaces g s)).map (g.center p))
    ({ s with centers := c }, some c)

/-- `GetInterfaces`, lines 1250-1264. (src/py/py_multipatch.cpp) -/
def getInterfaces (g : Geometry P C) (s : State P C) (recompute : Bool) : State P C × Option (List Int) :=
  if s.interfaces = [] ∨ recompute = true then
    match subPatchCenters g s with
    | (s', none) => (s', none)
    | (s', some c) =>
      match g.connect c (g.paraDim (s.patches.headD default)) with
      | none => (s', none)
      | some t => ({ s' with interfaces := t, orientations := [] }, some t)   -- lines 1255-1258
  else (s, some s.interfaces)

/-- `SetInterfaces`, lines 1266-1284. `none`: the exception of lines 1269-1278. (src/py/py_multipatch.cpp) -/
def setInterfaces (g : Geometry P C) (s : State P C) (t : List Int) : Option (State P C) :=
  if t = [] ∨ s.patches = [] then none
  else if t.length ≠ s.patches.length * nFaces g s then none
  else some { s with orientations := [], interfaces := t }

/-- assignment to an entry of the array returned by `GetInterfaces` (as in multipatch.py 268, 415, 535): the array is the member itself. -/
def editInterface (g : Geometry P C) (s : State P C) (p : ℕ) (v : Int) : State P C :=
  match getInterfaces g s false with
  | (s', none) => s'
  | (s', some t) => { s' with interfaces := t.set p v }

/-- `BoundaryPatchIds`, lines 1286-1334. (src/py/py_multipatch.cpp) -/
def boundaryPatchIds (g : Geometry P C) (s : State P C) (bid : Int) : State P C × Option (List ℕ) :=
  if bid < 0 ∧ s.boundaryIds ≠ [] then (s, some s.boundaryIds)                -- lines 1288-1290
  else
    match getInterfaces g s false with
    | (s', none) => (s', none)
    | (s', some t) =>
      let ids := Multipatch.boundaryPatchIds t bid                            -- lines 1295-1325
      if bid < 0 then ({ s' with boundaryIds := ids }, some ids) else (s', some ids)   -- lines 1328-1333

/-- `BoundaryMultipatch`, lines 1338-1382. (src/py/py_multipatch.cpp) -/
def boundaryMultipatch (g : Geometry P C) (s : State P C) (bid : Int) : State P C × Option (List P) :=
  match (if bid < 0 then s.boundaryMultipatch else none) with
  | some m => (s, some m)                                                     -- lines 1340-1342
  | none =>
    match boundaryPatchIds g s bid with
    | (s', none) => (s', none)
    | (s', some ids) =>
      let m := ids.map (fun i => g.face (s'.patches.getD (i / nFaces g s') default) (i % nFaces g s'))   -- lines 1356-1363
      if bid < 0 then ({ s' with boundaryMultipatch := some m }, some m) else (s', some m)

/-- `PyBoundaryMultipatch`, lines 1386-1395. (src/py/py_multipatch.cpp) -/
def pyBoundaryMultipatch (g : Geometry P C) (s : State P C) (bid : Int) : State P C × Option (List P) :=
  if bid < 0 then
    match s.pyBoundaryMultipatch with
    | some m => (s, some m)
    | none =>
      match boundaryMultipatch g s bid with
      | (s', none) => (s', none)
      | (s', some m) => ({ s' with pyBoundaryMultipatch := some m }, some m)
  else boundaryMultipatch g s bid

/-- rows of the orientation table, lines 738-778. (src/py/py_multipatch.cpp) -/
def orientationRows (g : Geometry P C) (patches : List P) (nF : ℕ) (t : List Int) : List (List Int) :=
  ((List.range t.length).filter (fun (i : ℕ) => decide (t.getD i 0 ≥ 0) && decide (t.getD i 0 > (i : Int)))).map (fun i =>
    let j := (t.getD i 0).toNat
    [((i / nF : ℕ) : Int), ((i % nF : ℕ) : Int), ((j / nF : ℕ) : Int), ((j % nF : ℕ) : Int)]
      ++ g.orient (patches.getD (i / nF) default) (i % nF) (patches.getD (j / nF) default) (j % nF))

/-- `GetInterfaceOrientations`, lines 699-790. (src/py/py_multipatch.cpp) -/
def interfaceOrientations (g : Geometry P C) (s : State P C) : State P C × Option (List (List Int)) :=
  if s.orientations ≠ [] then (s, some s.orientations)                        -- lines 703-705
  else if s.patches = [] then (s, none)                                       -- line 710
  else
    match getInterfaces g s false with
    | (s', none) => (s', none)
    | (s', some t) =>
      let o := orientationRows g s'.patches (nFaces g s') t
      ({ s' with orientations := o }, some o)

/-- one use of the API (src/py/py_multipatch.cpp 699-790, 1064-1395) -/
inductive Op (P : Type) where
  | clear
  | setPatches (p : P) (ps : List P)
  | setInterfaces (t : List Int)
  | interfaces
  | recompute
  | edit (p : ℕ) (v : Int)
  | subPatchCenters
  | boundaryPatchIds (bid : Int)
  | boundaryMultipatch (bid : Int)
  | subMultipatch
  | orientations

/-- effect of one use of the API on the members (src/py/py_multipatch.cpp 699-790, 1064-1395) -/
def step (g : Geometry P C) (s : State P C) : Op P → State P C
  | .clear => clear s
  | .setPatches p ps => setPatches s p ps
  | .setInterfaces t => (setInterfaces g s t).getD s
  | .interfaces => (getInterfaces g s false).1
  | .recompute => (getInterfaces g s true).1
  | .edit p v => editInterface g s p v
  | .subPatchCenters => (subPatchCenters g s).1
  | .boundaryPatchIds b => (boundaryPatchIds g s b).1
  | .boundaryMultipatch b => (pyBoundaryMultipatch g s b).1
  | .subMultipatch => (pySubMultipatch g s).1
  | .orientations => (interfaceOrientations g s).1

/-- the members after a history, beginning with an empty multipatch (src/py/py_multipatch.cpp 1064-1395) -/
def run (g : Geometry P C) (ops : List (Op P)) : State P C := ops.foldl (step g) {}

end Splinepy.MultipatchCache
