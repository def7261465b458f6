import Mathlib.Data.Finset.Basic
import Mathlib.Data.Finset.Lattice.Fold

/-!
The tables of required properties (`splinepy/spline.py`) and of tiles (`splinepy/microstructure/tiles/__init__.py`), with the objects that are handed to callers. Sets and dictionaries are Python objects: a
caller can change every object that was returned to them, and two references to the same object see the same change.
-/
namespace Splinepy.Catalogue

/-- `__required_spline_properties`, splinepy/spline.py 31-36, with `__getitem__`, 74-98: `none` is the `ValueError`. The values are tuples, which cannot be changed. -/
def requiredSplineProperties : String → Option (List String)
  | "Bezier" => some ["degrees", "control_points"]
  | "RationalBezier" => some ["degrees", "control_points", "weights"]
  | "BSpline" => some ["degrees", "knot_vectors", "control_points"]
  | "NURBS" => some ["degrees", "knot_vectors", "control_points", "weights"]
  | _ => none

/-- keys of `__required_spline_properties`, splinepy/spline.py 31-36 -/
def supported : List String := ["Bezier", "RationalBezier", "BSpline", "NURBS"]

/-- `__union_all`, splinepy/spline.py 39-41 -/
def unionAll : Finset String := (supported.flatMap fun n => (requiredSplineProperties n).getD []).toFinset

/-- `__intersection_all`, splinepy/spline.py 44-46 -/
def intersectionAll : Finset String := supported.foldl (fun s n => s ∩ ((requiredSplineProperties n).getD []).toFinset) unionAll

/-- a tile class, by the attributes used here: `_para_dim` and `_dim`, e.g. splinepy/microstructure/tiles/chi.py 17-18 -/
structure TileClass where
  name : String
  paraDim : ℕ
  dim : ℕ
deriving DecidableEq

/-- a Python dictionary with the tile classes as values, in the order of insertion -/
abbrev Dict := List (String × TileClass)

/-- `_summarize_tiles`, splinepy/microstructure/tiles/__init__.py 74-97, for the subclasses of `TileBase` when the package is imported: all tiles, then those of dimension 1, 2 and 3. -/
def summarize (classes : List TileClass) : List Dict :=
  let all := classes.map fun c => (c.name, c)
  [all, all.filter fun e => e.2.dim == 1, all.filter fun e => e.2.dim == 2, all.filter fun e => e.2.dim == 3]

/-- The classes of the package in the order in which their modules are imported, splinepy/microstructure/tiles/__init__.py 7-36. `Cross3DLinear` is imported with its module before `Cross3D`. -/
def packageTiles : List TileClass :=
  [⟨"Armadillo", 3, 3⟩, ⟨"Chi", 1, 2⟩, ⟨"Cross2D", 2, 2⟩, ⟨"Cross3DLinear", 3, 3⟩, ⟨"CubeVoid", 3, 3⟩, ⟨"DoubleLattice", 2, 2⟩, ⟨"EllipsVoid", 3, 3⟩, ⟨"HollowCube", 3, 3⟩, ⟨"HollowOctagon", 2, 2⟩,
    ⟨"HollowOctagonExtrude", 3, 3⟩, ⟨"InverseCross3D", 3, 3⟩, ⟨"Snappy", 2, 2⟩, ⟨"Cross3D", 3, 3⟩]

/-- All set and dictionary objects. Sets 0 and 1 are the attributes `__union_all` and `__intersection_all` of the class, dictionaries 0 to 3 are `_tile_types`, `_1d`, `_2d` and `_3d`. `handedSets` and
`handedDicts` are the objects callers hold, in the order of the answers. -/
structure State where
  sets : List (Finset String)
  dicts : List Dict
  handedSets : List ℕ
  handedDicts : List ℕ

/-- after the import of the package -/
def initial (classes : List TileClass) : State := ⟨[unionAll, intersectionAll], summarize classes, [], []⟩

/-- what a caller gets -/
inductive Answer where
  /-- a tuple -/
  | tuple (l : List String)
  /-- a set object -/
  | set (ref : ℕ)
  /-- a dictionary object -/
  | dict (ref : ℕ)
  /-- a new object of the tile class -/
  | tile (c : TileClass)
  | error
  | nothing

/-- What callers do: the functions of the package, and changes of objects they were given before. `changeSet i f` replaces the content of the set that was answer number `i` (counting sets), for example
by `add`, `discard`, `clear` or `update`; `changeDict` likewise. -/
inductive Op where
  | of (name : String)
  | union (names : List String)
  | intersection (names : List String)
  | requiredProperties (typeName : String)
  | changeSet (i : ℕ) (f : Finset String → Finset String)
  | byDim (paraDim dim : Option ℕ)
  | everything
  | get (key : String)
  | changeDict (i : ℕ) (f : Dict → Dict)

/-- a new set object for the caller -/
def State.newSet (s : State) (v : Finset String) : Answer × State := (.set s.sets.length, { s with sets := s.sets ++ [v], handedSets := s.handedSets ++ [s.sets.length] })

/-- an existing set object for the caller -/
def State.sameSet (s : State) (ref : ℕ) : Answer × State := (.set ref, { s with handedSets := s.handedSets ++ [ref] })

/-- a new dictionary object for the caller -/
def State.newDict (s : State) (v : Dict) : Answer × State := (.dict s.dicts.length, { s with dicts := s.dicts ++ [v], handedDicts := s.handedDicts ++ [s.dicts.length] })

/-- `RequiredProperties.union`, splinepy/spline.py 124-147: without arguments the attribute itself is returned. -/
def union (s : State) (names : List String) : Answer × State :=
  if names.isEmpty then s.sameSet 0
  else match names.mapM requiredSplineProperties with
    | none => (.error, s)
    | some props => s.newSet (props.foldl (fun acc p => acc ∪ p.toFinset) ∅)

/-- `RequiredProperties.intersection`, splinepy/spline.py 149-172: without arguments the attribute itself is returned. -/
def intersection (s : State) (names : List String) : Answer × State :=
  if names.isEmpty then s.sameSet 1
  else match requiredSplineProperties (names.getLastD ""), names.dropLast.mapM requiredSplineProperties with
    | some last, some props => s.newSet (props.foldl (fun acc p => acc ∩ p.toFinset) last.toFinset)
    | _, _ => (.error, s)

/-- The table `by_dim` starts with, splinepy/microstructure/tiles/__init__.py 120-121. `eval` of the name of a table that does not exist is a `NameError`. -/
def pool (s : State) : Option ℕ → Option Dict
  | none => s.dicts[0]?
  | some d => if 1 ≤ d ∧ d ≤ 3 then s.dicts[d]? else none

/-- `by_dim`, splinepy/microstructure/tiles/__init__.py 103-138. The message that is logged for an empty answer is left out. -/
def byDim (s : State) (paraDim dim : Option ℕ) : Answer × State :=
  match pool s dim, paraDim with
  | none, _ => (.error, s)
  | some p, none => s.newDict p
  | some p, some n => s.newDict (p.filter fun e => e.2.paraDim == n)

/-- one operation of a caller -/
def step (s : State) : Op → Answer × State
  /- `RequiredProperties.of`, splinepy/spline.py 100-122; splines are asked by the name of their class -/
  | .of name => (match requiredSplineProperties name with | some l => .tuple l | none => .error, s)
  | .union names => union s names
  | .intersection names => intersection s names
  /- `Spline.required_properties`, splinepy/spline.py 435-456 -/
  | .requiredProperties typeName => match requiredSplineProperties typeName with
    | some l => (.tuple l, s)
    | none => union s []
  | .changeSet i f => match s.handedSets[i]? with
    | some ref => (.nothing, { s with sets := s.sets.modify ref f })
    | none => (.error, s)
  | .byDim paraDim dim => byDim s paraDim dim
  /- `everything`, splinepy/microstructure/tiles/__init__.py 141-153 -/
  | .everything => s.newDict (s.dicts.getD 0 [])
  /- `get`, splinepy/microstructure/tiles/__init__.py 182-200 -/
  | .get key => (match (s.dicts.getD 0 []).find? (fun e => e.1 == key) with | some e => .tile e.2 | none => .error, s)
  | .changeDict i f => match s.handedDicts[i]? with
    | some ref => (.nothing, { s with dicts := s.dicts.modify ref f })
    | none => (.error, s)

/-- a history of operations -/
def run (s : State) (ops : List Op) : State := ops.foldl (fun s op => (step s op).2) s

end Splinepy.Catalogue
