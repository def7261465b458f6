import Verif.Model.Mismatch
import Mathlib.Algebra.Field.Basic

/-!
Model of the creation of splines from properties (`src/splines/splinepy_base.cpp` 38-372, `src/splines/create/*.cpp`) and of fields with missing entries
(`include/splinepy/splines/null_spline.hpp`, `src/py/py_multipatch.cpp` 58-101, 1104-1175, 1335-1394, 1397-1428).

`more` says whether the library is compiled with `SPLINEPY_MORE` (`CMakeLists.txt` 12: the default). C++ `int` is unbounded here.
-/
namespace Splinepy.Dispatch

/-- the four class templates (include/splinepy/splines/{bezier,rational_bezier,bspline,nurbs}.hpp) -/
inductive Kind where
  | bezier | rationalBezier | bspline | nurbs
deriving DecidableEq, Repr

/-- what is created: class and the dimensions it reports; for `Bezier` and `RationalBezier` both are template arguments, for `BSpline` and `Nurbs` the physical
dimension is an argument of the constructor (src/splines/splinepy_base.cpp 77-371) -/
structure Created where
  kind : Kind
  paraDim : ℕ
  dim : ℤ
deriving DecidableEq, Repr

/-- a `switch` whose `default` throws (src/splines/splinepy_base.cpp 77-371, src/splines/create/bezier1.cpp 34-68) -/
def switchOn {α : Type} (x : ℤ) (cases : List (ℤ × α)) : Option α := (cases.find? (fun c => decide (c.1 = x))).map (·.2)

/-- `std::make_shared<Bezier<para_dim, dim>>` (src/splines/create/bezier1.cpp 35-57) -/
def Bezier (p : ℕ) (d : ℤ) : Created := ⟨.bezier, p, d⟩

/-- `std::make_shared<RationalBezier<para_dim, dim>>` (src/splines/create/rational_bezier1.cpp 35-75) -/
def RationalBezier (p : ℕ) (d : ℤ) : Created := ⟨.rationalBezier, p, d⟩

/-- `CreateBezier1` (src/splines/create/bezier1.cpp 29-71) -/
def createBezier1 (more : Bool) (dim : ℤ) : Option Created :=
  switchOn dim ([(1, Bezier 1 1), (2, Bezier 1 2), (3, Bezier 1 3)] ++
    (if more then [(4, Bezier 1 4), (5, Bezier 1 5), (6, Bezier 1 6), (7, Bezier 1 7), (8, Bezier 1 8), (9, Bezier 1 9), (10, Bezier 1 10)] else []))

/-- `CreateBezier2` (src/splines/create/bezier2.cpp 29-71) -/
def createBezier2 (more : Bool) (dim : ℤ) : Option Created :=
  switchOn dim ([(1, Bezier 2 1), (2, Bezier 2 2), (3, Bezier 2 3)] ++
    (if more then [(4, Bezier 2 4), (5, Bezier 2 5), (6, Bezier 2 6), (7, Bezier 2 7), (8, Bezier 2 8), (9, Bezier 2 9), (10, Bezier 2 10)] else []))

/-- `CreateBezier3` (src/splines/create/bezier3.cpp 29-71) -/
def createBezier3 (more : Bool) (dim : ℤ) : Option Created :=
  switchOn dim ([(1, Bezier 3 1), (2, Bezier 3 2), (3, Bezier 3 3)] ++
    (if more then [(4, Bezier 3 4), (5, Bezier 3 5), (6, Bezier 3 6), (7, Bezier 3 7), (8, Bezier 3 8), (9, Bezier 3 9), (10, Bezier 3 10)] else []))

/-- `CreateBezier4` (src/splines/create/bezier4.cpp 29-71) -/
def createBezier4 (more : Bool) (dim : ℤ) : Option Created :=
  switchOn dim ([(1, Bezier 4 1), (2, Bezier 4 2), (3, Bezier 4 3)] ++
    (if more then [(4, Bezier 4 4), (5, Bezier 4 5), (6, Bezier 4 6), (7, Bezier 4 7), (8, Bezier 4 8), (9, Bezier 4 9), (10, Bezier 4 10)] else []))

/-- `CreateBezier5` (src/splines/create/bezier5.cpp 29-71) -/
def createBezier5 (more : Bool) (dim : ℤ) : Option Created :=
  switchOn dim ([(1, Bezier 5 1), (2, Bezier 5 2), (3, Bezier 5 3)] ++
    (if more then [(4, Bezier 5 4), (5, Bezier 5 5), (6, Bezier 5 6), (7, Bezier 5 7), (8, Bezier 5 8), (9, Bezier 5 9), (10, Bezier 5 10)] else []))

/-- `CreateBezier6` (src/splines/create/bezier6.cpp 29-71) -/
def createBezier6 (more : Bool) (dim : ℤ) : Option Created :=
  switchOn dim ([(1, Bezier 6 1), (2, Bezier 6 2), (3, Bezier 6 3)] ++
    (if more then [(4, Bezier 6 4), (5, Bezier 6 5), (6, Bezier 6 6), (7, Bezier 6 7), (8, Bezier 6 8), (9, Bezier 6 9), (10, Bezier 6 10)] else []))

/-- `CreateBezier7` (src/splines/create/bezier7.cpp 29-71) -/
def createBezier7 (more : Bool) (dim : ℤ) : Option Created :=
  switchOn dim ([(1, Bezier 7 1), (2, Bezier 7 2), (3, Bezier 7 3)] ++
    (if more then [(4, Bezier 7 4), (5, Bezier 7 5), (6, Bezier 7 6), (7, Bezier 7 7), (8, Bezier 7 8), (9, Bezier 7 9), (10, Bezier 7 10)] else []))

/-- `CreateBezier8` (src/splines/create/bezier8.cpp 29-71) -/
def createBezier8 (more : Bool) (dim : ℤ) : Option Created :=
  switchOn dim ([(1, Bezier 8 1), (2, Bezier 8 2), (3, Bezier 8 3)] ++
    (if more then [(4, Bezier 8 4), (5, Bezier 8 5), (6, Bezier 8 6), (7, Bezier 8 7), (8, Bezier 8 8), (9, Bezier 8 9), (10, Bezier 8 10)] else []))

/-- `CreateBezier9` (src/splines/create/bezier9.cpp 29-71) -/
def createBezier9 (more : Bool) (dim : ℤ) : Option Created :=
  switchOn dim ([(1, Bezier 9 1), (2, Bezier 9 2), (3, Bezier 9 3)] ++
    (if more then [(4, Bezier 9 4), (5, Bezier 9 5), (6, Bezier 9 6), (7, Bezier 9 7), (8, Bezier 9 8), (9, Bezier 9 9), (10, Bezier 9 10)] else []))

/-- `CreateBezier10` (src/splines/create/bezier10.cpp 29-71) -/
def createBezier10 (more : Bool) (dim : ℤ) : Option Created :=
  switchOn dim ([(1, Bezier 10 1), (2, Bezier 10 2), (3, Bezier 10 3)] ++
    (if more then [(4, Bezier 10 4), (5, Bezier 10 5), (6, Bezier 10 6), (7, Bezier 10 7), (8, Bezier 10 8), (9, Bezier 10 9), (10, Bezier 10 10)] else []))

/-- `CreateRationalBezier1` (src/splines/create/rational_bezier1.cpp 29-95) -/
def createRationalBezier1 (more : Bool) (dim : ℤ) : Option Created :=
  switchOn dim ([(1, RationalBezier 1 1), (2, RationalBezier 1 2), (3, RationalBezier 1 3)] ++
    (if more then [(4, RationalBezier 1 4), (5, RationalBezier 1 5), (6, RationalBezier 1 6), (7, RationalBezier 1 7), (8, RationalBezier 1 8), (9, RationalBezier 1 9), (10, RationalBezier 1 10)] else []))

/-- `CreateRationalBezier2` (src/splines/create/rational_bezier2.cpp 29-95) -/
def createRationalBezier2 (more : Bool) (dim : ℤ) : Option Created :=
  switchOn dim ([(1, RationalBezier 2 1), (2, RationalBezier 2 2), (3, RationalBezier 2 3)] ++
    (if more then [(4, RationalBezier 2 4), (5, RationalBezier 2 5), (6, RationalBezier 2 6), (7, RationalBezier 2 7), (8, RationalBezier 2 8), (9, RationalBezier 2 9), (10, RationalBezier 2 10)] else []))

/-- `CreateRationalBezier3` (src/splines/create/rational_bezier3.cpp 29-95) -/
def createRationalBezier3 (more : Bool) (dim : ℤ) : Option Created :=
  switchOn dim ([(1, RationalBezier 3 1), (2, RationalBezier 3 2), (3, RationalBezier 3 3)] ++
    (if more then [(4, RationalBezier 3 4), (5, RationalBezier 3 5), (6, RationalBezier 3 6), (7, RationalBezier 3 7), (8, RationalBezier 3 8), (9, RationalBezier 3 9), (10, RationalBezier 3 10)] else []))

/-- `CreateRationalBezier4` (src/splines/create/rational_bezier4.cpp 29-95) -/
def createRationalBezier4 (more : Bool) (dim : ℤ) : Option Created :=
  switchOn dim ([(1, RationalBezier 4 1), (2, RationalBezier 4 2), (3, RationalBezier 4 3)] ++
    (if more then [(4, RationalBezier 4 4), (5, RationalBezier 4 5), (6, RationalBezier 4 6), (7, RationalBezier 4 7), (8, RationalBezier 4 8), (9, RationalBezier 4 9), (10, RationalBezier 4 10)] else []))

/-- `CreateRationalBezier5` (src/splines/create/rational_bezier5.cpp 29-95) -/
def createRationalBezier5 (more : Bool) (dim : ℤ) : Option Created :=
  switchOn dim ([(1, RationalBezier 5 1), (2, RationalBezier 5 2), (3, RationalBezier 5 3)] ++
    (if more then [(4, RationalBezier 5 4), (5, RationalBezier 5 5), (6, RationalBezier 5 6), (7, RationalBezier 5 7), (8, RationalBezier 5 8), (9, RationalBezier 5 9), (10, RationalBezier 5 10)] else []))

/-- `CreateRationalBezier6` (src/splines/create/rational_bezier6.cpp 29-95) -/
def createRationalBezier6 (more : Bool) (dim : ℤ) : Option Created :=
  switchOn dim ([(1, RationalBezier 6 1), (2, RationalBezier 6 2), (3, RationalBezier 6 3)] ++
    (if more then [(4, RationalBezier 6 4), (5, RationalBezier 6 5), (6, RationalBezier 6 6), (7, RationalBezier 6 7), (8, RationalBezier 6 8), (9, RationalBezier 6 9), (10, RationalBezier 6 10)] else []))

/-- `CreateRationalBezier7` (src/splines/create/rational_bezier7.cpp 29-95) -/
def createRationalBezier7 (more : Bool) (dim : ℤ) : Option Created :=
  switchOn dim ([(1, RationalBezier 7 1), (2, RationalBezier 7 2), (3, RationalBezier 7 3)] ++
    (if more then [(4, RationalBezier 7 4), (5, RationalBezier 7 5), (6, RationalBezier 7 6), (7, RationalBezier 7 7), (8, RationalBezier 7 8), (9, RationalBezier 7 9), (10, RationalBezier 7 10)] else []))

/-- `CreateRationalBezier8` (src/splines/create/rational_bezier8.cpp 29-95) -/
def createRationalBezier8 (more : Bool) (dim : ℤ) : Option Created :=
  switchOn dim ([(1, RationalBezier 8 1), (2, RationalBezier 8 2), (3, RationalBezier 8 3)] ++
    (if more then [(4, RationalBezier 8 4), (5, RationalBezier 8 5), (6, RationalBezier 8 6), (7, RationalBezier 8 7), (8, RationalBezier 8 8), (9, RationalBezier 8 9), (10, RationalBezier 8 10)] else []))

/-- `CreateRationalBezier9` (src/splines/create/rational_bezier9.cpp 29-95) -/
def createRationalBezier9 (more : Bool) (dim : ℤ) : Option Created :=
  switchOn dim ([(1, RationalBezier 9 1), (2, RationalBezier 9 2), (3, RationalBezier 9 3)] ++
    (if more then [(4, RationalBezier 9 4), (5, RationalBezier 9 5), (6, RationalBezier 9 6), (7, RationalBezier 9 7), (8, RationalBezier 9 8), (9, RationalBezier 9 9), (10, RationalBezier 9 10)] else []))

/-- `CreateRationalBezier10` (src/splines/create/rational_bezier10.cpp 29-95) -/
def createRationalBezier10 (more : Bool) (dim : ℤ) : Option Created :=
  switchOn dim ([(1, RationalBezier 10 1), (2, RationalBezier 10 2), (3, RationalBezier 10 3)] ++
    (if more then [(4, RationalBezier 10 4), (5, RationalBezier 10 5), (6, RationalBezier 10 6), (7, RationalBezier 10 7), (8, RationalBezier 10 8), (9, RationalBezier 10 9), (10, RationalBezier 10 10)] else []))

/-- `SplinepyCreateBezier` (src/splines/splinepy_base.cpp 77-138) -/
def createBezier (more : Bool) (paraDim dim : ℤ) : Option Created :=
  (switchOn paraDim ([(1, createBezier1 more dim), (2, createBezier2 more dim), (3, createBezier3 more dim)] ++
    (if more then [(4, createBezier4 more dim), (5, createBezier5 more dim), (6, createBezier6 more dim), (7, createBezier7 more dim), (8, createBezier8 more dim), (9, createBezier9 more dim), (10, createBezier10 more dim)] else []))).bind id

/-- `SplinepyCreateRationalBezier` (src/splines/splinepy_base.cpp 140-217) -/
def createRationalBezier (more : Bool) (paraDim dim : ℤ) : Option Created :=
  (switchOn paraDim ([(1, createRationalBezier1 more dim), (2, createRationalBezier2 more dim), (3, createRationalBezier3 more dim)] ++
    (if more then [(4, createRationalBezier4 more dim), (5, createRationalBezier5 more dim), (6, createRationalBezier6 more dim), (7, createRationalBezier7 more dim), (8, createRationalBezier8 more dim), (9, createRationalBezier9 more dim), (10, createRationalBezier10 more dim)] else []))).bind id

/-- `SplinepyCreateBSpline` (src/splines/splinepy_base.cpp 219-295) -/
def createBSpline (more : Bool) (paraDim dim : ℤ) : Option Created :=
  (switchOn paraDim ([(1, some ⟨.bspline, 1, dim⟩), (2, some ⟨.bspline, 2, dim⟩), (3, some ⟨.bspline, 3, dim⟩)] ++
    (if more then [(4, some ⟨.bspline, 4, dim⟩), (5, some ⟨.bspline, 5, dim⟩), (6, some ⟨.bspline, 6, dim⟩), (7, some ⟨.bspline, 7, dim⟩), (8, some ⟨.bspline, 8, dim⟩), (9, some ⟨.bspline, 9, dim⟩), (10, some ⟨.bspline, 10, dim⟩)] else []))).bind id

/-- `SplinepyCreateNurbs` (src/splines/splinepy_base.cpp 297-372) -/
def createNurbs (more : Bool) (paraDim dim : ℤ) : Option Created :=
  (switchOn paraDim ([(1, some ⟨.nurbs, 1, dim⟩), (2, some ⟨.nurbs, 2, dim⟩), (3, some ⟨.nurbs, 3, dim⟩)] ++
    (if more then [(4, some ⟨.nurbs, 4, dim⟩), (5, some ⟨.nurbs, 5, dim⟩), (6, some ⟨.nurbs, 6, dim⟩), (7, some ⟨.nurbs, 7, dim⟩), (8, some ⟨.nurbs, 8, dim⟩), (9, some ⟨.nurbs, 9, dim⟩), (10, some ⟨.nurbs, 10, dim⟩)] else []))).bind id

/-- `SplinepyCreate` (src/splines/splinepy_base.cpp 37-75); the flags say which pointers are given. `none`: exception. -/
def create (more degrees knotVectors controlPoints weights : Bool) (paraDim dim : ℤ) : Option Created :=
  if !degrees || !controlPoints then none
  else if !knotVectors then
    if !weights then createBezier more paraDim dim else createRationalBezier more paraDim dim
  else
    if !weights then createBSpline more paraDim dim else createNurbs more paraDim dim

/-- `kMaxLookupDim` (include/splinepy/splines/null_spline.hpp 129-133) -/
def maxLookupDim (more : Bool) : ℕ := if more then 3 else 10

/-- attributes of the null spline made for index `(i, j)` of the table (include/splinepy/splines/null_spline.hpp 57-59, 138-150): `NullSpline(i + 1, j + 1)` -/
def nullAttributes (i j : ℕ) : Mismatch.Patch := ⟨"NullSpline", i + 1, j + 1, [], [], true⟩

/-- `kNullSplineLookup[para_dim - 1][dim - 1]` (include/splinepy/splines/null_spline.hpp 135-155); `none`: index outside of the `std::array` (undefined behaviour).
An `int` index is converted to `std::size_t`, so that −1 is outside as well. -/
def nullLookup (more : Bool) (paraDim dim : ℤ) : Option Mismatch.Patch :=
  if 0 ≤ paraDim - 1 ∧ paraDim - 1 < maxLookupDim more ∧ 0 ≤ dim - 1 ∧ dim - 1 < maxLookupDim more then
    some (nullAttributes (paraDim - 1).toNat (dim - 1).toNat)
  else none

/-- a core spline: attributes, evaluation (`SplinepyEvaluate` fills as many numbers as the list has) and its boundaries (`SplinepyExtractBoundary`, by number,
given by their attributes) (include/splinepy/splines/splinepy_base.hpp 60-420) -/
structure Core (K : Type) where
  attrs : Mismatch.Patch
  eval : List K → List K
  boundary : ℕ → Mismatch.Patch

variable {K : Type} [Field K]

/-- the null spline with given attributes: evaluation fills `dim` zeros (include/splinepy/splines/null_spline.hpp 108-112). Its boundaries are looked up
separately (`boundaryOf`). -/
def nullCore (a : Mismatch.Patch) : Core K := { attrs := a, eval := fun _ => List.replicate a.dim 0, boundary := fun _ => a }

/-- `SplinepyExtractBoundary`: of a null spline (include/splinepy/splines/null_spline.hpp 119-124), of another spline (contract: succeeds) -/
def boundaryOf (more : Bool) (c : Core K) (j : ℕ) : Option Mismatch.Patch :=
  if c.attrs.isNull then nullLookup more ((c.attrs.paraDim : ℤ) - 1) c.attrs.dim else some (c.boundary j)

/-- conversion of the entries of a field (src/py/py_multipatch.cpp 58-86) -/
def toCores (more : Bool) (paraDim fieldDim : ℤ) (entries : List (Option (Core K))) : Option (List (Core K)) :=
  entries.mapM fun e =>
    match e with
    | some c => some c
    | none => (nullLookup more paraDim fieldDim).map nullCore

/-- `SetPatchesWithNullSplines` (src/py/py_multipatch.cpp 1104-1126) followed by the comparison with the patches of `AddFields` (1569-1584); `none`: exception or
undefined behaviour -/
def makeField (more : Bool) (patches : List Mismatch.Patch) (fieldDim : ℤ) (checkName checkDims checkDegrees checkCmr : Bool)
    (entries : List (Option (Core K))) : Option (List (Core K)) :=
  match toCores more ((patches.headD default).paraDim) fieldDim entries with
  | none => none
  | some cores =>
    match Mismatch.checkField (cores.map (·.attrs)) with
    | some (some _) =>
      match Mismatch.raiseMismatch2 0 patches (cores.map (·.attrs)) checkName checkDims fieldDim checkDegrees checkCmr 1 with
      | some .ok => some cores
      | _ => none
    | _ => none

/-- writing consecutive numbers into an array; `none`: beyond its end (include/splinepy/splines/null_spline.hpp 111, `std::fill_n`) -/
def writeAt (buf : List K) (off : ℕ) (vals : List K) : Option (List K) :=
  if off + vals.length ≤ buf.length then some (buf.take off ++ vals ++ buf.drop (off + vals.length)) else none

/-- one step of `Evaluate` (src/py/py_multipatch.cpp 1416-1421) -/
def evaluateStep (cores : List (Core K)) (queries : List (List K)) (dim : ℕ) (buf : List K) (i : ℕ) : Option (List K) :=
  match cores[i / queries.length]?, queries[i % queries.length]? with
  | some c, some q => writeAt buf ((i / queries.length * queries.length + i % queries.length) * dim) (c.eval q)
  | _, _ => none

/-- `PyMultipatch::Evaluate` (src/py/py_multipatch.cpp 1397-1428); `order` is the order in which the threads happen to execute the steps, `buf` the (uninitialised)
content of the new array; the width of the array is the dimension of the first patch. Simplification: the steps are atomic. -/
def evaluate (cores : List (Core K)) (queries : List (List K)) (order : List ℕ) (buf : List K) : Option (List K) :=
  match cores with
  | [] => none
  | c0 :: _ => order.foldlM (evaluateStep cores queries c0.attrs.dim) buf

/-- keys of `settings.NAME_TO_TYPE` (splinepy/settings.py 16-22) -/
def typeNames : List String := ["Bezier", "RationalBezier", "BSpline", "NURBS", "Multipatch"]

/-- `ToPySplineList` (src/py/py_multipatch.cpp 88-101): `to_derived` looks up the name (splinepy/__init__.py 52) and raises `KeyError` if it is missing -/
def toPySplineList (bs : List Mismatch.Patch) : Mismatch.Outcome (List Mismatch.Patch) :=
  if bs.all (fun b => decide (b.name ∈ typeNames)) then .returned bs else .raised []

/-- `SubMultipatch` (src/py/py_multipatch.cpp 1128-1167) -/
def subMultipatch (more : Bool) (cores : List (Core K)) : Mismatch.Outcome (List Mismatch.Patch) :=
  match cores with
  | [] => .raised []
  | c0 :: _ =>
    match (cores.flatMap fun c => (List.range (c0.attrs.paraDim * 2)).map fun j => (c, j)).mapM (fun x => boundaryOf more x.1 x.2) with
    | none => .crashed
    | some bs => toPySplineList bs

/-- `BoundaryMultipatch` (src/py/py_multipatch.cpp 1335-1379) for given ids of boundary patches -/
def boundaryMultipatch (more : Bool) (cores : List (Core K)) (ids : List ℕ) : Mismatch.Outcome (List Mismatch.Patch) :=
  match cores with
  | [] => .raised []
  | c0 :: _ =>
    match ids.mapM (fun i => (cores[i / (c0.attrs.paraDim * 2)]?).bind fun c => boundaryOf more c (i % (c0.attrs.paraDim * 2))) with
    | none => .crashed
    | some bs => toPySplineList bs

end Splinepy.Dispatch
