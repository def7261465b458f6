import Verif.Model.FieldData

/-!
Model of the data of multipatches: `MultipatchData` (splinepy/utils/data.py 748-875), the list of fields of a multipatch (src/py/py_multipatch.cpp 1071-1082, 1085-1110, 1535-1608;
include/splinepy/py/py_multipatch.hpp 295-318, 439; splinepy/multipatch.py 32-65, 77-79, 529-595) and of what is shown for it.
-/
namespace Splinepy.MultipatchData

variable {P A : Type}

/-- What `_saved` holds for a key: the number of a field, or an adaptor (data.py 778-790). -/
inductive Saved (A : Type) where
  | id (n : Int)
  | adaptor (a : A)

/-- What is assigned: a multipatch (its patches), the number of a field, or an adaptor (data.py 776-795; everything else raises before anything is stored). -/
inductive Value (P A : Type) where
  | multipatch (field : List P)
  | number (n : Int)
  | adaptor (a : A)

/-- What reading gives: a field (the patches of the multipatch) or an adaptor (data.py 797-823). -/
inductive Result (P A : Type) where
  | field (patches : List P)
  | adaptor (a : A)

/-- A multipatch: its patches, its list of fields (a Python list, `list` is its address), the dictionary of its data. -/
structure Obj (P A : Type) where
  patches : List P
  list : ℕ
  saved : String → Option (Saved A)

/-- All multipatches and all lists of fields. -/
structure World (P A : Type) where
  lists : List (List (List P)) := []
  objs : List (Obj P A) := []

variable (accepts : List P → List P → Bool)

/-- `Multipatch(splines)`: a new list of fields, no data (multipatch.py 32-65, py_multipatch.hpp 266-276). -/
def create (w : World P A) (patches : List P) : World P A :=
  { lists := w.lists ++ [[]], objs := w.objs ++ [⟨patches, w.lists.length, fun _ => none⟩] }

/-- `Multipatch(spline=other)`: references to the patches and to the same list of fields, no data (multipatch.py 52-55, py_multipatch.hpp 295-318). -/
def derive (w : World P A) (i : ℕ) : World P A :=
  match w.objs[i]? with
  | some o => { w with objs := w.objs ++ [⟨o.patches, o.list, fun _ => none⟩] }
  | none => w

/-- `m.patches = ...` and `m.clear()` (the latter with no patches): the multipatch gets a new list of fields, the data are untouched (multipatch.py 77-79, py_multipatch.cpp 1071-1110). Patches of
different dimensions raise after they have been stored; the model stores them, too. -/
def setPatches (w : World P A) (i : ℕ) (patches : List P) : World P A :=
  match w.objs[i]? with
  | some o => { lists := w.lists ++ [[]], objs := w.objs.set i { o with patches := patches, list := w.lists.length } }
  | none => w

/-- `m.add_fields([...])` (multipatch.py 529-579, py_multipatch.cpp 1535-1608): if every field is accepted (C18 says when), the list is extended in place; otherwise nothing is changed and the call
raises (`false`). A multipatch without patches raises. -/
def addFields (w : World P A) (i : ℕ) (fields : List (List P)) : World P A × Bool :=
  match w.objs[i]? with
  | some o =>
    match w.lists[o.list]? with
    | some l =>
      if o.patches ≠ [] ∧ ∀ f ∈ fields, accepts o.patches f = true then ({ w with lists := w.lists.set o.list (l ++ fields) }, true)
      else (w, false)
    | none => (w, false)
  | none => (w, false)

/-- `_saved[key] = value` (data.py 777, 782, 788). -/
def save (w : World P A) (i : ℕ) (key : String) (s : Saved A) : World P A :=
  match w.objs[i]? with
  | some o => { w with objs := w.objs.set i { o with saved := fun k => if k = key then some s else o.saved k } }
  | none => w

/-- `m.spline_data[key] = value` (data.py 766-795); the second component tells whether the call returned. The entry is made first: before the multipatch is added to the fields, and before the bounds of
the first patch are read for an adaptor (`assign` of `FieldData` sets them). -/
def setItem (w : World P A) (i : ℕ) (key : String) : Value P A → World P A × Bool
  | .adaptor a =>
    match w.objs[i]? with
    | some o => (save w i key (.adaptor a), !o.patches.isEmpty)
    | none => (w, false)
  | .multipatch f =>
    match w.objs[i]? with
    | some o =>
      match w.lists[o.list]? with
      | some l => addFields accepts (save w i key (.id l.length)) i [f]
      | none => (w, false)
    | none => (w, false)
  | .number n =>
    match w.objs[i]? with
    | some _ => (save w i key (.id n), true)
    | none => (w, false)

/-- Python's `list[n]`: negative numbers count from the end, others raise. (data.py 812, 816) -/
def pyIndex {α : Type} (l : List α) (n : Int) : Option α :=
  if 0 ≤ n then l[n.toNat]? else if -(l.length : Int) ≤ n then l[(l.length + n).toNat]? else none

/-- `m.spline_data[key]` for a string (data.py 797-823); `none` is an exception. -/
def getItem (w : World P A) (i : ℕ) (key : String) : Option (Result P A) :=
  w.objs[i]?.bind fun o =>
    match o.saved key with
    | none => none
    | some (.adaptor a) => some (.adaptor a)
    | some (.id n) => (w.lists[o.list]?.bind fun l => pyIndex l n).map .field

/-- `m.fields[n]` (multipatch.py 581-595) and `m.spline_data[n]` for a number (data.py 811-812). -/
def fieldAt (w : World P A) (i : ℕ) (n : Int) : Option (List P) :=
  w.objs[i]?.bind fun o => w.lists[o.list]?.bind fun l => pyIndex l n

/-- Calls. (splinepy/multipatch.py 32-65, 77-79, 529-579; splinepy/utils/data.py 766-795) -/
inductive Op (P A : Type) where
  | create (patches : List P)
  | derive (i : ℕ)
  | setPatches (i : ℕ) (patches : List P)
  | addFields (i : ℕ) (fields : List (List P))
  | setItem (i : ℕ) (key : String) (value : Value P A)

/-- One call; exceptions are caught by the user. (splinepy/multipatch.py 32-65, 77-79, 529-579; splinepy/utils/data.py 766-795) -/
def step (w : World P A) : Op P A → World P A
  | .create ps => create w ps
  | .derive i => derive w i
  | .setPatches i ps => setPatches w i ps
  | .addFields i fs => (addFields accepts w i fs).1
  | .setItem i key v => (setItem accepts w i key v).1

/-- A history of calls. (splinepy/multipatch.py 32-65, 77-79, 529-579; splinepy/utils/data.py 766-795) -/
def run (w : World P A) (ops : List (Op P A)) : World P A := ops.foldl (step accepts) w

end Splinepy.MultipatchData

namespace Splinepy.FieldData
open Splinepy.Index (Spline)
open Splinepy.Spec (Direction directions)
open Splinepy.Mesh

variable {K V : Type} [Field K] [LinearOrder K]

/-- vertices of a shown multipatch of curves or surfaces, visualize.py 230-254, extract.py 41-60, 174-194: for an integer resolution the samples of the patches, one after another. -/
def shownMultipatch (evaluate : Spline K V → List K → V) (r : ℕ) (patches : List (Spline K V)) : Option (List V) :=
  if (patches.head?.map fun p => (directions p).length) = some 1 then some (curveEdges (patches.map fun p => sample (evaluate p) (directions p) [r]) r).vertices
  else if (patches.head?.map fun p => (directions p).length) = some 2 then (multipatchFaces evaluate patches (.int r)).map (·.vertices)
  else none

/-- `m.spline_data.as_scalar(key, resolution)` for a multipatch of curves or surfaces as data (data.py 825-849, 619-621; multipatch.py 597-626; py_multipatch.cpp 1435-1533 with bounds of each patch): the
samples of the patches. -/
def multipatchScalar (evaluate : Spline K V → List K → V) (r : ℕ) (data : List (Spline K V)) : List V :=
  data.flatMap fun p => sample (evaluate p) (directions p) (List.replicate (directions p).length r)

/-- `m.spline_data.as_scalar(key, resolution)` for an adaptor with a function (data.py 776-779, 825-849, 603-614): the function is evaluated on the grid in the bounds of the first patch. -/
def multipatchFunction (evaluate : Spline K V → List K → V) (patches : List (Spline K V)) (f : List K → V) (r : ℕ) : Option (List V) :=
  patches.head?.bind fun p => asVertexData evaluate (List.replicate (directions p).length r) (assign p (.function f "on" [] []))

end Splinepy.FieldData
