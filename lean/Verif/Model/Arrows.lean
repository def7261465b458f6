import Verif.Model.FieldData

/-!
Model of vector data shown at given places: adaptors with fixed locations (splinepy/utils/data.py 477-646) and `_sample_arrow_data` (splinepy/helpme/visualize.py 315-400), which places the arrows on the spline.
The case without places (arrows at the vertices of the sampled spline) is in `Model/FieldData`.
-/
namespace Splinepy.Arrows
open Splinepy.Index (Spline)
open Splinepy.Spec (Direction directions)

variable {K V : Type} [Field K] [LinearOrder K]

/-- How the call of a Python function ends. -/
inductive Call (V : Type) where
  | returns (values : List V)
  | typeError
  | otherError

/-- A function given with data: the call with the data and the places, the call with the data alone, and the name of its second parameter. -/
structure Function (K V : Type) where
  both : List (List K) → Call V
  alone : Call V
  argument : String

/-- Data: a spline of splinepy, an object with a method `evaluate` (a multipatch with places is one), a sequence, or something else. -/
inductive Data (K V : Type) where
  | spline (data : Spline K V)
  | evaluates (f : List (List K) → Option (List V))
  | sequence (values : List V)
  | other

/-- data.py 509-520 (parametric bounds are not needed at given places) -/
structure Adaptor (K V : Type) where
  data : Data K V
  function : Option (Function K V)
  locations : Option (List (List K))

/-- `SplineDataAdaptor(data, locations, function)`, data.py 522-578. `none`: ValueError. -/
def construct (data : Data K V) (function : Option (Function K V)) (locations : Option (List (List K))) : Option (Adaptor K V) :=
  let isSpline := match data with | .spline _ => true | _ => false
  let hasEvaluate := match data with | .spline _ => true | .evaluates _ => true | _ => false
  match locations with
  | some ls =>
    let lenMatches := match data with | .sequence vs => ls.length == vs.length | _ => false
    if !isSpline && function.isNone && !(hasEvaluate || lenMatches) then none else some ⟨data, function, locations⟩
  | none => if function.isNone && !isSpline then none else some ⟨data, function, locations⟩

/-- `spline.evaluate(queries)`: raises for queries of another dimension. -/
def evaluateAll (evaluate : Spline K V → List K → V) (s : Spline K V) (queries : List (List K)) : Option (List V) :=
  if ∀ q ∈ queries, q.length = (directions s).length then some (queries.map (evaluate s)) else none

/-- what a call returns; exceptions are `none` -/
def Call.result : Call V → Option (List V)
  | .returns vs => some vs
  | _ => none

/-- `as_vertex_data(on=...)` and `as_vertex_data()`, data.py 590-646. With fixed locations the function is called with the places, and once more without them if that raises a TypeError; with places of the call
the function is called with the keyword `on`. -/
def values (evaluate : Spline K V → List K → V) (a : Adaptor K V) (on : Option (List (List K))) : Option (List V) :=
  match on with
  | some queries =>
    if a.locations.isSome then none
    else match a.function with
      | some f => if f.argument = "on" then (f.both queries).result else none
      | none => match a.data with
        | .spline d => evaluateAll evaluate d queries
        | .evaluates g => g queries
        | _ => none
  | none => match a.locations with
    | none => none
    | some ls => match a.function with
      | some f => match f.both ls with
        | .typeError => f.alone.result
        | c => c.result
      | none => match a.data with
        | .spline d => evaluateAll evaluate d ls
        | .evaluates g => g ls
        | .sequence vs => some vs
        | .other => none

/-- The option `arrow_data_on` (visualize.py 106-111): an array, or a list or tuple. -/
inductive Places (K : Type) where
  | array (rows : List (List K))
  | sequence (rows : List (List K))

/-- smallest (`min`) or largest (`max`) entry of a column, `queries.min(axis=0)` -/
def column (f : K → K → K) (first : List K) (rest : List (List K)) (k : ℕ) : K := rest.foldl (fun m r => f m (r.getD k 0)) (first.getD k 0)

/-- The check of the places for a spline, visualize.py 362-380: `true` if nothing is raised. The minimum of no rows raises. -/
def check (tol : K) (s : Spline K V) (queries : List (List K)) : Bool :=
  match queries with
  | [] => false
  | first :: rest =>
    let ds := directions s
    if first.length ≠ ds.length then false
    else !((List.range ds.length).any (fun k => decide (column min first rest k - (ds.map (·.lower)).getD k 0 + tol < 0)) ||
      (List.range ds.length).any (fun k => decide (0 < column max first rest k - (ds.map (·.upper)).getD k 0 - tol)))

/-- `_sample_arrow_data`, visualize.py 315-400, for a spline: `none` if it raises, `some none` if the arrows are put on the vertices of the sampled spline, else the vertices that are created and their data. A list or tuple
has no attribute `shape`. (Data that are no adaptor when assigned are wrapped without locations, data.py 679-682.) That the numbers of vertices and data agree is checked by gustaf, which is not modelled. -/
def sampleArrows (evaluate : Spline K V → List K → V) (tol : K) (s : Spline K V) (a : Adaptor K V) (arrowDataOn : Option (Places K)) : Option (Option (List V × List V)) :=
  match a.locations, arrowDataOn with
  | some _, some _ => none
  | none, none => some none
  | some ls, none =>
    if check tol s ls then (values evaluate a none).bind fun vs => (evaluateAll evaluate s ls).map fun ps => some (ps, vs) else none
  | none, some (.array rows) =>
    if check tol s rows then (values evaluate a (some rows)).bind fun vs => (evaluateAll evaluate s rows).map fun ps => some (ps, vs) else none
  | none, some (.sequence _) => none

/-- `Multipatch.evaluate(queries)`: the points of all patches, one patch after the other (splinepy/multipatch.py 628-647). -/
def evaluatePatches (evaluate : Spline K V → List K → V) (patches : List (Spline K V)) (queries : List (List K)) : Option (List V) :=
  (patches.mapM fun s => evaluateAll evaluate s queries).map List.flatten

/-- `_sample_arrow_data` for a multipatch with data at fixed locations: no check (visualize.py 362), the option `arrow_data_on` does not exist. -/
def samplePatchArrows (evaluate : Spline K V → List K → V) (patches : List (Spline K V)) (a : Adaptor K V) : Option (Option (List V × List V)) :=
  match a.locations with
  | none => some none
  | some ls => (values evaluate a none).bind fun vs => (evaluatePatches evaluate patches ls).map fun ps => some (ps, vs)

end Splinepy.Arrows
