import Verif.Model.Mesh

/-!
Model of data on splines: `SplineDataAdaptor` and `SplineData` (splinepy/utils/data.py 477-745) and of how `show` attaches them to the sampled spline (splinepy/helpme/visualize.py 230-314).
-/
namespace Splinepy.FieldData
open Splinepy.Index (Spline)
open Splinepy.Spec (Direction directions)
open Splinepy.Mesh

variable {K V : Type} [Field K] [LinearOrder K]

/-- An adaptor without fixed locations: a spline, or some data with a function of the queries; `argument` is the name of the function's second parameter. The parametric bounds are set by the
spline that holds the data (data.py 514-578). -/
inductive Adaptor (K V : Type) where
  | spline (data : Spline K V)
  | function (f : List K → V) (argument : String) (lower upper : List K)

/-- `spline.spline_data[key] = adaptor`, data.py 666-687: the parametric bounds at the time of the assignment are stored. -/
def assign (s : Spline K V) : Adaptor K V → Adaptor K V
  | .spline data => .spline data
  | .function f argument _ _ => .function f argument ((directions s).map (·.lower)) ((directions s).map (·.upper))

/-- `as_vertex_data(resolutions=...)`, data.py 603-621. Functions are called with the keyword argument `on`, which raises (`none`) if their parameter has another name. `evaluate` is the evaluation of
a spline. -/
def asVertexData (evaluate : Spline K V → List K → V) (resolution : List ℕ) : Adaptor K V → Option (List V)
  | .function f argument lower upper =>
    (Index.uniformQuery linspace lower upper resolution).bind fun rows =>
      (rows.mapM fun (row : List (Option K)) => row.mapM id).bind fun queries =>
        if argument = "on" then some (queries.map f) else none
  | .spline data =>
    if 2 < (directions data).length then (volumeFaces evaluate data resolution).map (·.vertices)
    else some (sample (evaluate data) (directions data) resolution)

/-- vertices of the sampled spline, `_sample_spline`, visualize.py 230-254: edges of curves, faces of surfaces and volumes, not merged -/
def shownVertices (evaluate : Spline K V → List K → V) (resolution : List ℕ) (s : Spline K V) : Option (List V) :=
  if (directions s).length = 1 then some (curveEdges [sample (evaluate s) (directions s) resolution] (resolution.getD 0 0)).vertices
  else if (directions s).length = 2 then some (surfaceFaces (evaluate s) (directions s) (resolution.getD 0 0) (resolution.getD 1 0)).vertices
  else (volumeFaces evaluate s resolution).map (·.vertices)

end Splinepy.FieldData
