import Mathlib.Data.Nat.Notation
import Verif.Model.ShowOptions

/-!
Model of what `show` and `showable` of splines and multipatches (splinepy/helpme/visualize.py 457-609, splinepy/spline.py 1678-1714, splinepy/multipatch.py 449-472) and of FFD objects
(splinepy/helpme/ffd.py 264-359) return or put into a window. The sampling functions themselves are modelled elsewhere (`Mesh`, `FieldData`, `Arrows`, `ControlMesh`); here they are assumed to
succeed, and only which objects are made is followed. Options and keyword arguments are booleans; of options with other values (`arrow_data`, `arrow_data_on`) only whether they are given matters.
`gustaf` (windows, backend objects, option classes) is external.
-/
namespace Splinepy.Display
open Splinepy.ShowOptions

/-- the keys of the dictionary of shown objects (visualize.py 476-518, 591) -/
inductive Element where
  | spline
  | knots
  | arrowData
  | controlPoints
  | controlPointIds
  | controlMesh
  | fittingQueries
  | parametricSpline
deriving DecidableEq

/-- What `show` reads of a spline or multipatch: the number of its dimensions, the attribute `_fitting_queries` (bspline.py 459; no function of the library sets it), whether the arrow data have
locations (visualize.py 331), the options (visualize.py 548-587). -/
structure Subject where
  multipatch : Bool
  paraDim : ℕ
  dim : ℕ
  fittingQueries : Bool
  located : Bool
  options : Options Bool

/-- the boolean and arrow options of `_vedo_spline_common_options` and of the two option classes, visualize.py 20-113, 135-147; the options of multipatches lack two -/
def valid (multipatch : Bool) (key : String) : Bool :=
  key ∈ ["knots", "control_points", "control_point_ids", "control_mesh", "arrow_data"] || (!multipatch && key ∈ ["fitting_queries", "arrow_data_on"])

/-- `make_showable`, visualize.py 457-520: the objects in the order in which they are made -/
def makeShowable (s : Subject) (o : Options Bool) : List Element :=
  let showCps := (o "control_points").getD true
  [.spline] ++ (if (o "knots").getD true then [.knots] else [])
    ++ (if (o "arrow_data").isSome && (s.located || (o "arrow_data_on").isSome) then [.arrowData] else [])
    ++ (if showCps then [.controlPoints] else [])
    ++ (if (o "control_point_ids").getD showCps then [.controlPointIds] else [])
    ++ (if (o "control_mesh").getD showCps then [.controlMesh] else [])
    ++ (if s.fittingQueries && (o "fitting_queries").getD true then [.fittingQueries] else [])

/-- `kwargs.get(key, False)` (visualize.py 588, 593, 596) -/
def flag (kwargs : List (String × Bool)) (key : String) : Bool := (kwargs.lookup key).getD false

/-- what a call gives: a dictionary of gustaf objects, one of backend objects, or a window with panels (visualize.py 593-609) -/
inductive Shown where
  | gustaf (elements : List Element)
  | backend (elements : List Element)
  | window (panels : List (List Element))
deriving DecidableEq

/-- the options used for the spline, visualize.py 567-580 -/
def callOptions (s : Subject) (kwargs : List (String × Bool)) : Options Bool :=
  if kwargs = [] then s.options else overridden (valid s.multipatch) s.options kwargs

/-- The options of the spline of the parametric panel: those of the spline are copied (create.py 529) after they were set back (visualize.py 585-590). -/
def panelOptions (s : Subject) (_kwargs : List (String × Bool)) : Options Bool := s.options

/-- `show`, visualize.py 555-609; `none` if it raises. Multipatches have no attribute `create` (590). -/
def show_ (s : Subject) (kwargs : List (String × Bool)) : Option Shown :=
  if (s.paraDim, s.dim) ∈ [(1, 2), (1, 3), (2, 2), (2, 3), (3, 3)] then
    let els := makeShowable s (callOptions s kwargs)
    let para := flag kwargs "parametric_space"
    if para && s.multipatch then none
    else
      let all := if para then els ++ [.parametricSpline] else els
      if flag kwargs "return_gustaf" then some (.gustaf all)
      else if flag kwargs "return_showable" then some (.backend all)
      else if para then some (.window [[.parametricSpline], els])
      else some (.window [els])
  else none

/-- `showable`, spline.py 1714, multipatch.py 468: `return_showable=True` besides the keyword arguments; giving it again raises -/
def showable (s : Subject) (kwargs : List (String × Bool)) : Option Shown :=
  if kwargs.any (·.1 = "return_showable") then none else show_ s (("return_showable", true) :: kwargs)

/-- what is returned under a key by `FFD.showable`: a gustaf object, a spline, a backend object, a dictionary of backend objects (ffd.py 331-359) -/
inductive Kind where
  | gustaf
  | spline
  | backend
  | backends
deriving DecidableEq

/-- what `show` reads of an FFD object: the mesh and the spline may be missing; the option `alpha` of its spline (ffd.py 289, 326, 345) -/
structure Ffd (V : Type) where
  mesh : Bool
  spline : Bool
  alpha : Option V
deriving DecidableEq

/-- how a call ends: with a value, with the `ValueError` that tells what to do, or with an `AttributeError` of `None` (ffd.py 289-359) -/
inductive Result (A : Type) where
  | ok (value : A)
  | valueError
  | attributeError
deriving DecidableEq

/-- `FFD.showable`, ffd.py 319-359, for the value of `return_gustaf`; `low` is 0.3 (345): the object afterwards and the result. A missing mesh raises at 335, a missing spline at 345. -/
def ffdShowable {V : Type} (low : V) (returnGustaf : Bool) (f : Ffd V) : Ffd V × Result (List (String × Kind)) :=
  if !f.spline && !f.mesh then (f, .valueError)
  else if !f.mesh then (f, .attributeError)
  else if !f.spline then (f, .attributeError)
  else
    ({ f with alpha := some low },
      if returnGustaf then .ok [("original_mesh", .gustaf), ("spline", .spline), ("mesh", .gustaf)]
      else .ok [("original_mesh", .backend), ("spline", .backends), ("mesh", .backend)])

/-- a returned dictionary, or the window (ffd.py 304-316) -/
inductive FfdShown where
  | dict (items : List (String × Kind))
  | window (panels : List (List String))
deriving DecidableEq

/-- `FFD.show`, ffd.py 264-317: both flags are taken out of the keyword arguments (291-292), which are then given to `showable` (302) -/
def ffdShow {V : Type} (low : V) (returnGustaf returnShowable : Bool) (f : Ffd V) : Ffd V × Result FfdShown :=
  if !f.spline && !f.mesh then (f, .valueError)
  else if returnGustaf && returnShowable then (f, .valueError)
  else
    match ffdShowable low false f with
    | (f', .ok items) =>
      if returnGustaf || returnShowable then (f', .ok (.dict items))
      else (f', .ok (.window [["original_mesh"], ["spline", "mesh"], ["mesh"]]))
    | (f', .valueError) => (f', .valueError)
    | (f', .attributeError) => (f', .attributeError)

end Splinepy.Display
