import Mathlib.Data.Rat.Defs
import Mathlib.Data.Nat.Notation
import Mathlib.Data.Int.Notation
import Verif.Model.Display
import Verif.Model.Unique

/-!
Model of the look of what `show` draws (splinepy/helpme/visualize.py 9-93, 167-229, 232-254, 290-314, 401-445, 567-580): which show options decide colours, sizes, line widths and transparency,
and where knots of curves are drawn. The option classes are gustaf's: an option is accepted if its name is known and the value has one of the listed types; anything else raises, which `show`
catches. Colours of a scalar field (visualize.py 256-288) are modelled in `FieldData`, knot lines of surfaces and volumes (`extract.edges`) in `Mesh`.
-/
namespace Splinepy.ShowStyle
open Splinepy.ShowOptions Splinepy.Display

/-- python values of options (types in visualize.py 9-93); booleans are left out, no option here is one -/
inductive Value where
  | int (n : ℤ)
  | float (x : ℚ)
  | str (s : String)
  | tuple (l : List ℚ)
deriving DecidableEq

/-- the types listed for an option (visualize.py 9-93) -/
inductive Ty where
  | int
  | float
  | str
  | tuple
deriving DecidableEq

/-- the type of a value (`isinstance`, visualize.py 9-93) -/
def Value.ty : Value → Ty
  | .int _ => .int
  | .float _ => .float
  | .str _ => .str
  | .tuple _ => .tuple

/-- types of a colour (visualize.py 11, 42-45, 66-69) -/
def colour : List Ty := [.str, .tuple, .int]

/-- The types of the options about looks, visualize.py 9-93; `c`, `alpha` and `lighting` come from gustaf's common options. Names that are not options have no type. `knot_lw` lists `float` twice (17). -/
def types (key : String) : List Ty :=
  if key = "knot_c" then colour
  else if key = "knot_lw" then [.float, .float]
  else if key = "knot_alpha" then [.float, .int]
  else if key = "control_point_r" then [.float, .int]
  else if key = "control_point_c" then colour
  else if key = "control_point_alpha" then [.float, .int]
  else if key = "control_mesh_c" then colour
  else if key = "control_mesh_lw" then [.float, .int]
  else if key = "lw" then [.float, .int]
  else if key = "c" then colour
  else if key = "alpha" then [.float, .int]
  else if key = "lighting" then [.str]
  else []

/-- `show_options[key] = value` of gustaf's classes with the options of visualize.py 9-152; `none` if it raises -/
def assign (o : Options Value) (key : String) (v : Value) : Option (Options Value) :=
  if v.ty ∈ types key then some (fun k => if k = key then some v else o k) else none

/-- the options of a call: those of the spline, then the keyword arguments; what raises is skipped (visualize.py 567-580) -/
def callOptions (o : Options Value) (kwargs : List (String × Value)) : Options Value :=
  kwargs.foldl (fun o kv => (assign o kv.1 kv.2).getD o) o

/-- the attributes of a drawn object (visualize.py 193, 206-208, 248, 301-309, 408-412, 437-441) -/
inductive Attr where
  | c
  | r
  | lw
  | alpha
  | lighting
deriving DecidableEq

/-- the options of the sampled spline: `_sample_spline`, visualize.py 247-248, and `_process_spline_color`, 296-309 -/
def splineStyle (paraDim dim : ℕ) (o : Options Value) : Attr → Option Value
  | .lw => if paraDim = 1 then some ((o "lw").getD (.int 8)) else none
  | .c => some ((o "c").getD (.str (if 1 < paraDim then "green" else "black")))
  | .alpha => some ((o "alpha").getD (.int 1))
  | .lighting => some ((o "lighting").getD (.str (if 2 < dim then "glossy" else "off")))
  | .r => none

/-- the options of the knots: colour of the labels of a curve (`_sample_knots_1d`, visualize.py 190-194), knot lines (`_sample_knots_2d`, 206-208) -/
def knotStyle (paraDim : ℕ) (o : Options Value) : Attr → Option Value
  | .c => some ((o "knot_c").getD (.str (if 1 < paraDim then "black" else "green")))
  | .lw => if 1 < paraDim then some ((o "knot_lw").getD (.int 3)) else none
  | .alpha => if 1 < paraDim then some ((o "knot_alpha").getD (.int 1)) else none
  | _ => none

/-- `_create_control_points`, visualize.py 408-412 -/
def pointStyle (o : Options Value) : Attr → Option Value
  | .c => some ((o "control_point_c").getD (.str "red"))
  | .r => some ((o "control_point_r").getD (.int 10))
  | .alpha => some ((o "control_point_alpha").getD (.float 1))
  | _ => none

/-- `_create_control_mesh`, visualize.py 437-441 -/
def meshStyle (o : Options Value) : Attr → Option Value
  | .c => some ((o "control_mesh_c").getD (.str "red"))
  | .lw => some ((o "control_mesh_lw").getD (.int 4))
  | .alpha => some ((o "control_points_alpha").getD (.float (4 / 5)))
  | _ => none

/-- the look of a drawn object (visualize.py 167-229, 232-254, 290-314, 401-445) -/
def style (paraDim dim : ℕ) (o : Options Value) : Element → Attr → Option Value
  | .spline => splineStyle paraDim dim o
  | .knots => knotStyle paraDim o
  | .controlPoints => pointStyle o
  | .controlMesh => meshStyle o
  | _ => fun _ => none

/-- transparency of the control mesh in an svg file, splinepy/io/svg.py 386 -/
def svgMeshAlpha (o : Options Value) : Value := (o "control_mesh_alpha").getD (.float 1)

/-- transparency of the control points in an svg file, splinepy/io/svg.py 451 -/
def svgPointAlpha (o : Options Value) : Value := (o "control_point_alpha").getD (.float 1)

/-- A curve: its knots with the degree, or a Bezier curve; `eval` is `evaluate` (used in visualize.py 173-175). -/
structure Curve (K P : Type) where
  knots : Option (List K × ℕ)
  eval : K → P

variable {K P : Type} [Field K] [LinearOrder K]

/-- `unique_knots[0]`, spline.py 895-901: the bounds 0 and 1 of a Bezier curve -/
def Curve.uniqueKnots (eps : K) (s : Curve K P) : List K :=
  match s.knots with
  | none => [0, 1]
  | some (knots, degree) => Unique.uniqueKnots eps knots degree

/-- `_sample_knots_1d`, visualize.py 167-187: one curve, or the patches of a multipatch one after the other -/
def shownKnots (eps : K) (patches : List (Curve K P)) : List P :=
  (patches.map fun s => (s.uniqueKnots eps).map s.eval).flatten

end Splinepy.ShowStyle
