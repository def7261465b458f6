import Verif.Model.SvgExport

/-!
Model of how points are exported to SVG, splinepy/io/svg.py: gustaf's `Vertices` (`_export_gustaf_object` 252-338) and the control points of splines with their numbers (`_export_control_mesh` 341-507).
-/
namespace Splinepy.SvgPoints
open Splinepy.Svg (place)

variable {K C V : Type} [Field K] [LinearOrder K]

/-- a circle: center and colour (splinepy/io/svg.py 286-294, 463-470) -/
structure Circle (K C : Type) where
  center : K × K
  colour : C
deriving DecidableEq

/-- a text: place and content; the shift `dx`, `dy` by the radius is the same for all (splinepy/io/svg.py 320-330, 496-506) -/
structure Label (K : Type) where
  corner : K × K
  text : String
deriving DecidableEq

/-- colours, svg.py 261-276: one for each entry of the flattened values if there are data, otherwise the same for each vertex. `colourOf` is the colour map. (splinepy/io/svg.py) -/
def colours (colourOf : V → C) (plain : C) (data : Option (List (List V))) (n : ℕ) : List C :=
  match data with
  | some rows => rows.flatten.map colourOf
  | none => List.replicate n plain

/-- the circles of vertices, svg.py 286-294; `zip` stops at the shorter list (splinepy/io/svg.py) -/
def vertexCircles (minX maxY : K) (colourOf : V → C) (plain : C) (data : Option (List (List V))) (vertices : List (List K)) : List (Circle K C) :=
  List.zipWith (fun v c => ⟨place minX maxY v, c⟩) vertices (colours colourOf plain data vertices.length)

/-- which labels, svg.py 296-300: the given ones; numbers if there are none and the option `vertex_ids` is there, whatever its value (splinepy/io/svg.py) -/
def vertexTexts (labels : Option (List String)) (vertexIds : Option Bool) (n : ℕ) : Option (List String) :=
  match labels with
  | some l => some l
  | none => if vertexIds.isSome then some ((List.range n).map toString) else none

/-- the labels of vertices, svg.py 301-330; `none`: no group of labels (splinepy/io/svg.py) -/
def vertexLabels (minX maxY : K) (labels : Option (List String)) (vertexIds : Option Bool) (vertices : List (List K)) : Option (List (Label K)) :=
  (vertexTexts labels vertexIds vertices.length).map fun l => List.zipWith (fun v t => ⟨place minX maxY v, t⟩) vertices l

/-- the options of a spline, `none`: not set (splinepy/io/svg.py 371, 380, 444, 473) -/
structure Options where
  controlPoints : Option Bool
  controlMesh : Option Bool
  controlPointIds : Option Bool

/-- what is exported for the control points of a spline: the lines if wanted, the circles if wanted, and the numbers if wanted (splinepy/io/svg.py 370-507) -/
def controlParts (minX maxY : K) (colour : C) (o : Options) (mesh : List (List (K × K))) (points : List (List K)) : Option (List (List (K × K))) × Option (List (Circle K C)) × Option (List (Label K)) :=
  let requested := o.controlPoints.getD true
  (if o.controlMesh.getD requested then some mesh else none,
    if requested then some (points.map fun p => ⟨place minX maxY p, colour⟩) else none,
    if o.controlPointIds.getD requested then some (points.zipIdx.map fun p => ⟨place minX maxY p.1, toString p.2⟩) else none)

end Splinepy.SvgPoints
