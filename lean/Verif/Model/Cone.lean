import Verif.Model.Revolve

/-!
Model of `cone` and `pyramid` of splinepy/helpme/create.py. The assignments to rows of `control_points` change the control points of the returned spline
(the arrays that track modifications are modelled in `Model/Pointers`).
-/
namespace Splinepy.Cone
open Splinepy.Index (Spline)
open Splinepy.Create

section
variable {K : Type} [Field K] [LinearOrder K] [IsStrictOrderedRing K]

/-- `np.isclose(a, b)` with the default tolerances, called in splinepy/helpme/create.py 968; numpy is not part of the repository. -/
def isClose (a b : K) : Bool := decide (|a - b| ≤ 1 / 10 ^ 8 + 1 / 10 ^ 5 * |b|)

/-- splinepy/helpme/create.py 965-972: extrusion of the base and assignment to the control points whose last coordinate is close to the height. -/
def raise (ground : Spline K (List K)) (height : K) : Option (Spline K (List K)) :=
  (extruded ground (some [0, 0, height])).map fun c =>
    { c with controlPoints := c.controlPoints.map fun p => if isClose (p.getLastD 0) height then [0, 0, height] else p }

/-- `pyramid`, splinepy/helpme/create.py 977-1002. -/
def pyramid (width length height : K) : Option (Spline K (List K)) :=
  (box [width, length, height]).map fun p =>
    { p with controlPoints := p.controlPoints.take 4 ++ (p.controlPoints.drop 4).map fun _ => [width / 2, length / 2, height] }

end

/-- `cone`, splinepy/helpme/create.py 931-974; `disk` and `circle` are called with their default numbers of knot spans, four and three. -/
noncomputable def cone (outer height : ℝ) (inner : Option ℝ) (volumetric : Bool) (angle : ℝ) (degree : Bool) : Option (Spline ℝ (List ℝ)) :=
  (if volumetric then Revolve.disk outer inner angle 4 degree else Revolve.circle outer 3).bind fun ground => raise ground height

end Splinepy.Cone
