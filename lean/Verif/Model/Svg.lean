import Verif.Model.Boundary
import Verif.Model.Unique

/-!
Model of the SVG export, splinepy/io/svg.py: paths of splines, control meshes, the view box, and the crop of field pictures. Coordinates are numbers; their decimal representation
(`str` of a float, which reads back as the same number) is not modelled, nor are colours, line widths and texts.
-/
namespace Splinepy.Svg
open Splinepy.Index

variable {K : Type} [Field K] [LinearOrder K]

/-- coordinates in the picture, `x - box_min_x`, `box_max_y - y` (svg.py 291-292, 410, 437, 1011-1019 and others) -/
def place (minX maxY : K) (p : List K) : K × K := (p.getD 0 0 - minX, maxY - p.getD 1 0)

/-- the two commands of a path attribute `d` that are used (splinepy/io/svg.py 801-1151) -/
inductive Command (K : Type) where
  | move (p : K × K)
  | cubic (p1 p2 p3 : K × K)

/-- `path_d` from the control points of the Bezier elements, svg.py 1010-1023 (same at 1050-1064, 1125-1139): the start of the first element, then the other three control points of
every element. `none` is an IndexError. -/
def pathOf (minX maxY : K) (elements : List (List (List K))) : Option (List (Command K)) :=
  elements.head?.bind fun first => first[0]?.bind fun start =>
    (elements.mapM fun cps => cps[1]?.bind fun p1 => cps[2]?.bind fun p2 => cps[3]?.map fun p3 =>
      Command.cubic (place minX maxY p1) (place minX maxY p2) (place minX maxY p3)).map fun curves => Command.move (place minX maxY start) :: curves

/-- `_approximate_curve`, svg.py 855-979. `elevate` raises the degree of one direction (a call into the spline library), `fit` stands for the approximation of rational splines and of
degrees above three (876-964). `none`: exception or undefined behaviour of `elevate_degrees`. -/
def approximateCurve (elevate : Spline K (List K) → ℕ → ℕ → Spline K (List K)) (fit : Spline K (List K) → Option (Spline K (List K))) (s : Spline K (List K)) :
    Option (Spline K (List K)) :=
  let degree := s.degrees.getD 0 0
  let approximation := if degree ≤ 3 ∧ ¬ (s.weights.isSome = true ∧ 1 < degree) then
      (Unique.elevateDegrees elevate 1 s (List.replicate (3 - degree) 0)).bind fun r => if r.2 then some r.1 else none
    else fit s
  approximation.bind fun a => if a.degrees.getD 0 0 = 3 ∨ a.weights.isSome = false ∨ (s.weights.isSome = true ∧ degree ≤ 1) then some a else none

/-- the path of a curve, svg.py 1006-1023 -/
def curvePath (elevate : Spline K (List K) → ℕ → ℕ → Spline K (List K)) (fit : Spline K (List K) → Option (Spline K (List K)))
    (beziers : Spline K (List K) → List (Spline K (List K))) (minX maxY : K) (s : Spline K (List K)) : Option (List (Command K)) :=
  (approximateCurve elevate fit s).bind fun a => pathOf minX maxY ((beziers a).map (·.controlPoints))

/-- the path of a surface, svg.py 1036-1064: the boundaries 2, 1, 3, 0, of which 0 and 3 are flipped -/
def surfacePath [Inhabited K] (elevate : Spline K (List K) → ℕ → ℕ → Spline K (List K)) (fit : Spline K (List K) → Option (Spline K (List K)))
    (beziers : Spline K (List K) → List (Spline K (List K))) (minX maxY : K) (s : Spline K (List K)) : Option (List (Command K)) :=
  (Boundary.boundaries s []).bind fun bs =>
    bs[0]?.bind fun b0 => (flipAxes [0] b0).bind fun f0 => bs[3]?.bind fun b3 => (flipAxes [0] b3).bind fun f3 =>
      bs[2]?.bind fun b2 => bs[1]?.bind fun b1 =>
        ([b2, b1, f3, f0].mapM (approximateCurve elevate fit)).bind fun cs =>
          pathOf minX maxY ((cs.flatMap beziers).map (·.controlPoints))

end Splinepy.Svg
