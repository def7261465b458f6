import Verif.Model.Index
import Mathlib.Algebra.Order.Field.Basic

/-!
Model of splinepy/helpme/create.py (embedded, extruded, box, from_bounds, parametric_view, line) and of the conversions between spline types.
Splines are given by their properties; the final call of the constructor accepts consistent properties (modelled in `Model/SplineCore`).
Floating point numbers are elements of a field.
-/
namespace Splinepy.Create
open Splinepy.Index (Spline)

variable {K : Type} [Field K]

/-- `spline.dim`: columns of the control points. (splinepy/spline.py 474-490) -/
def dim (s : Spline K (List K)) : ℕ := (s.controlPoints.headD []).length

/-- `embedded`, create.py 11-54. -/
def embedded (s : Spline K (List K)) (newDim : ℤ) : Option (Spline K (List K)) :=
  if newDim < 1 then none
  else if (dim s : ℤ) > newDim then some { s with controlPoints := s.controlPoints.map (·.take newDim.toNat) }
  else if (dim s : ℤ) < newDim then
    some { s with controlPoints := s.controlPoints.map (fun p => p.take newDim.toNat ++ List.replicate (newDim.toNat - dim s) 0) }
  else some s

/-- `extruded`, create.py 57-125; `none` for a missing vector or a vector of smaller dimension. -/
def extruded (s : Spline K (List K)) (v : Option (List K)) : Option (Spline K (List K)) :=
  match v with
  | none => none
  | some v =>
    let cps? : Option (List (List K)) :=
      if dim s = v.length then some s.controlPoints
      else if dim s < v.length then some (s.controlPoints.map (· ++ List.replicate (v.length - dim s) 0))
      else none
    cps?.map fun cps =>
      { degrees := s.degrees ++ [1]
        knotVectors := s.knotVectors.map (· ++ [[0, 0, 1, 1]])
        weights := s.weights.map (fun w => w ++ w)
        controlPoints := cps ++ cps.map (fun p => List.zipWith (· + ·) p v) }

/-- Loop create.py 692-693 of `box`, starting with counter `i`. -/
def boxLoop : ℕ → List K → Spline K (List K) → Option (Spline K (List K))
  | _, [], s => some s
  | i, l :: ls, s => (extruded s (some (List.replicate (i + 1) 0 ++ [l]))).bind (boxLoop (i + 1) ls)

/-- `box`, create.py 675-695; `lengths[0]` of an empty tuple raises. -/
def box : List K → Option (Spline K (List K))
  | [] => none
  | l :: ls => boxLoop 0 ls { degrees := [1], knotVectors := none, weights := none, controlPoints := [[0], [l]] }

/-- `SameSplineWithKnotVectors`, src/py/py_spline_extensions.cpp 212-244 (`Bezier.bspline`, `RationalBezier.nurbs`). -/
def withKnotVectors (s : Spline K (List K)) : Spline K (List K) :=
  match s.knotVectors with
  | some _ => s
  | none => { s with knotVectors := some (s.degrees.map fun p => List.replicate (p + 1) 0 ++ List.replicate (p + 1) 1) }

/-- Weights of one: `Bezier.rationalbezier` (bezier.py 368-371), `BSpline.nurbs` (bspline.py 480-498). -/
def withWeights (s : Spline K (List K)) : Spline K (List K) := { s with weights := some (s.controlPoints.map fun _ => 1) }

/-- Scaling of the knot vectors, create.py 326-331: `para_size[i]` raises if there are fewer parametric bounds than knot vectors. -/
def scaleKnots : List (List K) → List K → List K → Option (List (List K))
  | [], _, _ => some []
  | kv :: kvs, lo :: los, up :: ups => (scaleKnots kvs los ups).map ((kv.map fun k => k * (up - lo) + lo) :: ·)
  | _, _, _ => none

/-- `from_bounds`, create.py 301-336; bounds are given by lower and upper row of the reshaped arrays. -/
def fromBounds (paraLo paraUp physLo physUp : List K) : Option (Spline K (List K)) :=
  (box (List.zipWith (· - ·) physUp physLo)).bind fun b =>
    let b := withKnotVectors b
    let cps := b.controlPoints.map (fun p => List.zipWith (· + ·) p physLo)
    (scaleKnots (b.knotVectors.getD []) paraLo paraUp).map fun kvs => { b with controlPoints := cps, knotVectors := some kvs }

/-- `line`, create.py 568-599; `linspace` is `np.linspace(0, 1, n)`, which has `points + degree + 1 - 2 * degree` entries. -/
def line (linspace : ℕ → List K) (points : List (List K)) : Spline K (List K) :=
  let degree := 1
  let nknots := points.length + degree + 1
  { degrees := [degree]
    knotVectors := some [List.replicate degree 0 ++ linspace (nknots - 2 * degree) ++ List.replicate degree 1]
    weights := none
    controlPoints := points }

/-- `parametric_view`, create.py 458-525, without the settings for plotting (527-563). `bounds` are the parametric bounds; `elevate` and `insert` stand
for `elevate_degrees` and `insert_knots`; `innerKnots` are the queries of lines 512 and 523. -/
def parametricView (elevate : List ℕ → Spline K (List K) → Spline K (List K)) (insert : ℕ → List K → Spline K (List K) → Spline K (List K))
    (s : Spline K (List K)) (lo up : List K) (innerKnots : List (List K)) (conform : Bool) : Option (Spline K (List K)) :=
  (fromBounds lo up lo up).map fun para =>
    let insertAll := fun q => (List.zip (List.range innerKnots.length) innerKnots).foldl
      (fun acc (p : ℕ × List K) => if p.2.length > 0 then insert p.1 p.2 acc else acc) q
    if conform then
      let para := if s.weights.isSome then withWeights para else para
      let para := if s.knotVectors.isNone then { para with knotVectors := none } else para
      let query := ((List.zip (List.range s.degrees.length) (List.zipWith (· - ·) s.degrees para.degrees)).map
        fun (p : ℕ × ℕ) => List.replicate p.2 p.1).flatten
      let para := if query.length > 0 then elevate query para else para
      let para := if s.knotVectors.isSome then insertAll para else para
      match s.weights with
      | some ws => { para with weights := some ws }
      | none => para
    else if s.knotVectors.isSome then insertAll para
    else para

end Splinepy.Create
