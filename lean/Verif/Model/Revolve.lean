import Verif.Model.Create
import Mathlib.Analysis.SpecialFunctions.Trigonometric.Arctan
import Mathlib.Analysis.Real.Sqrt

/-!
Model of the revolutions of splinepy/helpme/create.py. Floating point numbers are real numbers.
-/
namespace Splinepy.Revolve
open Splinepy.Index (Spline)
open Splinepy.Create

section
variable {K : Type} [Field K]

/-- `matmul(points, rotation_matrix)` for one point, create.py 251-253, 264-265. The matrix is the transposed result of
`gustaf.utils.arr.rotation_matrix_around_axis`, which is not part of the repository: without an axis `[[c, -s], [s, c]]`, with a unit axis the
formula of Rodrigues; `c` and `s` are cosine and sine of the rotation. -/
def rotate (axis : Option (List K)) (c s : K) (p : List K) : List K :=
  match axis, p with
  | none, [x, y] => [c * x - s * y, s * x + c * y]
  | some [a, b, d], [x, y, z] =>
    [c * x + s * (b * z - d * y) + (1 - c) * (a * x + b * y + d * z) * a,
      c * y + s * (d * x - a * z) + (1 - c) * (a * x + b * y + d * z) * b,
      c * z + s * (a * y - b * x) + (1 - c) * (a * x + b * y + d * z) * d]
  | _, _ => []

/-- "Move away from axis", create.py 266-271, for one point. -/
def push (axis : Option (List K)) (factor : K) (p : List K) : List K :=
  match axis, p with
  | none, [x, y] => [x * factor, y * factor]
  | some [a, b, d], [x, y, z] =>
    let dot := x * a + y * b + z * d
    [(x - a * dot) * factor + a * dot, (y - b * dot) * factor + b * dot, (z - d * dot) * factor + d * dot]
  | _, _ => []

/-- Loop over the segments, create.py 262-274: the control points that are concatenated. -/
def segments (axis : Option (List K)) (c s factor : K) : ℕ → List (List K) → List (List K)
  | 0, _ => []
  | n + 1, ends =>
    let mid := ends.map (rotate axis c s)
    let ends' := mid.map (rotate axis c s)
    mid.map (push axis factor) ++ ends' ++ segments axis c s factor n ends'

/-- Knots of the new direction, create.py 276-281. -/
def spanKnots (n : ℕ) : List K :=
  [0, 0, 0] ++ ((List.range (n - 1)).map fun (i : ℕ) => [(i : K) + 1, (i : K) + 1]).flatten ++ List.replicate 3 (n : K)

/-- Weights, create.py 282-288. -/
def spanWeights (weight : K) (ws : List K) : ℕ → List K → List K
  | 0, acc => acc
  | n + 1, acc => spanWeights weight ws n (acc ++ ws.map (· * weight) ++ ws)

/-- The construction of `revolved`, create.py 244-298, for centred control points `cps`, cosine `c` and sine `s` of the rotation per half segment and the
weight of the middle points. -/
def build (spline : Spline K (List K)) (axis : Option (List K)) (center : Option (List K)) (c s weight : K) (n : ℕ) (cps : List (List K)) :
    Spline K (List K) :=
  let points := cps ++ segments axis c s (1 / weight) n cps
  { degrees := spline.degrees ++ [2]
    knotVectors := spline.knotVectors.map (· ++ [spanKnots n])
    weights := spline.weights.map fun ws => spanWeights weight ws n ws
    controlPoints := match center with
      | none => points
      | some ctr => points.map fun p => List.zipWith (· + ·) p ctr }

end

noncomputable section

/-- `settings.TOLERANCE`, splinepy/settings.py 25. -/
def tolerance : ℝ := 1e-11

/-- `np.linalg.norm` (splinepy/helpme/create.py 128-298) -/
def norm (v : List ℝ) : ℝ := Real.sqrt (v.map fun x => x ^ 2).sum

/-- Check of the axis, create.py 158-194: control points filled with zeros and normalised axis. -/
def prepareAxis (s : Spline ℝ (List ℝ)) : Option (List ℝ) → Option (List (List ℝ) × Option (List ℝ))
  | some axis =>
    if dim s > axis.length then none
    else
      let cps := if dim s < axis.length then s.controlPoints.map (· ++ List.replicate (axis.length - dim s) 0) else s.controlPoints
      if norm axis ≤ tolerance then none else some (cps, some (axis.map (· / norm axis)))
  | none => if dim s = 3 then none else some (s.controlPoints, none)

/-- `cps.shape[1]` (splinepy/helpme/create.py 128-298) -/
def width (cps : List (List ℝ)) : ℕ :=
  match cps with
  | p :: _ => p.length
  | [] => 0

/-- `minimum_n_knot_spans` and the choice of the number of knot spans, create.py 228-235. -/
def knotSpans (angle : ℝ) (requested : Option ℤ) : ℤ :=
  let minimum := ⌈(|angle| + |tolerance|) / Real.pi⌉
  match requested with
  | none => minimum
  | some n => if n < minimum then minimum else n

/-- `np.radians` (splinepy/helpme/create.py 128-298) -/
def radians (x : ℝ) : ℝ := x * Real.pi / 180

/-- Angle in radians, create.py 203-209. -/
def effectiveAngle (angle : Option ℝ) (degree : Bool) : ℝ :=
  let a := match angle with
    | some a => a
    | none => if degree then 360 else Real.pi * 2
  if degree then radians a else a

/-- `revolved`, create.py 128-298; `none` where it raises. A spline is of a Bezier type if it has no knot vectors. -/
def revolved (spline : Spline ℝ (List ℝ)) (axis center : Option (List ℝ)) (angle : Option ℝ) (nKnotSpans : Option ℤ) (degree : Bool) :
    Option (Spline ℝ (List ℝ)) :=
  match prepareAxis spline axis with
  | none => none
  | some (cps, axis) =>
    let problemDim := width cps
    let axis := if problemDim = 2 then none else axis
    let angle := effectiveAngle angle degree
    let centered : Option (List (List ℝ)) := match center with
      | none => some cps
      | some ctr => if problemDim = ctr.length then some (cps.map fun p => List.zipWith (· - ·) p ctr) else none
    match centered with
    | none => none
    | some cps =>
      if problemDim ≠ 2 ∧ problemDim ≠ 3 then none
      else
        let n := knotSpans angle nKnotSpans
        if spline.knotVectors.isNone ∧ n > 1 then none
        else
          let rot := angle / (2 * (n : ℝ))
          let weight := Real.sin (Real.pi / 2 - rot)
          some (build spline axis center (Real.cos rot) (Real.sin rot) weight n.toNat cps)

/-- `arc`, create.py 602-654. -/
def arc (radius angle : ℝ) (nKnotSpans : ℤ) (startAngle : ℝ) (degree : Bool) : Option (Spline ℝ (List ℝ)) :=
  let start := if degree then radians startAngle else startAngle
  let angle := if degree then radians angle else angle
  let pointSpline : Spline ℝ (List ℝ) := ⟨[0], none, some [1], [[radius * Real.cos start, radius * Real.sin start]]⟩
  let pointSpline := if |angle| ≥ Real.pi ∨ nKnotSpans > 1 then withKnotVectors pointSpline else pointSpline
  (revolved pointSpline none none (some angle) (some nKnotSpans) false).map fun a =>
    { a with degrees := a.degrees.drop 1, knotVectors := a.knotVectors.map (·.drop 1) }

/-- `circle`, create.py 657-672. -/
def circle (radius : ℝ) (nKnotSpans : ℤ) : Option (Spline ℝ (List ℝ)) := arc radius 360 nKnotSpans 0 true

/-- `plate`, create.py 698-732. -/
def plate (radius : ℝ) : Spline ℝ (List ℝ) :=
  let w := 1 / Real.sqrt 2
  { degrees := [2, 2]
    knotVectors := none
    weights := some [1, w, 1, w, 1, w, 1, w, 1]
    controlPoints := ([[-0.5, -0.5], [0, -1], [0.5, -0.5], [-1, 0], [0, 0], [1, 0], [-0.5, 0.5], [0, 1], [0.5, 0.5]] : List (List ℝ)).map
      fun p => p.map (· * radius) }

/-- `disk`, create.py 735-771. -/
def disk (outer : ℝ) (inner : Option ℝ) (angle : ℝ) (nKnotSpans : ℤ) (degree : Bool) : Option (Spline ℝ (List ℝ)) :=
  revolved ⟨[1], some [[0, 0, 1, 1]], some [1, 1], [[inner.getD 0, 0], [outer, 0]]⟩ none none (some angle) (some nKnotSpans) degree

/-- `sphere`, create.py 856-894. -/
def sphere (outer : ℝ) (inner : Option ℝ) (angle : ℝ) (nKnotSpans : ℤ) (degree : Bool) : Option (Spline ℝ (List ℝ)) :=
  (disk outer inner 180 4 true).bind fun d => revolved (withKnotVectors d) (some [1, 0, 0]) none (some angle) (some nKnotSpans) degree

/-- `surface_circle`, create.py 897-931; `2**-0.5` is the inverse of the root. -/
def surfaceCircle (outer : ℝ) : Spline ℝ (List ℝ) :=
  let w := 1 / Real.sqrt 2
  let a := outer * w
  { degrees := [2, 2]
    knotVectors := none
    weights := some [1, w, 1, w, 1, w, 1, w, 1]
    controlPoints := [[-a, -a], [0, -2 * a], [a, -a], [-2 * a, 0], [0, 0], [2 * a, 0], [-a, a], [0, 2 * a], [a, a]] }

/-- `torus`, create.py 774-853. -/
def torus (torusRadius outer : ℝ) (inner : Option ℝ) (torusAngle sectionAngle : Option ℝ) (sectionSpans torusSpans : ℤ) (degree : Bool) :
    Option (Spline ℝ (List ℝ)) :=
  let degree := if torusAngle.isNone then false else degree
  let tAngle := torusAngle.getD (2 * Real.pi)
  let degree := if sectionAngle.isNone then false else degree
  let sAngle := sectionAngle.getD (2 * Real.pi)
  let cross : Option (Spline ℝ (List ℝ)) :=
    if sectionAngle.isNone ∧ inner.isNone then
      some (if |tAngle| ≥ Real.pi then withKnotVectors (plate outer) else plate outer)
    else disk outer (some (inner.getD 0)) sAngle sectionSpans degree
  cross.bind fun cross =>
    let moved := { cross with controlPoints := cross.controlPoints.map fun p => p.modify 1 (· + torusRadius) }
    revolved moved (some [1, 0, 0]) (some [0, 0, 0]) (some tAngle) (some torusSpans) degree

end

end Splinepy.Revolve
