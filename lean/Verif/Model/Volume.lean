import Verif.Model.Integrate
import Verif.Model.BezierSpline
import Mathlib.Analysis.SpecialFunctions.Sqrt
import Mathlib.LinearAlgebra.Matrix.Determinant.Basic

/-!
Model of `integrate.volume` (splinepy/helpme/integrate.py 124-160) for splines: the measures of `Model/Integrate.lean` come from the Jacobians of the Bezier
patches that `extract.beziers` (`Model/BezierSpline.lean`) returns.

External: `jacobian` (entry `(k, i)` of the Jacobian of a Bezier at a position; evaluated by the C++ core), and the parameters of `BezierSpline.beziers`.
-/
namespace Splinepy.Volume
open Splinepy.Index (Spline)

/-- `_get_integral_measure`, 8-53: a function of the Jacobian; `none` is the `ValueError` of line 53. (splinepy/helpme/integrate.py) -/
noncomputable def measure (dim paraDim : ℕ) : Option ((ℕ → ℕ → ℝ) → ℝ) :=
  if dim = paraDim then some fun J => (Matrix.of fun k i : Fin paraDim => J k i).det
  else if paraDim < dim then some fun J => Real.sqrt (Matrix.of fun i j : Fin paraDim => ∑ k : Fin dim, J k i * J k j).det
  else none

/-- `spline.dim`: columns of the control points. (splinepy/spline.py 473-486) -/
def dim (s : Spline ℝ (List ℝ)) : ℕ := (s.controlPoints.headD []).length

/-- `volume`, 124-160. (splinepy/helpme/integrate.py) -/
noncomputable def splineVolume (leggauss : ℕ → List ℝ × List ℝ) (jacobian : Spline ℝ (List ℝ) → List ℝ → ℕ → ℕ → ℝ)
    (needed : Spline ℝ (List ℝ) → ℕ → List ℝ) (insertKnot : Spline ℝ (List ℝ) → ℕ → ℝ → Option (Spline ℝ (List ℝ))) (mults : List ℝ → List ℕ)
    (orders : Option (List ℤ)) (s : Spline ℝ (List ℝ)) : Option ℝ :=
  (measure (dim s) s.degrees.length).bind fun meas =>
    (if s.knotVectors.isSome then BezierSpline.beziers needed insertKnot mults s else some [s]).bind fun bs =>
      Integrate.volume leggauss s.degrees s.weights.isSome orders (bs.map fun b u => meas (jacobian b u))

end Splinepy.Volume
