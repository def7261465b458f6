import Verif.Model.Create

/-!
Model of `extract.bases`, splinepy/helpme/extract.py 603-648.
-/
namespace Splinepy.Bases
open Splinepy.Index (Spline)

variable {K : Type} [Field K]

/-- `control_points[:, -1] = 0`, extract.py 637; rows without entries raise, which is not modelled (every spline has at least one column). -/
def zeroLast (s : Spline K (List K)) : Spline K (List K) := { s with controlPoints := s.controlPoints.map fun p => p.set (p.length - 1) 0 }

/-- `control_points[i, -1] = 1.0` of a copy, extract.py 643-644: negative numbers count from the end, other numbers raise. -/
def setLast (s : Spline K (List K)) (i : ℤ) : Option (Spline K (List K)) :=
  let j := if i < 0 then i + s.controlPoints.length else i
  if j < 0 ∨ (s.controlPoints.length : ℤ) ≤ j then none
  else some { s with controlPoints := s.controlPoints.modify j.toNat fun p => p.set (p.length - 1) 1 }

/-- `bases`, extract.py 603-648: `view` is the conforming parametric view for `parametric_view=True` (627-631) and `none` otherwise; `ids = none` means all control points. -/
def bases (s : Spline K (List K)) (view : Option (Spline K (List K))) (ids : Option (List ℤ)) : Option (List (Spline K (List K))) :=
  let base := match view with
    | some v => Create.embedded v ((s.degrees.length : ℤ) + 1)
    | none => Create.embedded s ((Create.dim s : ℤ) + 1)
  base.bind fun base => (ids.getD ((List.range s.controlPoints.length).map fun i : ℕ => (i : ℤ))).mapM (setLast (zeroLast base))

end Splinepy.Bases
