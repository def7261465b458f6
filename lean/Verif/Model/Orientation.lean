import Mathlib.Algebra.Order.Field.Basic
import Mathlib.Algebra.BigOperators.Group.Finset.Basic

/-!
Model of `GetInterfaceOrientation`, `src/py/py_multipatch.cpp` 592-697.

Simplifications: `double` is an ordered field `K` with a function `sqrt`; the two Jacobians, which the code obtains from `SplinepyJacobian` at the two face
centers (external spline evaluation), are arguments, stored as flat arrays with entry `i_pd + k * para_dim` as in the code. An array entry the code never
writes is `none`.
-/
namespace Splinepy.Orientation

variable {K : Type} [Field K] [LinearOrder K]

/-- entry `i_pd + k * para_dim` of a Jacobian, lines 676-677, 682-685 (src/py/py_multipatch.cpp) -/
def entry (J : List K) (pd i k : ℕ) : K := J.getD (i + k * pd) 0

/-- `dot_p`, lines 682-683; `norm_s`, `norm_e` (676-677, 684-685) are the products of a column with itself (src/py/py_multipatch.cpp) -/
def dot (A : List K) (i : ℕ) (B : List K) (j pd dim : ℕ) : K :=
  (List.range dim).foldl (fun acc k => acc + entry A pd i k * entry B pd j k) 0

/-- `cos_angle > 1 - tolerance`, lines 689-690 (src/py/py_multipatch.cpp) -/
def aligned (sqrt : K → K) (tol : K) (pd dim : ℕ) (Js : List K) (i : ℕ) (Je : List K) (j : ℕ) : Bool :=
  decide (abs (dot Js i Je j pd dim / sqrt (dot Js i Js i pd dim * dot Je j Je j pd dim)) > 1 - tol)

/-- one entry of `mappings` and `orientations`: lines 620-631 for the axis of the face, 669-696 for the others (src/py/py_multipatch.cpp) -/
def axis (sqrt : K → K) (tol : K) (pd dim : ℕ) (Js : List K) (faceS : ℕ) (Je : List K) (faceE : ℕ) (i : ℕ) : Option (ℕ × ℕ) :=
  if i = faceS / 2 then
    some (faceE / 2, if xor (faceS % 2 == 0) (faceE % 2 == 0) then 1 else 0)
  else
    match (List.range pd).find? (aligned sqrt tol pd dim Js i Je) with
    | some j => some (j, if dot Js i Je j pd dim > 0 then 1 else 0)
    | none => none

/-- `GetInterfaceOrientation`, lines 592-697: exception for different dimensions, then one entry for each axis (src/py/py_multipatch.cpp) -/
def interfaceOrientation (sqrt : K → K) (tol : K) (pdS dimS : ℕ) (Js : List K) (faceS : ℕ) (pdE dimE : ℕ) (Je : List K) (faceE : ℕ) :
    Option (List (Option (ℕ × ℕ))) :=
  if pdS ≠ pdE ∨ dimS ≠ dimE then none
  else some ((List.range pdS).map (axis sqrt tol pdS dimS Js faceS Je faceE))

end Splinepy.Orientation
