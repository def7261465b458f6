import Mathlib.Data.List.GetD
import Mathlib.Algebra.BigOperators.Group.List.Basic
import Mathlib.Algebra.Field.Defs
import Mathlib.Order.Defs.LinearOrder

/-! Specification of face connectivity: which faces coincide. -/
namespace Splinepy.Spec

variable {K : Type} [Field K] [LinearOrder K]

/-- squared euclidian distance of two points -/
def distSq (p q : List K) : K := ((List.zipWith (fun a b => b - a) p q).map (fun c => c * c)).sum

/-- faces `i` and `j` of the table of face centers are different and closer than the tolerance -/
def Partner (pts : List (List K)) (tol : K) (i j : ℕ) : Prop :=
  i < pts.length ∧ j < pts.length ∧ i ≠ j ∧ distSq (pts.getD i []) (pts.getD j []) < tol * tol

end Splinepy.Spec
