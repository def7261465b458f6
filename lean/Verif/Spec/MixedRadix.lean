import Mathlib.Data.List.Forall2
import Mathlib.Algebra.BigOperators.Group.List.Basic

/-!
Specification of the numbering of a tensor grid: with resolutions `rs`, the grid point with coordinates `cs` has the flat id
`cs₀ + rs₀ (cs₁ + rs₁ (cs₂ + …))`, i.e. the first dimension runs fastest.
-/
namespace Splinepy.Spec

/-- flat id of grid coordinates, first dimension running fastest -/
def flat : List ℕ → List ℕ → ℕ
  | r :: rs, c :: cs => c + r * flat rs cs
  | _, _ => 0

/-- grid coordinates of a flat id -/
def digits : List ℕ → ℕ → List ℕ
  | [], _ => []
  | r :: rs, id => (id % r) :: digits rs (id / r)

/-- `cs` are coordinates of a point in the grid with resolutions `rs` -/
def InGrid (rs cs : List ℕ) : Prop := List.Forall₂ (fun r c => c < r) rs cs

end Splinepy.Spec
