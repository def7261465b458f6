import Verif.Spec.Tiles
import Verif.Spec.Spline

/-!
Specification of the points of a tile: values of its Bezier patches on their parametric domain, the unit cube. What it means that a tile closes a face of the cell.
-/

namespace Splinepy.Tiles.Spec

open Splinepy.Spec

variable {K : Type} [Field K] [LinearOrder K]

/-- the Bezier spline of a patch -/
def bezier (P : Patch K) : Index.Spline K (List K) := ⟨P.degrees, none, none, P.cps⟩

/-- some patch has the value `x` at some parameter of the unit cube -/
def Hit (t : List (Patch K)) (x : List K) : Prop := ∃ P ∈ t, ∃ u, InDomain (bezier P) u ∧ ∀ j < x.length, point (bezier P) u j = x.getD j 0

/-- every point of the face `axis = v` of the unit cube belongs to the tile -/
def Closes (t : List (Patch K)) (dim axis : ℕ) (v : K) : Prop :=
  ∀ x : List K, x.length = dim → (∀ a ∈ x, 0 ≤ a ∧ a ≤ 1) → x.getD axis 0 = v → Hit t x

/-- the face with the given name: axis and position -/
def faceNamed : String → Option (ℕ × K)
  | "x_min" => some (0, 0)
  | "x_max" => some (0, 1)
  | "y_min" => some (1, 0)
  | "y_max" => some (1, 1)
  | "z_min" => some (2, 0)
  | "z_max" => some (2, 1)
  | _ => none

/-- the tile closes the face with the given name -/
def ClosesNamed (t : List (Patch K)) (dim : ℕ) (closure : String) : Prop := ∃ f : ℕ × K, faceNamed closure = some f ∧ f.1 < dim ∧ Closes t dim f.1 f.2

end Splinepy.Tiles.Spec
