import Mathlib.LinearAlgebra.Matrix.Determinant.Basic
import Mathlib.Analysis.Calculus.Deriv.Basic
import Verif.Spec.TileValue

/-!
Specification of the orientation of the patches of a tile: the Jacobian determinant of the map from the unit cube to the physical space.
-/

namespace Splinepy.Tiles.Spec

open Splinepy.Spec

/-- the matrix of the partial derivatives of the Bezier spline of a patch: row = coordinate of the point, column = parameter -/
noncomputable def jacobian (P : Patch ℝ) (n : ℕ) (u : List ℝ) : Matrix (Fin n) (Fin n) ℝ :=
  Matrix.of fun j k => deriv (fun x => point (bezier P) (u.set k x) j) (u.getD k 0)

/-- A patch with `n` parameters and `n` coordinates whose Jacobian determinant is positive at every parameter: it is regular and keeps the orientation. -/
def RightHanded (n : ℕ) (P : Patch ℝ) : Prop :=
  P.degrees.length = n ∧ (∀ c ∈ P.cps, c.length = n) ∧ ∀ u, InDomain (bezier P) u → 0 < (jacobian P n u).det

/-- the same for all patches of a tile -/
def Oriented (n : ℕ) (t : List (Patch ℝ)) : Prop := ∀ P ∈ t, RightHanded n P

end Splinepy.Tiles.Spec
