import Mathlib.Analysis.Calculus.Deriv.Basic
import Verif.Model.Tiles
import Verif.Spec.Tensor

/-!
Specification of what users expect from a tile of a microstructure: the derivatives it returns, where its control points lie, how it meets its neighbours.
Only `Patch` (degrees and control points of a Bezier spline) and the numbering of control nets are used.
-/

namespace Splinepy.Tiles.Spec

/-- coordinate `j` of control point `i` of patch `k` -/
def coord (t : List (Patch ℝ)) (k i j : ℕ) : ℝ := (((t.map Patch.cps).getD k []).getD i []).getD j 0

/-- degrees, number of control points and their dimension, of all patches -/
def shape {K : Type} (t : List (Patch K)) : List (List ℕ × List ℕ) := t.map fun P => (P.degrees, P.cps.map List.length)

/-- the parameters, moved along a sensitivity -/
def move (p d : Mat ℝ) (h : ℝ) : Mat ℝ := List.zipWith (List.zipWith fun x y => x + h * y) p d

/-- `d` is the derivative of the tile `f h`, at `h = 0`, within the set of all `h` for which a tile is created: same patches, and every coordinate of every control
point is differentiated -/
def IsDerivative (f : ℝ → Option (Tile ℝ)) (d : List (Patch ℝ)) : Prop :=
  ∃ T, f 0 = some T ∧ shape T.splines = shape d ∧
    ∀ k i j, HasDerivWithinAt (fun h => (f h).elim 0 fun T => coord T.splines k i j) (coord d k i j) {h | (f h).isSome} 0

/-- A tile returns one list of derivative splines per sensitivity, each of them the derivative of the tile. -/
def DerivativesCorrect (create : Option (Mat ℝ) → Option (List (Mat ℝ)) → Option (Tile ℝ)) (p : Mat ℝ) (sens : List (Mat ℝ)) : Prop :=
  ∀ T, create (some p) (some sens) = some T →
    ∃ ds, T.derivatives = some ds ∧ ds.length = sens.length ∧
      ∀ (i : ℕ) s d, sens[i]? = some s → ds[i]? = some d → IsDerivative (fun h => create (some (move p s h)) none) d

/-- all control points lie in the unit cube -/
def InUnitCube {K : Type} [Field K] [LinearOrder K] (t : List (Patch K)) : Prop := ∀ P ∈ t, ∀ c ∈ P.cps, ∀ x ∈ c, 0 ≤ x ∧ x ≤ 1

/-- control points of the face of a patch where coordinate `dir` of the control net is the first (`false`) or the last (`true`) one -/
def face {K : Type} (P : Patch K) (dir : ℕ) (last : Bool) : List (List K) :=
  ((List.range (P.degrees.map (· + 1)).prod).filter fun i =>
    (Splinepy.Spec.digits (P.degrees.map (· + 1)) i).getD dir 0 == if last then P.degrees.getD dir 0 else 0).map fun i => P.cps.getD i []

/-- all faces of all patches -/
def faces {K : Type} (t : List (Patch K)) : List (List (List K)) :=
  t.flatMap fun P => (List.range P.degrees.length).flatMap fun d => [face P d false, face P d true]

/-- all points have the value `v` in coordinate `axis` -/
def OnPlane {K : Type} [Field K] (f : List (List K)) (axis : ℕ) (v : K) : Prop := ∀ x ∈ f, x.getD axis 0 = v

/-- Neighbours along `axis`: the faces of `t` on the plane `axis = 1` are the faces of `u` on the plane `axis = 0`, moved by one. -/
def Joins {K : Type} [Field K] (t u : List (Patch K)) (axis : ℕ) : Prop :=
  (∀ f ∈ faces t, OnPlane f axis 1 → ∃ g ∈ faces u, OnPlane g axis 0 ∧ g.map (fun x => x.set axis 1) = f) ∧
  (∀ g ∈ faces u, OnPlane g axis 0 → ∃ f ∈ faces t, OnPlane f axis 1 ∧ f.map (fun x => x.set axis 0) = g)

end Splinepy.Tiles.Spec
