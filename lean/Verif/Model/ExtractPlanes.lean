import Verif.Model.ExtractSpline
import Mathlib.Data.Nat.Notation

/-!
Model of the member `extract.spline` of splines, splinepy/helpme/extract.py 724-755: several planes at once, given by a dictionary.
-/
namespace Splinepy.ExtractPlanes
open Splinepy.Index (Spline)
open Splinepy.ExtractSpline (Plane extractSpline)

variable {K : Type} [Field K] [LinearOrder K]

/-- Argument `splitting_plane`: an axis, or a dictionary, as the list of its items in the order of insertion. Negative keys are not modelled: what happens for
them is `ExtractSpline.negative_axis_violates`. (splinepy/helpme/extract.py 724-740) -/
inductive Splitting (K : Type) where
  | axis (i : ℕ)
  | planes (items : List (ℕ × Plane K))

/-- `sorted(splitting_plane.items(), key=lambda x: x[0])[::-1]` (splinepy/helpme/extract.py 747-749) -/
def sortedItems (items : List (ℕ × Plane K)) : List (ℕ × Plane K) := (items.mergeSort fun x y => decide (x.1 ≤ y.1)).reverse

/-- Loop `for key, item in splitting_plane.items()`. (splinepy/helpme/extract.py 751-752) -/
def extractLoop (insert : Spline K (List K) → ℕ → List K → Option (Spline K (List K))) (tol : K) :
    List (ℕ × Plane K) → Spline K (List K) → Option (Spline K (List K))
  | [], s => some s
  | x :: l, s => (extractSpline insert tol s x.1 x.2).bind (extractLoop insert tol l)

/-- `extract.spline(splitting_plane, interval)` of a spline; `none`: an exception. An axis without an interval raises since `None` is no floating type (439).
The copy in 750 has no effect on the values. (splinepy/helpme/extract.py 724-755) -/
def extractCall (insert : Spline K (List K) → ℕ → List K → Option (Spline K (List K))) (tol : K) (s : Spline K (List K)) (splitting : Splitting K)
    (interval : Option (Plane K)) : Option (Spline K (List K)) :=
  match splitting, interval with
  | .planes _, some _ => none
  | .planes items, none => extractLoop insert tol (sortedItems items) s
  | .axis i, some plane => extractSpline insert tol s i plane
  | .axis _, none => none

end Splinepy.ExtractPlanes
