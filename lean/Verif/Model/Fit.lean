import Mathlib.Algebra.Order.Field.Basic
import Mathlib.Algebra.BigOperators.Group.Finset.Basic

/-!
Model of `splinepy/helpme/fit.py`. `float` is an arbitrary linearly ordered field `K` (exact arithmetic).
-/
namespace Splinepy.Fit

variable {K : Type} [Field K] [LinearOrder K]

/-- `np.cumsum`. (splinepy/helpme/fit.py 59, 67) -/
def cumsum : K → List K → List K
  | _, [] => []
  | acc, c :: cs => (acc + c) :: cumsum (acc + c) cs

/-- Chord lengths divided by their total and accumulated, `parametrize_to_line` 48-59. (splinepy/helpme/fit.py) -/
def normalised (chords : List K) : List K := cumsum 0 (chords.map (· / chords.sum))

/-- `u_k[0] = 0; u_k[-1] = 1`, `parametrize_to_line` 70-72, for `u_k[1:] = tail`. (splinepy/helpme/fit.py) -/
def withEnds (tail : List K) : List K := (0 :: tail).set tail.length 1

/-- `parametrize_to_line` 34-74 for a curve, from the chord lengths (41-46: norms of differences, or their square roots). (splinepy/helpme/fit.py) -/
def lineParams (chords : List K) : List K := withEnds (normalised chords)

/-- Mean over lines, `parametrize_to_line` 66-69. (splinepy/helpme/fit.py) -/
def meanAt (lines : List (List K)) (i : ℕ) : K := (lines.map fun l => l.getD i 0).sum / (lines.length : K)

/-- `parametrize_to_line` 34-74 for one direction of a surface; `lines` are the chord lengths along each grid line of this
direction, all of length `n - 1` (the points form a grid, line 79). (splinepy/helpme/fit.py) -/
def surfaceParams (n : ℕ) (lines : List (List K)) : List K :=
  withEnds ((List.range (n - 1)).map (meanAt (lines.map normalised)))

/-- `np.convolve(u, np.ones(p), "valid")[1:-1] / p`, 121, for `0 < p ≤ len(u)`: entry `j` sums `u[j : j + p]`. (splinepy/helpme/fit.py) -/
def averages (p : ℕ) (u : List K) : List K :=
  (((List.range (u.length - p + 1)).map fun j => ∑ l ∈ Finset.range p, u.getD (j + l) 0).tail.dropLast).map (· / (p : K))

/-- `u_k_flat[i]` with Python's negative index; `none`: `IndexError`. (splinepy/helpme/fit.py 130-138) -/
def flatAt (u : List K) (i : ℤ) : Option K :=
  if 0 ≤ i then u[i.toNat]? else if 0 ≤ i + u.length then u[(i + u.length).toNat]? else none

/-- One pass of the loop 133-138; `int(j * d)` and the rest `alpha` are computed exactly from `d = m / q`. (splinepy/helpme/fit.py) -/
def approxKnot (u : List K) (m q j : ℕ) : Option K :=
  let i := j * m / q
  let alpha : K := ((j * m % q : ℕ) : K) / (q : K)
  match flatAt u ((i : ℤ) - 1), flatAt u i with
  | some a, some b => some ((1 - alpha) * a + alpha * b)
  | _, _ => none

/-- `compute_knot_vector`, 89-139, for `degree < n_control_points` (checked in 267). `none`: exceptions of `np.convolve`
without weights (degree zero), of assigning a wrong number of values, and of `u_k_flat`. (splinepy/helpme/fit.py) -/
def computeKnotVector (p n : ℕ) (u : List K) (m : ℕ) : Option (List K) :=
  let interior : Option (List K) :=
    if m = n then
      if p = 0 then none
      else if (averages p u).length = n - p - 1 then some (averages p u) else none
    else ((List.range (n - p - 1)).mapM fun j => approxKnot u m (n - p) (j + 1))
  interior.map fun i => List.replicate (p + 1) 0 ++ i ++ List.replicate (p + 1) 1

/-- `_validate_specifications`, 231-277; `kvLen` is the length of the given knot vector. (splinepy/helpme/fit.py) -/
def validateSpecifications (nQuery : ℤ) (degree nCps kvLen : Option ℤ) : Option (ℤ × ℤ) :=
  let nCps := match degree, kvLen with
    | some d, some l => some (l - d - 1)
    | _, _ => nCps
  let degree := match kvLen, nCps with
    | some l, some n => some (l - n - 1)
    | _, _ => degree
  match degree with
  | none => none
  | some d =>
    let n := nCps.getD nQuery
    if d ≥ n then none else if n > nQuery then none else some (d, n)

/-- `_prepare_default_bspline1pd`, 280-302: degree and knot vector of the new spline; degrees below zero raise in `np.empty`
or in the constructor. (splinepy/helpme/fit.py) -/
def prepareDefault (nQuery : ℕ) (degree nCps : Option ℤ) (knotVector : Option (List K)) (u : List K) :
    Option (ℕ × List K) :=
  match validateSpecifications nQuery degree nCps (knotVector.map fun k => (k.length : ℤ)) with
  | none => none
  | some (d, n) =>
    if d < 0 then none
    else (computeKnotVector d.toNat n.toNat u nQuery).map fun kv => (d.toNat, kv)

/-- Spline used by `curve` (368-388): degree and knot vector; a given fitting spline is copied. (splinepy/helpme/fit.py) -/
def curveSpline (nQuery : ℕ) (degree nCps : Option ℤ) (knotVector : Option (List K))
    (fittingSpline : Option (ℕ × List K)) (u : List K) : Option (ℕ × List K) :=
  match fittingSpline with
  | some s => some s
  | none => prepareDefault nQuery degree nCps knotVector u

/-! ### Control points -/

/-- The linear solver (`scipy` 197-199, 216-218 or `lstsq` 209-211, 221-223), one coordinate of the points at a time: rows,
columns, matrix, right-hand side. (splinepy/helpme/fit.py) -/
abbrev Solver (K : Type) := ℕ → ℕ → (ℕ → ℕ → K) → (ℕ → K) → (ℕ → K)

/-- `solve_for_control_points`, 164-223, for one coordinate of the points. `A` is the coefficient matrix (`m` queries, `n`
control points), `b` the fitting points, `old` the control points before the call. The two shapes of 172 differ exactly if
`m ≠ n`. Row slices `[1:-1]` are shifts by one. (splinepy/helpme/fit.py) -/
def solveControlPoints (solver : Solver K) (m n : ℕ) (A : ℕ → ℕ → K) (b old : ℕ → K) (endpoints : Bool) : ℕ → K :=
  if endpoints ∧ n ≠ m then
    let cps := Function.update (Function.update old 0 (b 0)) (n - 1) (b (m - 1))
    if n = 2 then cps
    else
      let x := solver (m - 2) (n - 2) (fun i j => A (i + 1) (j + 1))
        (fun i => b (i + 1) - (A (i + 1) 0 * b 0 + A (i + 1) (n - 1) * b (m - 1)))
      fun j => if 1 ≤ j ∧ j < n - 1 then x (j - 1) else cps j
  else solver m n A b

/-! ### Surfaces -/

/-- Assignment `array[ids] = values` for an index list. (splinepy/helpme/fit.py 536-576) -/
def scatter {P : Type} (a : List P) (ids : List ℕ) (values : List P) : List P :=
  (ids.zip values).foldl (fun a iv => a.set iv.1 iv.2) a

/-- `array[ids]`. (splinepy/helpme/fit.py 536-576) -/
def gather {P : Type} (a : List P) (ids : List ℕ) (z : P) : List P := ids.map fun i => a.getD i z

/-- `MultiIndex((a, b))[:n, v]` in the first-index-fastest numbering of `Model/Index.lean`. (splinepy/helpme/fit.py 533-576) -/
def column (a n v : ℕ) : List ℕ := (List.range n).map fun i => i + a * v

/-- `MultiIndex((a, b))[u, :n]`. (splinepy/helpme/fit.py 533-576) -/
def rowIds (a n u : ℕ) : List ℕ := (List.range n).map fun v => u + a * v

/-- `surface`, 536-576: `fitU`, `fitV` map the points of one line to the control points (the previous spline only supplies
degree and knots); `s0`, `s1` are `size`, `n0`, `n1` the control mesh resolutions, `init` the uninitialised array of 538. (splinepy/helpme/fit.py) -/
def surface {P : Type} (fitU fitV : List P → List P) (s0 s1 n0 n1 : ℕ) (points init : List P) (z : P) : List P :=
  let interim := (List.range s1).foldl
    (fun a v => scatter a (column n0 n0 v) (fitU (gather points (column s0 s0 v) z))) init
  let interim := (List.range n0).foldl
    (fun a u => scatter a (rowIds n0 n1 u) (fitV (gather a (rowIds n0 s1 u) z))) interim
  gather interim ((List.range n1).flatMap fun v => column n0 n0 v) z

end Splinepy.Fit
