import Mathlib.Data.Nat.Notation

/-!
Model of the calls `fit.curve` and `fit.surface` of splinepy/helpme/fit.py around the systems that are solved (those are in Model/Fit.lean): shapes of the arrays,
forms of the arguments, and what is returned. The given numbers are assumed to be accepted (`2 ≤ n ≤ m`, see Model/Fit.lean 59).
-/
namespace Splinepy.FitCalls

/-- Shape of an array of numbers. (splinepy/helpme/fit.py 164-228) -/
inductive Shape where
  | vec (n : ℕ)
  | mat (n d : ℕ)
deriving DecidableEq

/-- Shape of the solution for a right-hand side with `n` rows and `d` columns: `spsolve` of scipy returns a vector for one column, `lstsq` of numpy keeps the columns.
(splinepy/helpme/fit.py 197-199, 209-211, 216-223) -/
def solveShape (scipy : Bool) (n d : ℕ) : Shape := if scipy && d == 1 then .vec n else .mat n d

/-- `control_points = x` for a spline with `n` control points succeeds: the core asks for the second axis (src/py/py_spline.cpp 72-76) and compares the numbers
(splinepy/helpme/fit.py 216, 221; splinepy/spline.py 965-989). -/
def assignAll (n : ℕ) : Shape → Bool
  | .vec _ => false
  | .mat k _ => k == n

/-- `control_points[1:-1] = x` succeeds: numpy aligns the last axes and repeats axes of length one. (splinepy/helpme/fit.py 197, 209) -/
def assignInner (n d : ℕ) : Shape → Bool
  | .vec k => k == d || k == 1
  | .mat k e => (k == n - 2 || k == 1) && (e == d || e == 1)

/-- `solve_for_control_points` does not raise, for `m` points with `d` coordinates and `n` control points. (splinepy/helpme/fit.py 170-228) -/
def solves (scipy endpoints : Bool) (m n d : ℕ) : Bool :=
  if endpoints && n != m then n == 2 || assignInner n d (solveShape scipy (n - 2) d)
  else assignAll n (solveShape scipy n d)

/-- How the parameters are given: an array with one column, a nested list with one column, something with one axis. (splinepy/helpme/fit.py 355-358, 461-475) -/
inductive Queries where
  | array
  | nested
  | flat
deriving DecidableEq

/-- What a call returns. (splinepy/helpme/fit.py 396-407, 576-591) -/
inductive Returned where
  | raises
  | pair
  | dictionary
deriving DecidableEq

/-- Names of the public properties and methods of splines; those of the subclasses and of the core have other names than the ones asked for. (splinepy/spline.py 436-1720) -/
def attributes : List String :=
  ["required_properties", "para_dim", "dim", "whatami", "name", "has_knot_vectors", "is_rational", "extract", "check", "integrate", "create", "show_options",
    "spline_data", "clear", "degrees", "knot_vectors", "unique_knots", "knot_multiplicities", "parametric_bounds", "control_points", "control_point_bounds",
    "control_mesh_resolutions", "mapper", "greville_abscissae", "multi_index", "weights", "evaluate", "sample", "derivative", "jacobian", "support", "basis",
    "basis_and_support", "basis_derivative", "basis_derivative_and_support", "proximities", "elevate_degrees", "reduce_degrees", "export", "todict", "copy", "show",
    "showable", "ds", "kvs", "cps", "ws"]

/-- The end of both functions: with `verbose_output` attributes of the spline are collected. (splinepy/helpme/fit.py 396-407, 576-591) -/
def answer (verbose : Bool) : Returned :=
  if verbose then (if ["knot_vector", "degrees", "control_points"].all fun a => attributes.contains a then .dictionary else .raises) else .pair

/-- `fit.curve` for `m` points with `d` coordinates and `n` control points. (splinepy/helpme/fit.py 347-407) -/
def curve (scipy : Bool) (queries : Option Queries) (endpoints verbose : Bool) (m n d : ℕ) : Returned :=
  if queries = some .flat then .raises
  else if solves scipy endpoints m n d then answer verbose
  else .raises

/-- `fit.surface` for `s0` times `s1` points and `n0` times `n1` control points; `given`: a knot vector or a spline is given. The checks in 461-475 ask for
`.shape`, which lists do not have. (splinepy/helpme/fit.py 456-591) -/
def surface (scipy : Bool) (queries : Option Queries) (given endpoints verbose : Bool) (s0 s1 n0 n1 d : ℕ) : Returned :=
  if given ∧ (queries = some .flat ∨ queries = some .nested) then .raises
  else if (List.range s1).all fun _ => curve scipy (some .array) endpoints false s0 n0 d == .pair then
    (if (List.range n0).all fun _ => curve scipy (some .array) endpoints false s1 n1 d == .pair then answer verbose else .raises)
  else .raises

end Splinepy.FitCalls
