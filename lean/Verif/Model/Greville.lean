import Mathlib.Algebra.Order.Field.Basic

/-!
Model of `GetGrevilleAbscissae`, `include/splinepy/splines/helpers/properties.hpp` 103-159, called once per parametric dimension
(`src/py/py_spline.cpp` 344-364), and of `GetParametricBounds`, properties.hpp 34-57, for one dimension.

Simplifications: `double` is an ordered field. Degree 0 divides by zero (NaN) and is excluded in the theorems. All indices are in range for knot vectors with at
least `2 (degree + 1)` knots and degree at least 1, hence reads with a default value.
-/
namespace Splinepy.Greville

variable {K : Type} [Field K] [LinearOrder K]

/-- lines 126-133: mean of `degree` knots, starting at knot `j + 1` (include/splinepy/splines/helpers/properties.hpp) -/
def abscissa (kv : List K) (degree j : ℕ) : K := 1 / (degree : K) * ((List.range degree).map (fun (k : ℕ) => kv.getD (k + j + 1) 0)).sum

/-- lines 111-137, spline with knot vectors (include/splinepy/splines/helpers/properties.hpp) -/
def abscissae (kv : List K) (degree : ℕ) : List K := (List.range (kv.length - degree - 1)).map (abscissa kv degree)

/-- lines 111-137, spline without knot vectors (include/splinepy/splines/helpers/properties.hpp) -/
def bezierAbscissae (degree : ℕ) : List K := (List.range (degree + 1)).map (fun (j : ℕ) => 1 / (degree : K) * (j : K))

/-- body of the loop in lines 145-156; the state is the array and `previous_knot` (include/splinepy/splines/helpers/properties.hpp) -/
def filterStep (tol : K) (s : List K × K) (j : ℕ) : List K × K :=
  if abs (s.2 - s.1.getD j 0) < tol then
    ((s.1.set (j - 1) ((s.1.getD (j - 2) 0 + s.1.getD (j - 1) 0) / 2)).set j ((s.1.getD j 0 + s.1.getD (j + 1) 0) / 2), s.2)
  else (s.1, s.1.getD j 0)

/-- lines 142-158 (include/splinepy/splines/helpers/properties.hpp) -/
def filter (tol : K) (g : List K) : List K :=
  if 0 < tol then ((List.range' 2 (g.length - 3)).foldl (filterStep tol) (g, g.getD 1 0)).1 else g

/-- all of it (include/splinepy/splines/helpers/properties.hpp 103-159) -/
def greville (kv : List K) (degree : ℕ) (tol : K) : List K := filter tol (abscissae kv degree)

/-- `GetParametricBounds`, properties.hpp 47-53 -/
def bounds (kv : List K) (degree : ℕ) : K × K := (kv.getD degree 0, kv.getD (kv.length - degree - 1) 0)

end Splinepy.Greville
