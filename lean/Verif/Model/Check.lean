import Mathlib.Algebra.Order.Field.Basic
import Mathlib.Algebra.Order.Group.Unbundled.Abs

/-!
Model of `splinepy/helpme/check.py` 8-96. Numbers are elements of an ordered field (no NaN).
-/
namespace Splinepy.Check

variable {K : Type} [Field K] [LinearOrder K]

/-- what `valid_queries` does: returns, or raises one of three errors (a zero-size array makes `np.min` raise). The errors of lines 37-44 and 49-56 name a
parametric dimension and the position of a query. (splinepy/helpme/check.py) -/
inductive Outcome
  | valid
  | mismatch
  | noQueries
  | below (dim query : ℕ)
  | above (dim query : ℕ)
deriving DecidableEq

/-- column `d` of the queries (splinepy/helpme/check.py 35, 47) -/
def column (queries : List (List K)) (d : ℕ) : List K := queries.map (fun q => q.getD d 0)

/-- `np.min`, `np.max` of a column, lines 35 and 47 (splinepy/helpme/check.py) -/
def minOf : List K → K
  | [] => 0
  | x :: xs => xs.foldl min x
/-- `np.max` of a column, splinepy/helpme/check.py 35, 47. -/
def maxOf : List K → K
  | [] => 0
  | x :: xs => xs.foldl max x

/-- `np.where(...)[0][0]`: the first dimension with a property (splinepy/helpme/check.py) -/
def firstDim (n : ℕ) (p : ℕ → Bool) : ℕ := ((List.range n).find? p).getD n

/-- `valid_queries`, lines 8-57. `lo` and `hi` are the rows of `parametric_bounds`; `nCols` is `queries.shape[1]`. Line 37 compares with `bounds[1]`. (splinepy/helpme/check.py) -/
def validQueries (lo hi : List K) (nCols : ℕ) (queries : List (List K)) : Outcome :=
  if lo.length ≠ nCols then .mismatch
  else if queries = [] then .noQueries
  else if (List.range nCols).any (fun d => decide (lo.getD d 0 > minOf (column queries d))) then
    let dim := firstDim nCols (fun d => decide (hi.getD d 0 > minOf (column queries d)))
    .below dim ((column queries dim).idxOf (minOf (column queries dim)))
  else if (List.range nCols).any (fun d => decide (hi.getD d 0 < maxOf (column queries d))) then
    let dim := firstDim nCols (fun d => decide (hi.getD d 0 < maxOf (column queries d)))
    .above dim ((column queries dim).idxOf (maxOf (column queries dim)))
  else .valid

/-- one knot vector in `clamped_knot_vectors`, lines 82-94 (splinepy/helpme/check.py) -/
def clamped (tol : K) (d : ℕ) (kv : List K) : Bool :=
  ((kv.take (d + 1)).all (fun k => decide (abs (k - kv.headD 0) < tol))) &&
  ((kv.drop (kv.length - (d + 1))).all (fun k => decide (abs (k - kv.getLastD 0) < tol)))

/-- `clamped_knot_vectors`, lines 60-96, for a spline with knot vectors (splinepy/helpme/check.py) -/
def clampedKnotVectors (tol : K) (degrees : List ℕ) (knotVectors : List (List K)) : Bool :=
  (degrees.zip knotVectors).all (fun p => clamped tol p.1 p.2)

end Splinepy.Check
