import Verif.Spec.BSpline
import Mathlib.Data.List.Perm.Basic

/-! Specification of the inputs of a knot insertion. -/
namespace Splinepy.Spec

/-- Inserting the knots `ins` into the knot vector `old` of degree `p` gives `new`; the spline is clamped at its start, its parametric
domain is `[old[p], old[len-p-1]]`, the inserted knots lie inside of the open domain, and different knots are further apart than
the tolerance (so that comparisons with the tolerance are exact). -/
structure Insertion {K : Type*} [Field K] [LinearOrder K] (p : ℕ) (old ins new : List K) (tol : K) : Prop where
  degree : 1 ≤ p
  sorted_old : old.Pairwise (· ≤ ·)
  sorted_new : new.Pairwise (· ≤ ·)
  union : new.Perm (old ++ ins)
  length : 2 * p + 2 ≤ old.length
  clamped : knotSeq old 0 = knotSeq old p
  last_span : knotSeq old (old.length - p - 2) < knotSeq old (old.length - p - 1)
  inside : ∀ x ∈ ins, knotSeq old p < x ∧ x < knotSeq old (old.length - p - 1)
  tol_pos : 0 < tol
  separated : ∀ a ∈ old, ∀ b ∈ old ++ ins, |a - b| < tol → a = b

/-- matrix (list of rows) times vector -/
def mulVec {K : Type*} [Field K] (rows : List (List K)) (c : ℕ → K) (i : ℕ) : K :=
  ((rows.getD i []).mapIdx (fun j a => a * c j)).sum

/-- product of a sparse matrix, given as (row, column, value) triples, with a vector: duplicates are summed up, as in scipy's
`csr_matrix((values, (rows, cols)))` -/
def sparseMulVec {K : Type*} [Field K] (entries : List (ℕ × ℕ × K)) (c : List K) (g : ℕ) : K :=
  ((entries.filter (fun e => e.1 = g)).map (fun e => e.2.2 * c.getD e.2.1 0)).sum

end Splinepy.Spec
