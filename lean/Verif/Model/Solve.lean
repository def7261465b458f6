import Mathlib.Algebra.Order.Field.Basic
import Mathlib.Algebra.Order.AbsoluteValue.Basic

/-!
Model of `Matrix::Solve` in `include/splinepy/utils/arrays.hpp` (701-800): Gaussian elimination with row pivoting by an index array.

Simplifications: arrays are functions of their indices (only indices below the size are used), numbers are elements of an ordered field, the check of the residual of
debug builds (802-818) is left out.
-/
namespace Splinepy.Solve

variable {K : Type} [Field K] [LinearOrder K]

/-- the matrix, the right-hand side and the row order (include/splinepy/utils/arrays.hpp 674-735) -/
structure Sys (K : Type) where
  A : ℕ → ℕ → K
  b : ℕ → K
  ord : ℕ → ℕ

/-- lines 740-752: position of the row with the entry of largest magnitude in column `i`, among the positions from `i` on (include/splinepy/utils/arrays.hpp) -/
def maxRow (n : ℕ) (s : Sys K) (i : ℕ) : ℕ :=
  ((List.range' (i + 1) (n - (i + 1))).foldl
    (fun (m : ℕ × K) (j : ℕ) => if abs (s.A (s.ord j) i) > m.2 then (j, abs (s.A (s.ord j) i)) else m)
    (i, abs (s.A (s.ord i) i))).1

/-- `SwapRow`, 701-703 (include/splinepy/utils/arrays.hpp) -/
def swapRow (ord : ℕ → ℕ) (i j : ℕ) : ℕ → ℕ := fun k => if k = i then ord j else if k = j then ord i else ord k

/-- lines 762-782: reduction of the row at position `j` by the row at position `i`. `i_r` is a reference to the entry of the row order, so it is read after the swap. (include/splinepy/utils/arrays.hpp) -/
def reduceRow (n : ℕ) (i : ℕ) (s : Sys K) (j : ℕ) : Sys K :=
  let p := s.ord i
  let r := s.ord j
  let f := s.A r i / s.A p i
  { s with
    A := fun r' k => if r' = r then (if k = i then 0 else if i < k ∧ k < n then s.A r k - s.A p k * f else s.A r k) else s.A r' k
    b := fun r' => if r' = r then s.b r - s.b p * f else s.b r' }

/-- lines 736-783: one step of the forward reduction (include/splinepy/utils/arrays.hpp) -/
def forwardStep (n : ℕ) (s : Sys K) (i : ℕ) : Sys K :=
  let m := maxRow n s i
  let s' := if m ≠ i then { s with ord := swapRow s.ord m i } else s
  (List.range' (i + 1) (n - (i + 1))).foldl (reduceRow n i) s'

/-- The forward reduction, include/splinepy/utils/arrays.hpp 736-783. -/
def forward (n : ℕ) (s : Sys K) : Sys K := (List.range n).foldl (forwardStep n) s

/-- lines 793-799: one step of the back substitution (include/splinepy/utils/arrays.hpp) -/
def backStep (n : ℕ) (s : Sys K) (x : ℕ → K) (i : ℕ) : ℕ → K :=
  let a := s.A (s.ord i)
  let sum := ((List.range' (i + 1) (n - (i + 1))).map (fun j => a j * x j)).sum
  fun k => if k = i then (s.b (s.ord i) - sum) / a i else x k

/-- lines 787-800 (include/splinepy/utils/arrays.hpp) -/
def back (n : ℕ) (s : Sys K) (x : ℕ → K) : ℕ → K := (List.range n).reverse.foldl (backStep n s) x

/-- `Solve`, 708-819 (include/splinepy/utils/arrays.hpp) -/
def solve (n : ℕ) (s : Sys K) : ℕ → K := back n (forward n s) (fun _ => 0)

/-- the row order left behind, the starting order of the next call unless `ResetRowOrder` (697-699) is called (include/splinepy/utils/arrays.hpp) -/
def rowOrderAfter (n : ℕ) (s : Sys K) : ℕ → ℕ := (forward n s).ord

end Splinepy.Solve
