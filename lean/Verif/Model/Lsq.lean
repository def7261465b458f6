import Verif.Model.Nnls
import Verif.Model.Slsqp

/-!
Model of the solution of the quadratic subproblem of the fallback search of `proximities`: `ldp` (least distance), `lsi` (least squares with inequalities), `lsei` without equations and
`lsq` (`src/proximity/slsqp/slsqp.c` 583-1267).

Arrays are functions of the (zero-based) index; the matrix `e` is a function of the column and the row, the matrix `g` of the constraints a function of the row and the column. Numbers are
exact and the square root is a parameter.
-/

namespace Splinepy.Lsq

variable {K : Type} [Field K] [LinearOrder K]

/-- `epmach`, src/proximity/slsqp/slsqp.c 1053 -/
def epmach : K := 222 / 10 ^ 18

/-- The matrix of the dual problem, column by column: a row of `g` and its right hand side; src/proximity/slsqp/slsqp.c 1203-1215 -/
def dualMatrix (n : ℕ) (g : ℕ → ℕ → K) (h : ℕ → K) : ℕ → ℕ → K := fun j i => if i < n then g j i else h j

/-- the right hand side of the dual problem, src/proximity/slsqp/slsqp.c 1216-1223 -/
def dualRhs (n : ℕ) : ℕ → K := fun i => if i = n then 1 else 0

/-- `ldp`, src/proximity/slsqp/slsqp.c 1155-1267: the point of least norm with `g x >= h` (`m` constraints, `n` unknowns); `mode` and the point. The multipliers are not read by the
callers of splinepy. -/
def ldp (sqrt : K → K) (m n : ℕ) (g : ℕ → ℕ → K) (h : ℕ → K) (mem : State K) : ℕ × (ℕ → K) :=
  if n = 0 then (2, fun _ => 0)
  else if m = 0 then (1, fun _ => 0)
  else
    let s := nnls sqrt (n + 1) m (dualMatrix n g h) (dualRhs n) mem (rounds m)
    match s.loc with
    | .done 1 =>
      if rnorm sqrt (n + 1) s ≤ 0 then (4, fun _ => 0)
      else
        let fac := 1 - dotFrom 0 m h s.x
        if ¬1 + fac - 1 > 0 then (4, fun _ => 0)
        else (1, fun i => 1 / fac * dotFrom 0 m (fun j => g j i) s.x)
    | .done mode => (mode, fun _ => 0)
    | _ => (0, fun _ => 0)

/-- lines 1075-1107 of `lsi`: one step of the triangularisation of `e` (src/proximity/slsqp/slsqp.c) -/
def triangularise (sqrt : K → K) (n : ℕ) (s : (ℕ → ℕ → K) × (ℕ → K)) (i : ℕ) : (ℕ → ℕ → K) × (ℕ → K) :=
  let u := construct sqrt i n (s.1 i)
  (fun k => if k = i then u.1 else if i < k ∧ k < n then reflect i n u.1 u.2 (s.1 k) else s.1 k, reflect i n u.1 u.2 s.2)

/-- lines 1111-1122 of `lsi`: a row of `g` times the inverse of the triangular matrix, for the first `k` columns (src/proximity/slsqp/slsqp.c) -/
def rowTimesInverse (e : ℕ → ℕ → K) (g : ℕ → K) : ℕ → ℕ → K
  | 0 => g
  | k + 1 => Function.update (rowTimesInverse e g k) k ((g k - dotFrom 0 k (rowTimesInverse e g k) (e k)) / e k k)

/-- lines 1135-1142 of `lsi`: the triangular system, from the last row; `k` rows are left of `n` (src/proximity/slsqp/slsqp.c) -/
def solveRows (n : ℕ) (e : ℕ → ℕ → K) : ℕ → (ℕ → K) → ℕ → K
  | 0, x => x
  | k + 1, x => solveRows n e k (Function.update x k ((x k - dotFrom (k + 1) n (fun j => e j k) x) / e k k))

/-- `lsi`, src/proximity/slsqp/slsqp.c 1035-1153: the point with the least norm of `e x - f` (`n` rows and columns) among those with `g x >= h` (`m` constraints); `mode` and the point.
With `mode = 5` the code leaves the array of the result as it is (the callers do not read it). -/
def lsi (sqrt : K → K) (m n : ℕ) (e : ℕ → ℕ → K) (f : ℕ → K) (g : ℕ → ℕ → K) (h : ℕ → K) (mem : State K) : ℕ × (ℕ → K) :=
  let t := (List.range n).foldl (triangularise sqrt n) (e, f)
  if 0 < m ∧ ((List.range n).any fun j => decide (¬|t.1 j j| ≥ (epmach : K))) then (5, fun _ => 0)
  else
    let g' := fun i => rowTimesInverse t.1 (g i) n
    let h' := fun i => h i - dotFrom 0 n (g' i) t.2
    let r := ldp sqrt m n g' h' mem
    if r.1 ≠ 1 then r
    else (1, solveRows n t.1 n fun i => r.2 i + t.2 i)

/-- lines 632-672 of `lsq`: the matrix `e`, column `j` and row `i`, the product of the square root of `D` and the transpose of `L` (src/proximity/slsqp/slsqp.c) -/
def rootFactor (sqrt : K → K) (l : Slsqp.Factors K) (j i : ℕ) : K :=
  let c := l.getD i (0, [])
  if i < j then sqrt c.1 * c.2.getD (j - i - 1) 0 else if i = j then sqrt c.1 else 0

/-- lines 652-656 of `lsq`: the vector `f` before the change of sign, the first `k` components (src/proximity/slsqp/slsqp.c) -/
def rootRhs (e : ℕ → ℕ → K) (g : ℕ → K) : ℕ → ℕ → K
  | 0 => fun _ => 0
  | k + 1 => Function.update (rootRhs e g k) k ((g k - dotFrom 0 k (e k) (rootRhs e g k)) / e k k)

/-- lines 713-752 of `lsq`: the constraints `x >= xl` and `-x >= -xu` (src/proximity/slsqp/slsqp.c) -/
def boxRows (n : ℕ) (xl xu : ℕ → K) : (ℕ → ℕ → K) × (ℕ → K) :=
  (fun i j => if i < n then if j = i then 1 else 0 else if j = i - n then -1 else 0, fun i => if i < n then xl i else -xu (i - n))

/-- `lsq` (583-789) without constraints besides the bounds, before its final call of `bound`, with `lsei` (791-1033), which passes its arguments on to `lsi` when there are no equations
(`mc = 0`): step for the factors `l`, the gradient `g` and the bounds `xl` and `xu` of the step (src/proximity/slsqp/slsqp.c) -/
def lsq (sqrt : K → K) (mem : State K) (l : Slsqp.Factors K) (g xl xu : List K) : (ℕ → K) × ℤ :=
  let n := g.length
  let e := rootFactor sqrt l
  let f := fun i => -rootRhs e (fun i => g.getD i 0) n i
  let b := boxRows n (fun i => xl.getD i 0) fun i => xu.getD i 0
  let r := lsi sqrt (n + n) n e f b.1 b.2 mem
  (r.2, r.1)

end Splinepy.Lsq
