import Mathlib.Algebra.Order.Field.Basic
import Mathlib.Algebra.BigOperators.Group.Finset.Basic
import Mathlib.Algebra.Order.AbsoluteValue.Basic
import Mathlib.Order.Interval.Finset.Nat

/-!
Model of the least squares routines below the fallback search of `proximities`: Householder transformations `h12`, plane rotations `dsrotg` and `dsrot`, the non-negative least squares
routine `nnls` and the least distance routine `ldp` (`src/proximity/slsqp/slsqp.c`).

Arrays are functions of the (zero-based) index; a matrix is a function of the column and the row. The square root is a parameter. Numbers are exact; sums and norms that the code scales
against overflow (`dnrm2`) are plain sums. Not-a-number is not modelled; `nnls_defined` in `Props/Nnls.lean` shows that no `0 / 0` occurs where the code could meet one.
-/

namespace Splinepy.Lsq

variable {K : Type} [Field K] [LinearOrder K]

/-- `ddot_sl` of the rows `p, ..., m - 1`, src/proximity/slsqp/slsqp.c 2298-2370 -/
def dotFrom (p m : ℕ) (u v : ℕ → K) : K := ∑ i ∈ Finset.Ico p m, u i * v i

/-- `dnrm2` of the rows `p, ..., m - 1`, src/proximity/slsqp/slsqp.c 2424-2545 (without the scaling) -/
def norm2 (sqrt : K → K) (p m : ℕ) (u : ℕ → K) : K := sqrt (dotFrom p m u u)

/-- lines 1804-1814 of `h12`: the largest absolute value among the pivot `p` and the rows below (src/proximity/slsqp/slsqp.c) -/
def largest (p m : ℕ) (u : ℕ → K) : K := (List.range' (p + 1) (m - (p + 1))).foldl (fun cl j => max |u j| cl) |u p|

/-- `h12` with `mode = 1`, src/proximity/slsqp/slsqp.c 1800-1838: constructs the transformation that maps the column `u` to zero below the pivot row `p`; the result is the new content of
`u` (which keeps the Householder vector below the pivot) and `up`. Where the code leaves `up` untouched it is `0` here; the application of the transformation does not read it then. -/
def construct (sqrt : K → K) (p m : ℕ) (u : ℕ → K) : (ℕ → K) × K :=
  if m ≤ p + 1 then (u, 0)
  else
    let cl := largest p m u
    if cl ≤ 0 then (u, 0)
    else
      let clinv := 1 / cl
      let sm := u p * clinv * (u p * clinv) + ∑ j ∈ Finset.Ico (p + 1) m, u j * clinv * (u j * clinv)
      let cl := cl * sqrt sm
      let cl := if u p > 0 then -cl else cl
      (Function.update u p cl, u p - cl)

/-- `h12` with `mode = 2`, src/proximity/slsqp/slsqp.c 1800-1804 and 1839-1884: applies the transformation to one vector `c` -/
def reflect (p m : ℕ) (u : ℕ → K) (up : K) (c : ℕ → K) : ℕ → K :=
  if m ≤ p + 1 then c
  else if |u p| ≤ 0 then c
  else
    let b := up * u p
    if b ≥ 0 then c
    else
      let b := 1 / b
      let sm := c p * up + ∑ i ∈ Finset.Ico (p + 1) m, c i * u i
      if sm = 0 then c
      else
        let sm := sm * b
        fun i => if i = p then c i + sm * up else if p < i ∧ i < m then c i + sm * u i else c i

/-- `dsrotg`, src/proximity/slsqp/slsqp.c 2604-2645: `r`, cosine and sine (the encoded value of `db` is not read by its only caller) -/
def rotg (sqrt : K → K) (da db : K) : K × K × K :=
  let roe := if |da| > |db| then da else db
  let scale := |da| + |db|
  if scale = 0 then (0, 1, 0)
  else
    let r := scale * sqrt (da / scale * (da / scale) + db / scale * (db / scale))
    let r := if roe < 0 then -r else r
    (r, da / r, db / r)

/-- `dsrot` for the rows `j - 1` and `j` of one column, src/proximity/slsqp/slsqp.c 2547-2602; `i` is `j - 1` -/
def rot (c s : K) (i : ℕ) (u : ℕ → K) : ℕ → K :=
  fun k => if k = i then c * u i + s * u (i + 1) else if k = i + 1 then c * u (i + 1) - s * u i else u k

/-- Where `nnls` is: `L110`, `L130`, `L180`, `L250` (with the position `jj` of the column that is deleted), or finished with a value of `mode` -/
inductive Loc
  | outer
  | test
  | solve
  | delete (jj : ℕ)
  | done (mode : ℕ)
deriving DecidableEq

/-- The variables of `nnls`, src/proximity/slsqp/slsqp.c 1269-1303. In the code `npp1 = iz1 = nsetp + 1` and `iz2 = n` hold all the time, so these are not stored. -/
structure State (K : Type) where
  a : ℕ → ℕ → K
  b : ℕ → K
  z : ℕ → K
  x : ℕ → K
  w : ℕ → K
  index : ℕ → ℕ
  nsetp : ℕ
  iter : ℕ
  loc : Loc

/-- lines 1316-1338: initial values; with `m <= 0` or `n <= 0` nothing is done (src/proximity/slsqp/slsqp.c). `mem` is the content of the work arrays. -/
def initial (m n : ℕ) (a : ℕ → ℕ → K) (b : ℕ → K) (mem : State K) : State K :=
  if m = 0 ∨ n = 0 then { mem with a := a, b := b, loc := .done 2 }
  else { mem with a := a, b := b, iter := 0, index := id, nsetp := 0, x := fun j => if j < n then 0 else mem.x j, loc := .outer }

/-- `L110`, lines 1341-1350 (src/proximity/slsqp/slsqp.c) -/
def outer (m n : ℕ) (s : State K) : State K :=
  if n ≤ s.nsetp ∨ m ≤ s.nsetp then { s with loc := .done 1 }
  else
    { s with
      w := (List.range' s.nsetp (n - s.nsetp)).foldl (fun w iz => Function.update w (s.index iz) (dotFrom s.nsetp m (s.a (s.index iz)) s.b)) s.w
      loc := .test }

/-- lines 1353-1362: the position of the largest positive dual variable (src/proximity/slsqp/slsqp.c) -/
def steepest (n : ℕ) (s : State K) : K × Option ℕ :=
  (List.range' s.nsetp (n - s.nsetp)).foldl (fun r iz => if s.w (s.index iz) ≤ r.1 then r else (s.w (s.index iz), some iz)) (0, none)

/-- lines 1376-1401: whether column `j` is accepted; `u` and `z` are the transformed column and the transformed right hand side (src/proximity/slsqp/slsqp.c) -/
def accepted (sqrt : K → K) (p : ℕ) (u z : ℕ → K) : Bool :=
  let unorm := norm2 sqrt 0 p u
  let t := 1 / 100 * |u p|
  if unorm + t - unorm ≤ 0 then false else decide (z p / u p > 0)

/-- `L160`, lines 1406-1434: column `j` at the position `iz` is added to the set of passive columns (src/proximity/slsqp/slsqp.c) -/
def add (m n iz : ℕ) (u : ℕ → K) (up : K) (z : ℕ → K) (s : State K) : State K :=
  let j := s.index iz
  let index := Function.update (Function.update s.index iz (s.index s.nsetp)) s.nsetp j
  let a := Function.update s.a j u
  let a := (List.range' (s.nsetp + 1) (n - (s.nsetp + 1))).foldl (fun a jz => Function.update a (index jz) (reflect s.nsetp m u up (a (index jz)))) a
  let a := Function.update a j fun i => if s.nsetp < i ∧ i < m then 0 else a j i
  { s with a := a, b := z, z := z, index := index, nsetp := s.nsetp + 1, w := Function.update s.w j 0, loc := .solve }

/-- `L130`, lines 1352-1434 (src/proximity/slsqp/slsqp.c). A rejected column gets its old content back (`asave`); the transformation has changed its pivot element only. -/
def test (sqrt : K → K) (m n : ℕ) (s : State K) : State K :=
  match (steepest n s).2 with
  | none => { s with loc := .done 1 }
  | some iz =>
    let j := s.index iz
    let h := construct sqrt s.nsetp m (s.a j)
    let z := reflect s.nsetp m h.1 h.2 s.b
    if accepted sqrt s.nsetp h.1 z then add m n iz h.1 h.2 z s
    else { s with w := Function.update s.w j 0, loc := .test }

/-- `L180`, lines 1437-1447: the triangular system of the passive columns, from the last row (`k` rows are left) (src/proximity/slsqp/slsqp.c) -/
def backward (a : ℕ → ℕ → K) (index : ℕ → ℕ) : ℕ → (ℕ → K) → ℕ → K
  | 0, z => z
  | k + 1, z => backward a index k fun i => if i = k then z k / a (index k) k else if i < k then z i - z k / a (index k) k * a (index k) i else z i

/-- lines 1457-1470: the step length and the position of the column that limits it (src/proximity/slsqp/slsqp.c) -/
def limit (s : State K) : K × Option ℕ :=
  (List.range s.nsetp).foldl (fun r ip =>
    if s.z ip > 0 then r
    else
      let t := -s.x (s.index ip) / (s.z ip - s.x (s.index ip))
      if r.1 < t then r else (t, some ip)) (1, none)

/-- `L180`, lines 1437-1482 (src/proximity/slsqp/slsqp.c) -/
def solve (n : ℕ) (s : State K) : State K :=
  let s := { s with z := backward s.a s.index s.nsetp s.z, iter := s.iter + 1 }
  if s.iter > 3 * n then { s with loc := .done 3 }
  else
    let r := limit s
    let x := (List.range s.nsetp).foldl (fun x ip => Function.update x (s.index ip) ((1 - r.1) * x (s.index ip) + r.1 * s.z ip)) s.x
    match r.2 with
    | none => { s with x := x, loc := .outer }
    | some jj => { s with x := x, loc := .delete jj }

/-- lines 1489-1499: the body of the loop that moves the columns behind the deleted one to the front (src/proximity/slsqp/slsqp.c); `i` is `j - 1`. The entries of column `ii` that are
overwritten by `dsrotg`, rotated by `dsrot` and overwritten again have their last values at once. -/
def shift (sqrt : K → K) (n : ℕ) (s : State K) (i : ℕ) : State K :=
  let ii := s.index (i + 1)
  let g := rotg sqrt (s.a ii i) (s.a ii (i + 1))
  { s with
    index := Function.update s.index i ii
    a := fun k => if k = ii then fun r => if r = i then g.1 else if r = i + 1 then 0 else s.a ii r
      else if k < n then rot g.2.1 g.2.2 i (s.a k) else s.a k
    b := rot g.2.1 g.2.2 i s.b }

/-- `L250`, lines 1484-1504: the column at position `jj` leaves the set of passive columns (src/proximity/slsqp/slsqp.c) -/
def drop (sqrt : K → K) (n jj : ℕ) (s : State K) : State K :=
  let i := s.index jj
  let s := { s with x := Function.update s.x i 0 }
  let s := (List.range' jj (s.nsetp - 1 - jj)).foldl (shift sqrt n) s
  { s with nsetp := s.nsetp - 1, index := Function.update s.index (s.nsetp - 1) i }

/-- `L250`, lines 1484-1514: after the deletion the next column that is not positive is looked for (src/proximity/slsqp/slsqp.c) -/
def delete (sqrt : K → K) (n jj : ℕ) (s : State K) : State K :=
  let s := drop sqrt n jj s
  if s.nsetp = 0 then { s with loc := .done 3 }
  else match (List.range s.nsetp).find? fun jj => decide (s.x (s.index jj) ≤ (0 : K)) with
    | some jj => { s with loc := .delete jj }
    | none => { s with z := s.b, loc := .solve }

/-- one round of `nnls`, src/proximity/slsqp/slsqp.c 1269-1527 -/
def step (sqrt : K → K) (m n : ℕ) (s : State K) : State K :=
  match s.loc with
  | .outer => outer m n s
  | .test => test sqrt m n s
  | .solve => solve n s
  | .delete jj => delete sqrt n jj s
  | .done _ => s

/-- `nnls`, src/proximity/slsqp/slsqp.c 1269-1527: the state after `k` rounds. `a` has `m` rows and `n` columns. -/
def nnls (sqrt : K → K) (m n : ℕ) (a : ℕ → ℕ → K) (b : ℕ → K) (mem : State K) : ℕ → State K
  | 0 => initial m n a b mem
  | k + 1 => step sqrt m n (nnls sqrt m n a b mem k)

/-- the number of rounds after which `nnls` has ended (theorem `nnls_stops`) -/
def rounds (n : ℕ) : ℕ := (3 * n + 2) * (n + 3)

/-- `L280`, lines 1517-1522: `rnorm` (src/proximity/slsqp/slsqp.c) -/
def rnorm (sqrt : K → K) (m : ℕ) (s : State K) : K := norm2 sqrt s.nsetp m s.b

end Splinepy.Lsq
