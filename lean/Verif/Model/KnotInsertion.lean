import Mathlib.Algebra.Order.Field.Basic
import Mathlib.Algebra.Order.AbsoluteValue.Basic
import Mathlib.Data.List.Sort
import Mathlib.Data.List.GetD

/-!
Model of `src/py/py_knot_insertion_matrix.cpp`: knot insertion matrices in one direction (`ComputeKnotInsertionMatrixAndKnotSpan`),
for a tensor product (`ComputeGlobalKnotInsertionMatrix`), the knot vectors of the Bezier extraction (`BezierExtractionMatrices`), and of
the new knots of `uniform_refine` (`splinepy/bspline.py`).
`double` is an ordered field. Exceptions and accesses outside of an array are `none`.
-/
namespace Splinepy.KnotInsertion

variable {K : Type} [Field K] [LinearOrder K]

/-- array read `kv[i]`; only used for indices known to be inside (see the checks in the callers), the fallback is arbitrary (src/py/py_knot_insertion_matrix.cpp 60-192) -/
def at_ (kv : List K) (i : ℕ) : K := kv.getD i (kv.getLastD 0)

/-- Lines 136-140, the entry of `index_of_knot_span_base` for new knot `x`, with `current_old_id = c - 1`. (src/py/py_knot_insertion_matrix.cpp) -/
def spanBase (old : List K) (x : K) (c span : ℕ) : ℤ :=
  if x < at_ old span then (c : ℤ) - 1 else (span : ℤ)

/-- Loop 106-141. Arguments: number of knots still to visit (the next one is `new[i]` for argument `i + 1`), `current_old_id + 1` and
`current_knot_span`. `current_old_id = -1` on entry of an iteration is a read before the array (108): `none`. The exception of
128 is `none`. (src/py/py_knot_insertion_matrix.cpp) -/
def scan (old new : List K) (tol : K) : ℕ → ℕ → ℕ → Option (List ℤ)
  | 0, _, _ => some []
  | _ + 1, 0, _ => none
  | i + 1, k + 1, span =>
    if |at_ old k - at_ new i| < tol then                                   -- 108
      let span' := if at_ old k < at_ old (k + 1) then k else span          -- 110-112
      (scan old new tol i k span').map (· ++ [spanBase old (at_ new i) k span'])
    else if at_ old k > at_ new i then none                                 -- 115
    else (scan old new tol i (k + 1) span).map (· ++ [spanBase old (at_ new i) (k + 1) span])

/-- `index_of_knot_span_base`, 97-141; the last entry keeps its initial value 0. (src/py/py_knot_insertion_matrix.cpp) -/
def knotSpanBase (old new : List K) (tol : K) : Option (List ℤ) :=
  (scan old new tol (new.length - 1) (old.length - 1) (old.length - 1)).map (· ++ [0])

/-- `R_matrix`, 60-94, for `i < deg`, `j ≤ deg` (the callers respect this). (src/py/py_knot_insertion_matrix.cpp) -/
def rMatrix (old : List K) (t : K) (mu deg i j : ℕ) : K :=
  if i > j ∨ j > i + 1 then 0
  else if j = i then (at_ old (mu + 1 + i) - t) / (at_ old (mu + 1 + i) - at_ old (mu + 1 + i - deg))
  else (t - at_ old (mu + 1 + i - deg)) / (at_ old (mu + 1 + i) - at_ old (mu + 1 + i - deg))

/-- Loop 183-187, `q = n, …, 1`; the row is a function of the column. (src/py/py_knot_insertion_matrix.cpp) -/
def rowInner (old : List K) (t : K) (mu d j : ℕ) : ℕ → (ℕ → K) → (ℕ → K)
  | 0, r => r
  | q + 1, r => rowInner old t mu d j q (Function.update r (j + (q + 1))
      (r (j + (q + 1) - 1) * rMatrix old t mu d (q + 1 - 1) (q + 1) + r (j + (q + 1)) * rMatrix old t mu d (q + 1) (q + 1)))

/-- Body of the loop over `d`, 177-190. (src/py/py_knot_insertion_matrix.cpp) -/
def rowStep (old : List K) (t : K) (mu j d : ℕ) (r : ℕ → K) : ℕ → K :=
  let r1 := Function.update r (j + d) (rMatrix old t mu d (d - 1) d * r (j + d - 1))   -- 177-178
  let r2 := rowInner old t mu d j (d - 1) r1                                           -- 183-187
  Function.update r2 j (rMatrix old t mu d 0 0 * r2 j)                                 -- 190

/-- Loop 173-191 over `d = 2, …, degree` for row `i` (first argument: how many values of `d` are done). (src/py/py_knot_insertion_matrix.cpp) -/
def rowLoop (old new : List K) (i mu j : ℕ) : ℕ → (ℕ → K) → (ℕ → K)
  | 0, r => r
  | n + 1, r => rowStep old (at_ new (i + (n + 2))) mu j (n + 2) (rowLoop old new i mu j n r)

/-- Row `i`, 146-192. `following_n_equal_knots` is never written (97), so the branch of 154-158 is only taken for a negative degree and
never here. The row writes columns `mu - degree` to `max (mu, mu - degree + 1)`; `none` if one of them is not a column of the
matrix (in C++ the write hits another row or leaves the array). (src/py/py_knot_insertion_matrix.cpp) -/
def matrixRow (old new : List K) (degree nOld i : ℕ) (base : ℤ) : Option (List K) :=
  let j := base - degree                                                   -- 151
  if j < 0 ∨ (nOld : ℤ) ≤ base ∨ (nOld : ℤ) ≤ j + 1 ∧ degree = 0 then none
  else
    let mu := base.toNat
    let r0 : ℕ → K := fun _ => 0                                           -- 49-51
    let r1 := Function.update r0 j.toNat (rMatrix old (at_ new (i + 1)) mu 1 0 0)          -- 167
    let r2 := Function.update r1 (j.toNat + 1) (rMatrix old (at_ new (i + 1)) mu 1 0 1)    -- 168
    some ((List.range nOld).map (rowLoop old new i mu j.toNat (degree - 1) r2))

/-- `ComputeKnotInsertionMatrixAndKnotSpan`, 36-196: rows of the matrix and `index_of_knot_span_base`. (src/py/py_knot_insertion_matrix.cpp) -/
def insertionMatrix (old new : List K) (degree : ℕ) (tol : K) : Option (List (List K) × List ℤ) :=
  if old.length < degree + 1 ∨ new.length < degree + 1 then none           -- 44-47, negative array size
  else do
    let base ← knotSpanBase old new tol
    let rows ← (List.range (new.length - degree - 1)).mapM
      (fun i => matrixRow old new degree (old.length - degree - 1) i (base.getD i 0))
    pure (rows, base)

/-- Loop 249-258: arguments are the old and new knots still to be copied. With new knots left and no old one left, 250 reads behind the old
knot vector: `none`. (src/py/py_knot_insertion_matrix.cpp) -/
def mergeKnots : List K → List K → Option (List K)
  | old, [] => some old
  | [], _ :: _ => none
  | o :: old, n :: new =>
    if o < n then (mergeKnots old (n :: new)).map (o :: ·)
    else (mergeKnots (o :: old) new).map (n :: ·)
termination_by old new => old.length + new.length

/-- `local_to_global_id`, 273-281. Recursion on the remaining `(local_id[i], n_cps[i])`: the loop starts with the last local id and
multiplies by the size of the dimension before adding its id. (src/py/py_knot_insertion_matrix.cpp) -/
def localToGlobal : List ℕ → List ℕ → ℕ
  | [], _ => 0
  | [c], _ => c
  | c :: cs, n :: ns => localToGlobal cs ns * n + c
  | _ :: _, [] => 0

/-- `global_to_local_id`, 282-295. (src/py/py_knot_insertion_matrix.cpp) -/
def globalToLocal : ℕ → List ℕ → List ℕ
  | _, [] => []
  | g, n :: ns => (g % n) :: globalToLocal (g / n) ns

/-- One entry of the sparse result: row id, column id, value. (src/py/py_knot_insertion_matrix.cpp 297-343) -/
structure Entry (K : Type) where
  row : ℕ
  col : ℕ
  value : K
deriving DecidableEq

/-- `n_cp_old`, 225-233. (src/py/py_knot_insertion_matrix.cpp) -/
def nCpsOld (kvs : List (List K)) (degrees : List ℕ) : List ℕ :=
  List.zipWith (fun kv p => kv.length - p - 1) kvs degrees

/-- Result of `ComputeGlobalKnotInsertionMatrix`: the entries, the shape and the knot vectors after insertion (`knot_vector_new` is local
in C++; it is kept here to state what the matrix belongs to). (src/py/py_knot_insertion_matrix.cpp 207-343) -/
structure Global (K : Type) where
  entries : List (Entry K)
  shape : ℕ × ℕ
  newKnotVector : List K

/-- `ComputeGlobalKnotInsertionMatrix`, 207-343. `std::sort` (220) is `List.mergeSort`. Entries are listed in the order of `counter`.
`n_cps_new` (235) is computed as the quotient times `n_cp_new`. (src/py/py_knot_insertion_matrix.cpp) -/
def globalInsertionMatrix (kvs : List (List K)) (degrees : List ℕ) (dim : ℕ) (knots : List K) (tol : K) : Option (Global K) := do
  let sorted := knots.mergeSort (· ≤ ·)                                     -- 220
  let kv ← kvs[dim]?
  let p : ℕ ← degrees[dim]?
  let nOld := nCpsOld kvs degrees
  let nNew := nOld.set dim (nOld.getD dim 0 + knots.length)                 -- 231-234
  let nCpsNew := nOld.prod / nOld.getD dim 0 * nNew.getD dim 0              -- 235
  let new ← mergeKnots kv sorted                                            -- 245-258
  let (m, base) ← insertionMatrix kv new p tol                              -- 262-270
  pure {
    entries := (List.range nCpsNew).flatMap (fun g =>                       -- 315
      let loc := globalToLocal g nNew                                       -- 318
      let iRow := loc.getD dim 0                                            -- 319
      let b := (base.getD iRow 0).toNat                                     -- 321
      (List.range (p + 1)).map (fun q =>                                    -- 324-326
        let k := b - p + q
        { row := g                                                          -- 330
          col := localToGlobal (loc.set dim k) nOld                         -- 327-331
          value := (m.getD iRow []).getD k 0 }))                            -- 332
    shape := (nCpsNew, nOld.prod)                                           -- 342
    newKnotVector := new }

/-- `create_new_knot_vector`, 369-394. State: old knots left, `ref_count`, `c_knot`; result: the new knot vector and the knots which
were added. `fuel` is the space left in
the result array: one knot is written in every iteration, and writing behind the array is `none`. (src/py/py_knot_insertion_matrix.cpp) -/
def extractionLoop (deg : ℕ) (tol : K) : ℕ → List K → ℕ → K → Option (List K × List K)
  | _, [], _, _ => some ([], [])                                            -- 371
  | 0, _ :: _, _, _ => none
  | fuel + 1, x :: old, refCount, cKnot =>
    let c := if refCount > deg then x else cKnot                            -- 374-375
    let r := if refCount > deg then 1 else refCount                         -- 376
    if |c - x| < tol then                                                   -- 379
      (extractionLoop deg tol fuel old (r + 1) c).map (fun res => (c :: res.1, res.2))             -- 381-384
    else
      (extractionLoop deg tol fuel (x :: old) (r + 1) c).map (fun res => (c :: res.1, c :: res.2))  -- 387-390

/-- `create_new_knot_vector`, 358-396. Knot vectors with less than `2 (deg + 1)` knots cannot be constructed (py_spline.cpp 107-117) and are
`none`, like writes behind the allocated arrays (364, 417-419). -/
def extractionKnots (deg : ℕ) (tol : K) (old : List K) : Option (List K × List K) :=
  if old.length < (deg + 1) * 2 then none
  else
    let maxKv := (old.length - (deg + 1) * 2) * deg + (deg + 1) * 2
    let maxNew := (old.length - (deg + 1) * 2) * deg
    (extractionLoop deg tol maxKv old 0 (at_ old 0)).bind (fun res => if res.2.length ≤ maxNew then some res else none)

/-- Loop 414-433 of `BezierExtractionMatrices` over the directions `dim, …, dim + n - 1` (first argument `n`): the sparse matrices in order
and the knot vectors `tmp_kvs` after the loop. The matrix of each direction is computed with the knot vectors refined so far. (src/py/py_knot_insertion_matrix.cpp) -/
def extractionChain (degrees : List ℕ) (tol : K) : ℕ → ℕ → List (List K) → Option (List (Global K) × List (List K))
  | 0, _, kvs => some ([], kvs)
  | n + 1, dim, kvs => do
    let kv ← kvs[dim]?
    let p : ℕ ← degrees[dim]?
    let (newKv, newKnots) ← extractionKnots p tol kv                        -- 417-424
    let g ← globalInsertionMatrix kvs degrees dim newKnots tol              -- 427-431
    let (gs, final) ← extractionChain degrees tol n (dim + 1) (kvs.set dim newKv)  -- 432
    pure (g :: gs, final)

/-- `determine_new_knots` of `uniform_refine`, bspline.py 162-172: outer product of the span widths divided by `n + 1` with `1 … n`
plus the left ends, read row by row. -/
def uniformNewKnots (unique : List K) (n : ℕ) : List K :=
  if n = 0 then []
  else (List.zip unique unique.tail).flatMap (fun ab =>
    (List.range' 1 n).map (fun (k : ℕ) => (ab.2 - ab.1) / ((n : K) + 1) * (k : K) + ab.1))

end Splinepy.KnotInsertion
