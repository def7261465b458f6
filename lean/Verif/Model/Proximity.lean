import Verif.Model.Grid
import Mathlib.Algebra.Order.Field.Basic

/-!
Model of the point inversion in `src/proximity/proximity.cpp`.

`double` is an arbitrary linearly ordered field `K` (no rounding, no NaN or infinity). Vectors of `para_dim` / `dim`
entries are functions on `Fin pd` / `Fin d`. External or irrelevant parts are parameters: evaluation and derivatives
of the spline, `std::sqrt`, floating point division, the dense solver, the answer of the k-d tree and the answers of
the translated Fortran routine `slsqp`.
-/
namespace Splinepy.Proximity

variable {K : Type} [Field K] [LinearOrder K] {pd d : ℕ}

/-- Sum of the entries of a vector in index order: the accumulation loops of `arrays.hpp` 460-463 and 559-563. -/
def vsum {n : ℕ} (f : Fin n → K) : K := ((List.finRange n).map f).sum

/-- `NormL2Squared`, `arrays.hpp` 558-565. -/
def normSq {n : ℕ} (f : Fin n → K) : K := vsum fun i => f i * f i

/-- Everything the search calls but does not define.
* `eval`, `deriv`: `SplinepyEvaluate`, `SplinepyDerivative` of the spline.
* `lo`, `hi`: `SplinepyParametricBounds`.
* `sqrt`, `div`: `std::sqrt` and `/` (arbitrary, so every outcome of a division by zero is included).
* `solve`: `Matrix::Solve` (see `Model/Solve.lean`), arbitrary here; its outcome for singular systems is included.
* `slsqp n`: values of `x` and `mode` after the `n`-th call of `slsqp` (`proximity.cpp` 590-625) in this query.
* `modified`: `LM.modified_update`, `proximity.hpp` 143, which no code assigns; so either value.
* `junk`: content of memory behind the arrays, read by `LM.Metric` when `para_dim` and `dim` differ. -/
structure Env (K : Type) (pd d : ℕ) where
  eval : (Fin pd → K) → Fin d → K
  deriv : (Fin pd → K) → (Fin pd → ℕ) → Fin d → K
  lo : Fin pd → K
  hi : Fin pd → K
  sqrt : K → K
  div : K → K → K
  solve : (Fin pd → Fin pd → K) → (Fin pd → K) → Fin pd → K
  slsqp : ℕ → (Fin pd → K) × ℤ
  modified : Bool
  junk : ℕ → K

/-- `SearchData`, `proximity.hpp` 55-164, without the arrays that are only allocated. `guess`, `phys`, `diff`, `grad`
and `hess` are views on the output arrays of the caller (`proximity.cpp` 120-127). `stop_iteration` is never read. -/
structure Data (K : Type) (pd d : ℕ) where
  query : Fin d → K
  guess : Fin pd → K
  phys : Fin d → K
  diff : Fin d → K
  grad : Fin pd → Fin d → K
  hess : Fin pd → Fin pd → Fin d → K
  djdu : Fin pd → K
  d2jdu2 : Fin pd → Fin pd → K
  aat : Fin pd → Fin pd → K
  delta : Fin pd → K
  lower : Fin pd → K
  upper : Fin pd → K
  costJ : K
  distance : K
  sqDistance : K
  convNorm : K
  goal : K
  tolerance : K
  maxIter : ℕ
  lambda : K
  prevJ : K
  prevGuess : Fin pd → K
  mode : ℤ

/-- `IsConverged`, `proximity.hpp` 212-215. -/
def isConverged (x : Data K pd d) : Bool :=
  decide (x.convNorm < x.goal) || decide (x.distance < x.tolerance)

/-- One entry of `Clip`, `arrays.hpp` 537-548 (the flags in `clipped` are never used, see `lmBody`). -/
def clip1 (lb ub x : K) : K := if x > ub then ub else if x < lb then lb else x

/-- `Clip`, `arrays.hpp` 519-550, on the current guess. -/
def clip (x : Data K pd d) : Data K pd d :=
  { x with guess := fun i => clip1 (x.lower i) (x.upper i) (x.guess i) }

/-- `UpdateAndClip`, `proximity.cpp` 226-229. -/
def updateAndClip (x : Data K pd d) : Data K pd d :=
  clip { x with guess := fun i => x.guess i + x.delta i }

/-- `J` with `GuessMinusQuery`, `proximity.cpp` 197-203 and 231-237, and its assignment in lines 327-332. -/
def cost (e : Env K pd d) (x : Data K pd d) : Data K pd d :=
  let phys := e.eval x.guess
  let diff := fun k => phys k - x.query k
  { x with phys := phys, diff := diff, costJ := 1 / 2 * normSq diff }

/-- Derivative query with a one at `i`, `proximity.cpp` 246-255. -/
def unit1 (i : Fin pd) : Fin pd → ℕ := fun k => if k = i then 1 else 0

/-- Derivative query of the lambda `compute`, `proximity.cpp` 290-292 and 761-763. -/
def unit2 (i j : Fin pd) : Fin pd → ℕ := fun k => (if k = i then 1 else 0) + (if k = j then 1 else 0)

/-- `dJdu`, `proximity.cpp` 239-271. -/
def costGradient (e : Env K pd d) (x : Data K pd d) : Data K pd d :=
  let grad := fun i => e.deriv x.guess (unit1 i)
  { x with grad := grad, djdu := fun i => vsum fun k => grad i k * x.diff k }

/-- `AAt`, `arrays.hpp` 484-511: the upper triangle is computed and mirrored. -/
def aatOf (g : Fin pd → Fin d → K) (i j : Fin pd) : K :=
  if i ≤ j then vsum fun k => g i k * g j k else vsum fun k => g j k * g i k

/-- `AAt` and `d2Jdu2`, `proximity.cpp` 338-345 and 273-321: of the spline hessian only the upper triangle is written. -/
def costHessian (e : Env K pd d) (x : Data K pd d) : Data K pd d :=
  let aat := aatOf x.grad
  let hess := fun i j => if i ≤ j then e.deriv x.guess (unit2 i j) else x.hess i j
  let entry := fun i j => vsum (fun k => hess i j k * x.diff k) + aat i j
  { x with aat := aat, hess := hess, d2jdu2 := fun i j => if i ≤ j then entry i j else entry j i }

/-- `ComputeCostAndDerivatives`, `proximity.cpp` 323-346. -/
def computeCost (e : Env K pd d) (depth : ℕ) (x : Data K pd d) : Data K pd d :=
  let x := cost e x
  let x := if 0 < depth then costGradient e x else x
  if 1 < depth then costHessian e x else x

/-- The assignments of `ComputeStatus`, `proximity.cpp` 354-358. -/
def fillStatus (e : Env K pd d) (x : Data K pd d) : Data K pd d :=
  let sq := normSq x.diff
  { x with sqDistance := sq, distance := e.sqrt sq, costJ := 1 / 2 * sq, convNorm := e.sqrt (normSq x.djdu) }

/-- `ComputeStatus`, `proximity.cpp` 348-359. -/
def computeStatus (e : Env K pd d) (recompute : Bool) (x : Data K pd d) : Data K pd d :=
  fillStatus e (if recompute then computeCost e 1 x else x)

/-- `FlipSign` of the cost gradient, `proximity.cpp` 388 and 434. -/
def flipSign (x : Data K pd d) : Data K pd d := { x with djdu := fun i => - x.djdu i }

/-- Setting the convergence goal, `proximity.cpp` 404-406 with `proximity.hpp` 48-51. -/
def setGoal (x : Data K pd d) : Data K pd d :=
  { x with goal := max (x.convNorm * x.tolerance) x.tolerance }

/-- `PrepareIterationNewton` followed by `ComputeStatus(data, false)`, `proximity.cpp` 382-389, 400-401, 422-423. -/
def prepareNewton (e : Env K pd d) (x : Data K pd d) : Data K pd d :=
  computeStatus e false (flipSign (computeCost e 2 x))

/-- `while` loop of `Newton`, `proximity.cpp` 408-426. `fuel` bounds the passes through the loop condition; `none` if it
does not suffice. -/
def newtonLoop (e : Env K pd d) : ℕ → ℕ → Data K pd d → Option (Data K pd d)
  | 0, _, _ => none
  | fuel + 1, i, x =>
    if i < x.maxIter then
      if isConverged x then some x
      else newtonLoop e fuel (i + 1)
        (prepareNewton e (updateAndClip { x with delta := e.solve x.d2jdu2 x.djdu }))
    else some x

/-- `Newton`, `proximity.cpp` 391-427. -/
def newton (e : Env K pd d) (fuel : ℕ) (x : Data K pd d) : Option (Data K pd d) :=
  newtonLoop e fuel 0 (setGoal (prepareNewton e x))

/-- `PrepareIterationLevenbergMarquart` followed by `ComputeStatus(data, false)`, `proximity.cpp` 429-453, 469-470. -/
def prepareLM (e : Env K pd d) (x : Data K pd d) : Data K pd d :=
  let x := flipSign (computeCost e 1 x)
  let aat := aatOf x.grad
  let aat := fun i j =>
    if i = j then (if e.modified then aat i j * (x.lambda + 1) else aat i j + x.lambda) else aat i j
  computeStatus e false { x with aat := aat }

/-- Memory behind `&spline_gradient(0, 0)`. (src/proximity/proximity.cpp 455-550) -/
def gradAt (e : Env K pd d) (g : Fin pd → Fin d → K) (n : ℕ) : K :=
  if h : n / d < pd ∧ n % d < d then g ⟨n / d, h.1⟩ ⟨n % d, h.2⟩ else e.junk n

/-- Memory behind `difference.data()`. (src/proximity/proximity.cpp 455-550) -/
def diffAt (e : Env K pd d) (f : Fin d → K) (n : ℕ) : K :=
  if h : n < d then f ⟨n, h⟩ else e.junk n

/-- `LM.Metric`, `proximity.hpp` 157-163: `para_dim` numbers are read from each row of the gradient. -/
def metric (e : Env K pd d) (x : Data K pd d) (i : Fin pd) : K :=
  vsum fun k : Fin pd => gradAt e x.grad (i.val * d + k.val) * x.delta k

/-- The number `chosen_rho`, `proximity.cpp` 500-512, from the data before (`x`) and after (`y`) line 507. -/
def chosenRho (e : Env K pd d) (x y : Data K pd d) : K :=
  let m := metric e x
  let metric2 := vsum fun i : Fin pd => diffAt e x.diff i.val * m i
  let metricNorm := 1 / 2 * normSq fun i : Fin pd => m i + diffAt e x.diff i.val
  max (e.div (y.prevJ - y.costJ) (y.prevJ - metricNorm)) (e.div (-(y.prevJ - y.costJ)) metric2)

/-- Outcome of the body of the Levenberg-Marquardt loop. (src/proximity/proximity.cpp 455-550) -/
inductive Step (K : Type) (pd d : ℕ) where
  | stop (x : Data K pd d)
  | reject (x : Data K pd d)
  | accept (x : Data K pd d)

/-- Body of the loop of `LevenbergMarquart` after the convergence check, `proximity.cpp` 486-549. The branch in lines
494-497 is never taken because `NonZeros` (`arrays.hpp` 569-577) tests its own counter and returns zero always. -/
def lmBody (e : Env K pd d) (x : Data K pd d) : Step K pd d :=
  let x := { x with delta := e.solve x.aat x.djdu }
  let x := updateAndClip { x with prevGuess := x.guess }
  let y := computeCost e 0 x
  let rho := chosenRho e x y
  if rho < 1 / 4 ∧ y.costJ > y.prevJ then
    let y := { y with lambda := y.lambda * 2 }
    if y.lambda > 100000 then .stop (computeStatus e true y)
    else .reject (prepareLM e { y with guess := y.prevGuess })
  else
    let y := if rho > 3 / 4 then { y with lambda := y.lambda * (1 / 2) } else y
    .accept (prepareLM e { y with prevJ := y.costJ })

/-- `while` loop of `LevenbergMarquart`, `proximity.cpp` 480-550: a rejected step does not advance `i`. -/
def lmLoop (e : Env K pd d) : ℕ → ℕ → Data K pd d → Option (Data K pd d)
  | 0, _, _ => none
  | fuel + 1, i, x =>
    if i < x.maxIter then
      if isConverged x then some x
      else match lmBody e x with
        | .stop y => some y
        | .reject y => lmLoop e fuel i y
        | .accept y => lmLoop e fuel (i + 1) y
    else some x

/-- Beginning of `LevenbergMarquart`, `proximity.cpp` 464-478. -/
def lmStart (e : Env K pd d) (x : Data K pd d) : Data K pd d :=
  let x := prepareLM e { x with lambda := 1 }
  setGoal { x with prevJ := x.costJ }

/-- `LevenbergMarquart`, `proximity.cpp` 455-551. -/
def levenbergMarquart (e : Env K pd d) (fuel : ℕ) (x : Data K pd d) : Option (Data K pd d) :=
  lmLoop e fuel 0 (lmStart e x)

/-- `PrepareIterationSlsqp`, `proximity.cpp` 553-571 (the copies in `SLSQP.f` and `SLSQP.g` only feed `slsqp`). -/
def prepareSlsqp (e : Env K pd d) (x : Data K pd d) : Data K pd d :=
  let x := clip x
  if x.mode = 0 then computeStatus e false (computeCost e 1 x)
  else if x.mode = 1 then computeCost e 0 x
  else if x.mode = -1 then computeCost e 1 x
  else x

/-- `while (true)` loop of `Slsqp`, `proximity.cpp` 586-634; `n` counts the calls of `slsqp`. -/
def slsqpLoop (e : Env K pd d) : ℕ → ℕ → Data K pd d → Option (Data K pd d)
  | 0, _, _ => none
  | fuel + 1, n, x =>
    let x := prepareSlsqp e { x with guess := (e.slsqp n).1, mode := (e.slsqp n).2 }
    if x.mode = 1 ∨ x.mode = -1 then slsqpLoop e fuel (n + 1) x else some x

/-- `Slsqp`, `proximity.cpp` 573-641; `Setup` sets `mode` to zero (line 54). -/
def slsqpSearch (e : Env K pd d) (fuel : ℕ) (x : Data K pd d) : Option (Data K pd d) :=
  (slsqpLoop e fuel 0 (setGoal (computeStatus e false (prepareSlsqp e { x with mode := 0 })))).map
    (computeStatus e true)

/-- State of the lambda `keep_best_and_did_it_improve`. (src/proximity/proximity.cpp 675-690) -/
structure Best (K : Type) (pd : ℕ) where
  J : K
  guess : Fin pd → K

/-- `keep_best_and_did_it_improve`, `proximity.cpp` 679-691. -/
def keepBest (b : Best K pd) (x : Data K pd d) : Best K pd × Data K pd d × Bool :=
  if b.J > x.costJ then (⟨x.costJ, x.guess⟩, x, true)
  else (⟨x.costJ, b.guess⟩, { x with guess := b.guess }, false)

/-- `FindSearchBound`, `proximity.cpp` 361-380; `step` is `grid_points_.step_size_`. -/
def findSearchBound (e : Env K pd d) (step : Fin pd → K) (tight : Bool) (x : Data K pd d) : Data K pd d :=
  if tight then
    { x with lower := fun i => max (e.lo i) (x.guess i - step i), upper := fun i => min (e.hi i) (x.guess i + step i) }
  else { x with lower := e.lo, upper := e.hi }

/-- `CopyUpperToLowerTriangle`, `arrays.hpp` 823-835. -/
def copyUpperToLower (x : Data K pd d) : Data K pd d :=
  { x with hess := fun i j => if i ≤ j then x.hess i j else x.hess j i }

/-- `FillHessian`, `proximity.cpp` 747-788. -/
def fillHessian (e : Env K pd d) (x : Data K pd d) : Data K pd d :=
  { x with hess := fun i j => if i ≤ j then e.deriv x.guess (unit2 i j) else e.deriv x.guess (unit2 j i) }

/-- Where `VerboseQuery` returns: lines 716-720, 727-730, or the end with the two outcomes of line 739. (src/proximity/proximity.cpp) -/
inductive Exit
  | newton | slsqp | improved | notImproved
  deriving DecidableEq

/-- `SearchData::Setup`, `proximity.cpp` 94-143: output and work arrays hold arbitrary content (`x`). -/
def setup (query : Fin d → K) (tolerance : K) (maxIter : ℤ) (x : Data K pd d) : Data K pd d :=
  { x with
      query := query, tolerance := tolerance, goal := 0, costJ := -1, distance := -1, sqDistance := -1, convNorm := -1
      maxIter := if maxIter < 0 then pd * 20 else maxIter.toNat }

/-- `VerboseQuery` after the initial guess, `proximity.cpp` 675-745. -/
def search (e : Env K pd d) (fuel : ℕ) (step : Fin pd → K) (tight : Bool) (x : Data K pd d) :
    Option (Exit × Data K pd d) :=
  let x := computeCost e 0 x
  let b : Best K pd := ⟨x.costJ, x.guess⟩
  match newton e fuel (findSearchBound e step tight x) with
  | none => none
  | some x =>
    if isConverged x then some (.newton, copyUpperToLower x)
    else
      let (b, x, _) := keepBest b x
      match slsqpSearch e fuel { x with maxIter := x.maxIter * 5 } with
      | none => none
      | some x =>
        if isConverged x ∨ x.mode = 0 then some (.slsqp, fillHessian e x)
        else
          let (b, x, _) := keepBest b x
          match levenbergMarquart e fuel { x with maxIter := x.maxIter * 5 } with
          | none => none
          | some x =>
            let (_, x, improved) := keepBest b x
            if improved then some (.improved, fillHessian e (computeStatus e true x))
            else some (.notImproved, fillHessian e x)

/-- `VerboseQuery`, `proximity.cpp` 643-745, with the initial guess of lines 205-224: `grid` is the sampling grid of the
last `PlantNewKdTree` (`none` without a tree: exception), `nearest` the sample id the k-d tree returns for the query. -/
def verboseQuery (e : Env K pd d) (fuel : ℕ) (grid : Option (Grid.GridPoints K)) (nearest : ℕ) (tight : Bool)
    (query : Fin d → K) (tolerance : K) (maxIter : ℤ) (mem : Data K pd d) : Option (Exit × Data K pd d) :=
  match grid with
  | none => none
  | some g =>
    match Grid.idToGridPoint g nearest with
    | none => none
    | some p =>
      search e fuel (fun i => g.stepSize.getD i 0) tight
        { setup query tolerance maxIter mem with guess := fun i => p.getD i 0 }

/-- `PlantNewKdTree`, `proximity.cpp` 145-186: only the sampling grid. -/
def plant (e : Env K pd d) (resolutions : ℕ → ℤ) : Option (Grid.GridPoints K) :=
  Grid.setUp pd (fun n => if h : n < pd then e.lo ⟨n, h⟩ else if h : n - pd < pd then e.hi ⟨n - pd, h⟩ else 0)
    resolutions

end Splinepy.Proximity
