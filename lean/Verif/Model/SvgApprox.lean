import Verif.Model.Fit
import Mathlib.Data.List.Sort
import Mathlib.Data.List.Dedup

/-!
Model of `_approximate_curve` inside of `_export_spline` (splinepy/io/svg.py 855-965): curves that SVG cannot express are replaced by a cubic spline fitted to samples.
-/
namespace Splinepy.SvgApprox

variable {K : Type} [Field K] [LinearOrder K]

/-- splinepy/io/svg.py 869-871: the curve is fitted, unless its degree is at most three and it is not rational of degree above one -/
def needsFit (p : ℕ) (rational : Bool) : Bool := !(decide (p ≤ 3) && !(rational && decide (1 < p)))

/-- `np.convolve(q, np.ones(2) * 0.5, "valid")`, svg.py 896-900, 930-934, 944-948: means of neighbours -/
def midpoints (q : List K) : List K := List.zipWith (fun a b => a * (1 / 2) + b * (1 / 2)) q q.tail

/-- splinepy/io/svg.py 892-904, 927-939: the parameters and the means of neighbours, sorted -/
def refine (q : List K) : List K := (q ++ midpoints q).insertionSort (· ≤ ·)

/-- splinepy/io/svg.py 883-904: the first parameters; for rational curves of degree two (below three) with means of neighbours -/
def firstQueries (p : ℕ) (rational : Bool) (greville : List K) : List K := if rational && decide (p < 3) then refine greville else greville

/-- splinepy/io/svg.py 907-912: multiplicities of the knots for the fit -/
def newMultiplicities (p : ℕ) (mult : List ℤ) : List ℤ :=
  mult.mapIdx fun i m => if i = 0 ∨ i = mult.length - 1 then 4 else max 1 (3 - (p : ℤ) + m)

/-- `np.repeat(unique_knots, k_mult)`, svg.py 913 -/
def repeatKnots (unique : List K) (mult : List ℤ) : List K := (List.zipWith (fun u m => List.replicate m.toNat u) unique mult).flatten

/-- the same with the check of `np.repeat` that there is one multiplicity for each knot; `none` is its exception. `unique_knots` has the knots of the domain only (C44), the multiplicities those of the whole
knot vector (splinepy/io/svg.py 907-913, splinepy/spline.py 879-925). -/
def repeatChecked (unique : List K) (mult : List ℤ) : Option (List K) := if unique.length = mult.length then some (repeatKnots unique mult) else none

/-- Result of `fit.curve`: knots, control points (coordinate, number), residual. (splinepy/helpme/fit.py 421) -/
structure Fitted (K : Type) where
  knots : List K
  points : ℕ → ℕ → K
  residual : K

/-- What `fit.curve` depends on: the solver, the basis functions of a cubic spline (knots, number of control points, parameter, number of the function), the memory of `np.empty`, and the norm of the
differences (dimension, squared distances). (splinepy/helpme/fit.py 164-228) -/
structure Env (K : Type) where
  solver : Fit.Solver K
  basis : List K → ℕ → K → ℕ → K
  memory : ℕ → ℕ → K
  norm : (ℕ → K) → K

/-- `fit.curve(evaluate(queries), degree=3, knot_vector=knots, associated_queries=queries)`, svg.py 915-920, 953-958, fit.py 353-421. `point k x` is coordinate `k` of the curve. The knots of the fit are
those of `Fit.curveSpline`. -/
def fitCubic (e : Env K) (point : ℕ → K → K) (queries knots : List K) : Option (Fitted K) :=
  (Fit.curveSpline queries.length (some 3) none (some knots) none queries).map fun s =>
    let n := s.2.length - 4
    let A := fun i => e.basis s.2 n (queries.getD i 0)
    let c := fun k => Fit.solveControlPoints e.solver queries.length n A (fun i => point k (queries.getD i 0)) (e.memory k) true
    ⟨s.2, c, e.norm fun k => ∑ i ∈ Finset.range queries.length, ((∑ j ∈ Finset.range n, A i j * c k j) - point k (queries.getD i 0)) ^ 2⟩

/-- `insert_knots(0, …)` of the means of neighbouring unique knots, svg.py 941-950; only the knots are used afterwards -/
def insertMiddle (knots : List K) : List K := (knots ++ midpoints knots.dedup).insertionSort (· ≤ ·)

/-- the loop, splinepy/io/svg.py 922-958; result: the last fit and the number of further fits -/
def improve (e : Env K) (point : ℕ → K → K) (tolerance : K) : ℕ → List K → Fitted K → Option (Fitted K × ℕ)
  | 0, _, f => some (f, 0)
  | n + 1, q, f =>
    if f.residual < tolerance then some (f, 0)
    else (fitCubic e point (refine q) (insertMiddle f.knots)).bind fun g =>
      (improve e point tolerance n (refine q) g).map fun r => (r.1, r.2 + 1)

/-- The fit of a curve of degree `p`, svg.py 877-964: result, number of fits, and if a warning is printed. `MAX_ITERATION` is 4 (svg.py 841). -/
def approximate (e : Env K) (point : ℕ → K → K) (tolerance : K) (p : ℕ) (rational : Bool) (greville unique : List K) (mult : List ℤ) : Option (Fitted K × ℕ × Bool) :=
  let q := firstQueries p rational greville
  (repeatChecked unique (newMultiplicities p mult)).bind fun knots =>
    (fitCubic e point q knots).bind fun f =>
      (improve e point tolerance 4 q f).map fun r => (r.1, r.2 + 1, decide (tolerance < r.1.residual))

end Splinepy.SvgApprox
