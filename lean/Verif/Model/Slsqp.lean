import Mathlib.Algebra.Order.Field.Basic
import Mathlib.Algebra.Order.AbsoluteValue.Basic

/-!
Model of the fallback search of `proximities`: the reverse communication routine `slsqp` (`src/proximity/slsqp/slsqp.c` 22-581, `ldl` 1887-1997, `bound` 2703-2727) as it is set up by
`SLSQPData::Setup` (`src/proximity/proximity.cpp` 33-92) and fed by `PrepareIterationSlsqp` (553-571).

The searches of splinepy have no constraints besides the bounds (`m = meq = 0`), so all loops over constraints are empty. Arrays are lists. The least squares solver behind `lsq`
(583-787, before its final call of `bound`), the norm `dnrm2` and the exact line search (`linmin`) are parameters with arbitrary results. The unrolled loops of the BLAS routines
(`daxpy_sl`, `dcopy`, `ddot_sl`, `dscal_sl`) are the plain loops. Not-a-number is not modelled (so `f == f` holds).
-/

namespace Splinepy.Slsqp

variable {K : Type} [Field K] [LinearOrder K]

/-- `ddot_sl`, src/proximity/slsqp/slsqp.c 2298-2370 -/
def dot (a b : List K) : K := (List.zipWith (· * ·) a b).sum

/-- `daxpy_sl`: `y + c x`, src/proximity/slsqp/slsqp.c 2155-2225 -/
def axpy (c : K) (x y : List K) : List K := List.zipWith (fun x y => y + c * x) x y

/-- `dscal_sl`, src/proximity/slsqp/slsqp.c 2647-2701 -/
def scal (c : K) (x : List K) : List K := x.map (c * ·)

/-- the body of `bound`, src/proximity/slsqp/slsqp.c 2718-2724 -/
def bound1 (lo hi x : K) : K := if x < lo then lo else if x > hi then hi else x

/-- `bound`, src/proximity/slsqp/slsqp.c 2703-2727; `x` is an array -/
def bound (lo hi : List K) (x : ℕ → K) : List K := List.zipWith (fun p i => bound1 p.1 p.2 (x i)) (lo.zip hi) (List.range lo.length)

/-- The packed factors `L D L'` in the array `l`: column by column, first the entry of `D`, then the entries of `L` below the diagonal (src/proximity/slsqp/slsqp.c 257-265 and 522-557,
where `k` runs through the array). -/
abbrev Factors (K : Type) := List (K × List K)

/-- lines 257-265: identity (src/proximity/slsqp/slsqp.c) -/
def identity : ℕ → Factors K
  | 0 => []
  | n + 1 => (1, List.replicate n 0) :: identity n

/-- lines 522-536: `L' s` (src/proximity/slsqp/slsqp.c) -/
def mulLt : Factors K → List K → List K
  | (_, col) :: l, x :: xs => (x + dot col xs) :: mulLt l xs
  | _, _ => []

/-- lines 537-544: `D v` (src/proximity/slsqp/slsqp.c) -/
def mulD (l : Factors K) (v : List K) : List K := List.zipWith (fun c y => c.1 * y) l v

/-- lines 545-557: `L v` (src/proximity/slsqp/slsqp.c) -/
def mulL : Factors K → List K → List K
  | (_, col) :: l, y :: ys => y :: axpy y col (mulL l ys)
  | _, _ => []

/-- lines 1919-1937, `ldl`: the forward pass for a negative update; the sum of `v * v / a[ij]` over all columns (src/proximity/slsqp/slsqp.c) -/
def forward : Factors K → List K → K
  | (d, col) :: l, v :: z => v * v / d + forward l (axpy (-v) col z)
  | _, _ => 0

/-- lines 1941-1949, `ldl`: the backward pass, which stores the intermediate values of `t` in `w`; returns them with the last value of `t` (src/proximity/slsqp/slsqp.c) -/
def backward (t : K) : Factors K → List K → List K × K
  | (d, col) :: l, v :: z =>
    let r := backward t l (axpy (-v) col z)
    (r.2 :: r.1, r.2 - v * v / d)
  | _, _ => ([], t)

/-- lines 1950-1993, `ldl`: the update of the columns. `w` has the values of `tp` for a negative update; `none` for a positive one. (src/proximity/slsqp/slsqp.c) -/
def update (t : K) : Option (List K) → Factors K → List K → Factors K
  | w, (d, col) :: l, v :: z =>
    let delta := v / d
    let tp := match w with
      | none => t + delta * v
      | some w => w.headD 0
    let alpha := tp / t
    let beta := delta / tp
    let z' := axpy (-v) col z
    let col' := if alpha > 4 then List.zipWith (fun u zj => t / tp * u + beta * zj) col z else axpy beta z' col
    (alpha * d, col') :: update tp (w.map List.tail) l z'
  | _, l, _ => l

/-- `ldl`, src/proximity/slsqp/slsqp.c 1887-1997: factors of `L D L' + sigma z z'`. (The work arrays `z` and `w` are overwritten; they are not read before they are set again.) -/
def ldl (eps : K) (l : Factors K) (z : List K) (sigma : K) : Factors K :=
  if sigma = 0 then l
  else if sigma > 0 then update (1 / sigma) none l z
  else
    let t := 1 / sigma + forward l z
    let t := if t ≥ 0 then eps / sigma else t
    let r := backward t l z
    update r.2 (some r.1) l z

/-- The variables that are kept between two calls of `slsqp` (src/proximity/slsqp/slsqp.c 145-184): arguments and state variables. -/
structure State (K : Type) where
  x : List K
  f : K
  g : List K
  acc : K
  iter : ℕ
  mode : ℤ
  l : Factors K
  x0 : List K
  s : List K
  u : List K
  v : List K
  alpha : K
  f0 : K
  gs : K
  h1 : K
  h2 : K
  h3 : K
  h4 : K
  t : K
  t0 : K
  tol : K
  iexact : Bool
  incons : ℕ
  ireset : ℕ
  itermx : ℕ
  line : ℕ

/-- The bounds and the parts of the routine that are not modelled: `lsq` for the factors, the gradient and the bounds of the step (result and `mode`), the same for the augmented problem
(with the penalty `l[n3]` and the additional variable), `dnrm2`, the exact line search, and the constant `epmach` (src/proximity/slsqp/slsqp.c 281-296, 330-346, 437-447, 1894) -/
structure Env (K : Type) where
  xl : List K
  xu : List K
  lsq : Factors K → List K → List K → List K → (ℕ → K) × ℤ
  lsqAug : Factors K → K → List K → List K → List K → (ℕ → K) × K × ℤ
  norm : List K → K
  exactSearch : State K → State K
  eps : K

variable (e : Env K)

/-- `L100`, lines 233-250, and the part of `SLSQPData::Setup` that the first call reads (src/proximity/slsqp/slsqp.c) -/
def start (s : State K) : State K :=
  { s with itermx := s.iter, iexact := !decide (s.acc ≥ 0), acc := |s.acc|, tol := 10 * |s.acc|, iter := 0, ireset := 0, s := List.replicate s.x.length 0 }

/-- `L255`, lines 492-512 (src/proximity/slsqp/slsqp.c) -/
def relaxed (badlin : Bool) (s : State K) : State K :=
  { s with h3 := 0, mode := if (|s.f - s.f0| < s.tol ∨ e.norm s.s < s.tol) ∧ 0 < s.tol ∧ badlin = false then 0 else 8 }

/-- `L150`, lines 330-348: one solution of the augmented problem (src/proximity/slsqp/slsqp.c) -/
def augmentedStep (penalty : K) (s : State K) : State K :=
  let r := e.lsqAug s.l penalty s.g s.u s.v
  { s with s := bound s.u s.v r.1, h4 := 1 - bound1 0 1 r.2.1, mode := r.2.2 }

/-- `L150`, lines 330-358: the augmented problem, with a penalty that grows by the factor 10; `k` more trials (src/proximity/slsqp/slsqp.c) -/
def augmented : ℕ → K → State K → State K
  | 0, penalty, s =>
    let s := augmentedStep e penalty s
    if s.mode = 4 then { s with incons := s.incons + 1 } else s
  | k + 1, penalty, s =>
    let s := augmentedStep e penalty s
    if s.mode = 4 then augmented k (10 * penalty) { s with incons := s.incons + 1 } else s

/-- `L190`, lines 420-427: next trial point (src/proximity/slsqp/slsqp.c) -/
def trial (s : State K) : State K :=
  let step := scal s.alpha s.s
  { s with line := s.line + 1, h3 := s.alpha * s.h3, s := step, x := axpy 1 step s.x0, mode := 1 }

/-- `L240`, lines 470-490: the step is accepted (src/proximity/slsqp/slsqp.c) -/
def accept (s : State K) : State K :=
  { s with h3 := 0, mode := if (|s.f - s.f0| < s.acc ∨ e.norm s.s < s.acc) ∧ 0 < s.acc then 0 else -1 }

/-- `L200`, lines 428-435 (src/proximity/slsqp/slsqp.c) -/
def lineTest (s : State K) : State K :=
  if s.h1 ≤ s.h3 / 10 ∨ s.line > 10 then accept e s
  else trial { s with alpha := max (s.h3 / (2 * (s.h3 - s.h1))) (1 / 10) }

/-- lines 273-360: the quadratic subproblem (src/proximity/slsqp/slsqp.c). The result is `mode` and whether the linearisation was inconsistent. -/
def direction (s : State K) : State K × Bool :=
  let u := axpy (-1) s.x e.xl
  let v := axpy (-1) s.x e.xu
  let r := e.lsq s.l s.g u v
  let s := { s with u := u, v := v, h4 := 1, s := bound u v r.1, mode := r.2 }
  if s.mode = 4 then (augmented e 5 100 { s with h3 := 0, incons := 0 }, true) else (s, false)

/-- lines 361-409: multipliers, test of convergence, directional derivative; the mode is `0` (converged), `8` (no direction of descent) or unchanged (`1`) (src/proximity/slsqp/slsqp.c) -/
def derivative (badlin : Bool) (s : State K) : State K :=
  let s := { s with v := s.g, f0 := s.f, x0 := s.x, gs := dot s.g s.s, h1 := |dot s.g s.s|, h2 := 0, mode := 0 }
  if s.h1 < s.acc ∧ 0 < s.acc ∧ badlin = false then s
  else { s with h1 := 0, t0 := s.f + 0, h3 := s.gs - 0 * s.h4, mode := 8 }

/-- What the part of an iteration before the line search leads to (src/proximity/slsqp/slsqp.c 266-415) -/
inductive Outcome (K : Type)
  /-- `goto L330`: the call returns -/
  | exit (s : State K)
  /-- `goto L110`: the direction is no direction of descent, 410-412 -/
  | noDescent (badlin : Bool) (s : State K)
  /-- the line search starts -/
  | search (s : State K)

/-- `L130`, lines 266-412 (src/proximity/slsqp/slsqp.c) -/
def attempt (s : State K) : Outcome K :=
  let s := { s with iter := s.iter + 1, mode := 9 }
  if s.iter > s.itermx then .exit s
  else
    let r := direction e s
    if r.1.mode ≠ 1 then .exit r.1
    else
      let s := derivative r.2 r.1
      if s.mode = 0 then .exit s
      else if s.h3 ≥ 0 then .noDescent r.2 s
      else .search s

/-- lines 413-419: the line search starts (src/proximity/slsqp/slsqp.c) -/
def beginSearch (s : State K) : State K :=
  if s.iexact then e.exactSearch { s with line := 0, alpha := 1 } else trial { s with line := 0, alpha := 1 }

/-- `L130`, lines 266-427, with the resets of `L110` (252-265) when the direction is no direction of descent; `k` more resets are allowed (src/proximity/slsqp/slsqp.c) -/
def iteration : ℕ → State K → State K
  | 0, s =>
    match attempt e s with
    | .exit s => s
    | .noDescent badlin s => relaxed e badlin { s with ireset := s.ireset + 1 }
    | .search s => beginSearch e s
  | k + 1, s =>
    match attempt e s with
    | .exit s => s
    | .noDescent _ s => iteration k { s with ireset := s.ireset + 1, l := identity s.x.length }
    | .search s => beginSearch e s

/-- `L110`, lines 252-265 (src/proximity/slsqp/slsqp.c) -/
def reset (s : State K) : State K :=
  let s := { s with ireset := s.ireset + 1 }
  if s.ireset > 5 then relaxed e false s
  else iteration e (5 - s.ireset) { s with l := identity s.x.length }

/-- lines 515-567: difference of the gradients, `v = L D L' s`, damping (src/proximity/slsqp/slsqp.c) -/
def damped (s : State K) : State K :=
  let u := axpy (-1) s.v s.g
  let v := mulL s.l (mulD s.l (mulLt s.l s.s))
  let h1 := dot s.s u
  let h2 := dot s.s v
  let h3 := h2 * (1 / 5)
  let s := { s with u := u, v := v, h1 := h1, h2 := h2, h3 := h3 }
  if h1 < h3 then
    let h4 := (h2 - h3) / (h2 - h1)
    { s with h4 := h4, h1 := h3, u := axpy (1 - h4) v (scal h4 u) }
  else s

/-- `L260`, lines 515-577: BFGS update and next iteration (src/proximity/slsqp/slsqp.c) -/
def gradient (s : State K) : State K :=
  let s := damped s
  if s.h1 = 0 ∨ s.h2 = 0 then reset e s
  else iteration e (5 - s.ireset) { s with l := ldl e.eps (ldl e.eps s.l s.u (1 / s.h1)) s.v (-1 / s.h2) }

/-- `slsqpb`, lines 145-581: one call; entry 222-232, `L220` 448-467 (src/proximity/slsqp/slsqp.c) -/
def call (s : State K) : State K :=
  if s.mode < 0 then gradient e s
  else if s.mode = 0 then reset e (start s)
  else
    let s := { s with t := s.f, h1 := s.f - s.t0 }
    if s.iexact then e.exactSearch s else lineTest e s

/-- `PrepareIterationSlsqp`, src/proximity/proximity.cpp 553-571: the point is clipped, and the value or the gradient is replaced, depending on `mode`. `value` and `grad` are what the
objective returns. -/
def prepare (value : K) (grad : List K) (s : State K) : State K :=
  let s := { s with x := bound e.xl e.xu fun i => s.x.getD i 0 }
  if s.mode = 0 then { s with f := value, g := grad }
  else if s.mode = 1 then { s with f := value }
  else if s.mode = -1 then { s with g := grad }
  else s

/-- `SLSQPData::Setup`, src/proximity/proximity.cpp 33-92: start at `x` (the current guess), with the accuracy `tolerance² / 2`; work arrays hold arbitrary content (`mem`). -/
def setup (x : List K) (tolerance : K) (maxIter : ℕ) (mem : State K) : State K :=
  { mem with x := x, acc := tolerance * tolerance * (1 / 2), iter := maxIter, mode := 0 }

/-- `Slsqp`, src/proximity/proximity.cpp 573-634: the state after the `k`-th call, if the calls go on; `objective k` are the value and the gradient before that call. -/
def run (objective : ℕ → K × List K) (s : State K) : ℕ → State K
  | 0 => call e (prepare e (objective 0).1 (objective 0).2 s)
  | k + 1 => call e (prepare e (objective (k + 1)).1 (objective (k + 1)).2 (run objective s k))

/-- `slsqp`, src/proximity/slsqp/slsqp.c 76-92: the sizes of the work arrays `w` and `jw` that the routine demands (integer arithmetic; `m` constraints, `meq` of them equations) -/
def required (n m meq : ℤ) : ℤ × ℤ :=
  let n1 := n + 1
  let mineq := m - meq + n1 + n1
  ((n1 * 3 + m) * (n1 + 1) + (n1 - meq + 1) * (mineq + 2) + mineq * 2 + (n1 + mineq) * (n1 - meq) + meq * 2 + n1 * n / 2 + m * 2 + n * 3 + n1 * 4 + 1, max mineq (n1 - meq))

/-- `SLSQPData::Setup`, src/proximity/proximity.cpp 56-70: the sizes that are allocated -/
def allocated (n m meq : ℤ) : ℤ × ℤ :=
  let n1 := n + 1
  let mineq := m - meq + n1 + n1
  ((3 * n1 + m) * (n1 + 1) + (n1 - meq + 1) * (mineq + 2) + 2 * mineq + (n1 + mineq) * (n1 - meq) + 2 * meq + n1 + (n + 1) * n / 2 + 2 * m + 3 * n + 3 * n1 + 1, mineq)

/-- `slsqp`, src/proximity/slsqp/slsqp.c 88-92: `mode` of a call with work arrays that are too small; `none` if they are accepted -/
def rejected (n m meq lw ljw : ℤ) : Option ℤ :=
  if lw < (required n m meq).1 ∨ ljw < (required n m meq).2 then some (max 10 (required n m meq).1 * 1000 + max 10 (required n m meq).2) else none

end Splinepy.Slsqp
