import Verif.Spec.BSpline
import Verif.Spec.Tensor
import Verif.Model.Index

/-!
Specification of the value of a spline: tensor product of univariate bases (B-splines on the closed parametric domain, Bernstein polynomials on
the unit interval), weighted for rational splines.
-/
namespace Splinepy.Spec

/-- B-spline basis on the closed domain ending at knot number `n`: the last non-empty span contains its right end -/
def basisC {K : Type*} [Field K] [LinearOrder K] (t : ℕ → K) (n : ℕ) : ℕ → ℕ → K → K
  | 0, j, x => if (x ≠ t n ∧ t j ≤ x ∧ x < t (j + 1)) ∨ (x = t n ∧ t j < x ∧ x = t (j + 1)) then 1 else 0
  | d + 1, j, x =>
    (x - t j) / (t (j + d + 1) - t j) * basisC t n d j x +
      (t (j + d + 2) - x) / (t (j + d + 2) - t (j + 1)) * basisC t n d (j + 1) x

/-- one parametric direction: degree and, for B-splines, knots -/
structure Direction (K : Type*) where
  deg : ℕ
  knots : Option (List K)

namespace Direction
variable {K : Type*}

/-- number of basis functions -/
def size (d : Direction K) : ℕ :=
  match d.knots with
  | none => d.deg + 1
  | some kv => kv.length - d.deg - 1

/-- value of basis function `j` at `x` -/
def basis [Field K] [LinearOrder K] (d : Direction K) (x : K) (j : ℕ) : K :=
  match d.knots with
  | none => bernstein d.deg j 0 1 x
  | some kv => basisC (knotSeq kv) (kv.length - d.deg - 1) d.deg j x

/-- lower end of the domain -/
def lower [Zero K] (d : Direction K) : K :=
  match d.knots with
  | none => 0
  | some kv => knotSeq kv d.deg

/-- upper end of the domain -/
def upper [Zero K] [One K] (d : Direction K) : K :=
  match d.knots with
  | none => 1
  | some kv => knotSeq kv (kv.length - d.deg - 1)

/-- knots are sorted, enough for the degree and span an interval -/
def Valid [Zero K] [One K] [LinearOrder K] (d : Direction K) : Prop :=
  ∀ kv, d.knots = some kv → kv.Pairwise (· ≤ ·) ∧ 2 * (d.deg + 1) ≤ kv.length ∧ d.lower < d.upper

/-- parameter inside of the closed domain -/
def Contains [Zero K] [One K] [LinearOrder K] (d : Direction K) (x : K) : Prop := d.lower ≤ x ∧ x ≤ d.upper

end Direction

section
variable {K P : Type*}

/-- the parametric directions of a spline -/
def directions (s : Index.Spline K P) : List (Direction K) :=
  match s.knotVectors with
  | none => s.degrees.map fun d => ⟨d, none⟩
  | some kvs => List.zipWith (fun d kv => ⟨d, some kv⟩) s.degrees kvs

/-- number of control points per direction -/
def netSize (s : Index.Spline K P) : List ℕ := (directions s).map Direction.size

/-- basis values per direction at the parameter `u` -/
def basisValues [Field K] [LinearOrder K] (s : Index.Spline K P) (u : List K) : List (ℕ → K) :=
  List.zipWith (fun d x j => Direction.basis d x j) (directions s) u

/-- parameter inside of the closed parametric domain -/
def InDomain [Field K] [LinearOrder K] (s : Index.Spline K P) (u : List K) : Prop :=
  List.Forall₂ Direction.Contains (directions s) u

/-- properties of a constructed spline: one knot vector per degree, each of them valid, a control point for each node of the net, a weight for each
control point of a rational spline, weights positive -/
structure ValidSpline [Field K] [LinearOrder K] (s : Index.Spline K P) : Prop where
  knots : ∀ kvs, s.knotVectors = some kvs → kvs.length = s.degrees.length
  dirs : ∀ d ∈ directions s, d.Valid
  net : s.controlPoints.length = (netSize s).prod
  weights : ∀ ws, s.weights = some ws → ws.length = s.controlPoints.length ∧ ∀ w ∈ ws, 0 < w

/-- value of the spline whose control point number `i` has the coefficient `c i`: weighted average with the basis functions -/
def value [Field K] [LinearOrder K] (s : Index.Spline K P) (c : ℕ → K) (u : List K) : K :=
  let n := (netSize s).prod
  let b := basisValues s u
  match s.weights with
  | none => tensorEval b (netSize s) ((List.range n).map c)
  | some ws => tensorEval b (netSize s) ((List.range n).map fun i => ws.getD i 0 * c i) / tensorEval b (netSize s) ws

/-- coordinate `k` of the point of the spline at the parameter `u` -/
def point [Field K] [LinearOrder K] (s : Index.Spline K (List K)) (u : List K) (k : ℕ) : K :=
  value s (fun i => (s.controlPoints.getD i []).getD k 0) u

end

end Splinepy.Spec
