import Verif.Model.Create
import Verif.Model.SplineCore

/-!
Model of the algebra of Bezier splines: products, sums, compositions and their derivatives, splinepy/bezier.py 42-275, include/splinepy/splines/bezier.inl 283-339, 467-671,
include/splinepy/splines/rational_bezier.inl 316-372, 667-708, src/py/py_spline_extensions.cpp 81-122, 192-207. The operations on coefficients are those of bezman, which is not part of the
repository: they are parameters.
-/
namespace Splinepy.BezierAlgebra
open Splinepy.Index (Spline)

variable {K : Type}

/-- operations of bezman (called in include/splinepy/splines/bezier.inl 283-339, 467-671) -/
structure Operations (K : Type) where
  /-- `DerivativeWRTParametricDimension(orders)` -/
  derivative : Spline K (List K) → List ℕ → Spline K (List K)
  /-- `outer.Compose(inner)` -/
  compose : Spline K (List K) → Spline K (List K) → Spline K (List K)
  /-- `operator*` -/
  times : Spline K (List K) → Spline K (List K) → Spline K (List K)
  /-- `operator+` -/
  plus : Spline K (List K) → Spline K (List K) → Spline K (List K)
  /-- `ExtractDimension` -/
  extract : Spline K (List K) → ℕ → Spline K (List K)

/-- `SplinepySplineName` (include/splinepy/splines/bezier.hpp 115, include/splinepy/splines/rational_bezier.hpp 133) -/
def name (s : Spline K (List K)) : SplineCore.Kind := SplineCore.dispatch s.knotVectors.isSome s.weights.isSome

/-- the name contains "Bezier" (include/splinepy/splines/bezier.inl 470-477) -/
def isBezier (s : Spline K (List K)) : Bool := s.knotVectors.isNone

variable (ops : Operations K)

/-- `SplinepyMultiply`, bezier.inl 283-316 and rational_bezier.inl 316-350; other splines have no products (splinepy_base.cpp). -/
def multiply (a b : Spline K (List K)) : Option (Spline K (List K)) :=
  if !isBezier a then none
  else if name a ≠ name b then none
  else if a.degrees.length ≠ b.degrees.length then none
  else if Create.dim b ≠ 1 ∧ Create.dim a ≠ Create.dim b then none
  else some (ops.times a b)

/-- `SplinepyAdd`, bezier.inl 318-339. -/
def add (a b : Spline K (List K)) : Option (Spline K (List K)) :=
  if !isBezier a then none
  else if name a ≠ name b then none
  else if a.degrees.length ≠ b.degrees.length then none
  else if Create.dim a ≠ Create.dim b then none
  else some (ops.plus a b)

/-- `SplinepyCompose`, bezier.inl 467-575: the switch over the parametric dimension of the inner function has no case for a dimension that cannot be constructed (`maxDim`). -/
def compose (maxDim : ℕ) (outer inner : Spline K (List K)) : Option (Spline K (List K)) :=
  if !isBezier outer || !isBezier inner then none
  else if Create.dim inner ≠ outer.degrees.length then none
  else if inner.degrees.length < 1 ∨ maxDim < inner.degrees.length then none
  else some (ops.compose outer inner)

/-- `SplinepyExtractDim`, bezier.inl 623-628: a dimension out of range is undefined behaviour. -/
def extractDim (s : Spline K (List K)) (i : ℕ) : Option (Spline K (List K)) :=
  if !isBezier s then none else if Create.dim s ≤ i then none else some (ops.extract s i)

/-- one summand of the chain rule, bezier.inl 654-660, 663-668: the derivative of the outer function in direction `i`, composed with the inner function, times component `i` of the derivative
of the inner function -/
def summand (maxDim : ℕ) (outer inner innerDerivative : Spline K (List K)) (i : ℕ) : Option (Spline K (List K)) :=
  (compose ops maxDim (ops.derivative outer ((List.range outer.degrees.length).map fun j => if j = i then 1 else 0)) inner).bind fun t =>
    (extractDim ops innerDerivative i).bind (multiply ops t)

/-- `SplinepyCompositionDerivative`, bezier.inl 630-671 (same in rational_bezier.inl 667-708). -/
def compositionDerivative (maxDim : ℕ) (outer inner innerDerivative : Spline K (List K)) : Option (Spline K (List K)) :=
  if !isBezier outer || !isBezier inner then none
  else if Create.dim inner ≠ outer.degrees.length then none
  else
    (summand ops maxDim outer inner innerDerivative 0).bind fun first =>
      (List.range (outer.degrees.length - 1)).foldlM (fun acc i => (summand ops maxDim outer inner innerDerivative (i + 1)).bind (add ops acc)) first

/-- `spline * factor` for a float, bezier.py 62-66: a spline of the same class from degrees and scaled control points only. `none`: the constructor raises. -/
def timesNumber [Field K] [LinearOrder K] (maxDim : ℕ) (cls : SplineCore.Cls) (core : SplineCore.Core K) (factor : K) : Option (SplineCore.State K) :=
  SplineCore.construct maxDim cls ⟨some core.degrees, none, some ⟨core.cps.dim, core.cps.rows.map fun r => r.map (· * factor)⟩, none⟩

end Splinepy.BezierAlgebra
