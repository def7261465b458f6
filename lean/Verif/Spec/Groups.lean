import Mathlib.Data.List.Basic
import Mathlib.Order.Defs.LinearOrder

/-! Specification: knot vectors written as distinct knots with multiplicities. -/
namespace Splinepy.Spec

/-- the knot vector with the given (knot, multiplicity) pairs -/
def expand {K : Type*} (gs : List (K × ℕ)) : List K := gs.flatMap (fun g => List.replicate g.2 g.1)

/-- smallest multiple of `p` that is not smaller than `m`, for `p ≥ 1` -/
def roundUp (p m : ℕ) : ℕ := p * ((m + p - 1) / p)

end Splinepy.Spec
