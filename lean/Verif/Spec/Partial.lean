import Mathlib.Analysis.Calculus.FDeriv.Basic
import Mathlib.Analysis.InnerProductSpace.PiL2

/-!
Specification of mixed partial derivatives of functions of `n` real variables.
-/
namespace Splinepy.Spec

/-- partial derivative with respect to variable `i` -/
noncomputable def partialD {n : ℕ} (i : Fin n) (f : (Fin n → ℝ) → ℝ) (x : Fin n → ℝ) : ℝ := fderiv ℝ f x (Pi.single i 1)

/-- `ks` partial derivatives with respect to the variables `is`, one after another -/
noncomputable def mixedD {n : ℕ} : List (Fin n) → List ℕ → ((Fin n → ℝ) → ℝ) → (Fin n → ℝ) → ℝ
  | i :: is, k :: ks, f => mixedD is ks ((partialD i)^[k] f)
  | _, _, f => f

/-- mixed partial derivative of multi-order `order` (one entry per variable) -/
noncomputable def derivative {n : ℕ} (order : List ℕ) (f : (Fin n → ℝ) → ℝ) : (Fin n → ℝ) → ℝ := mixedD (List.finRange n) order f

end Splinepy.Spec
