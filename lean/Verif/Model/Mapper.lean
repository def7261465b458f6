import Mathlib.Data.Matrix.Mul
import Mathlib.Algebra.BigOperators.Fin
import Mathlib.LinearAlgebra.Matrix.Notation

/-!
Model of splinepy/helpme/mapper.py (derivatives in physical space) and of `ScalarTypeJacobian`.

One query point; the loop over the queries is the leading index of every array in the code. `np.einsum` is the sum over the repeated indices. `np.linalg.inv`
is a parameter. The derivatives of the two splines are parameters: a function of the orders.
-/
namespace Splinepy.Mapper

variable {K : Type} [Field K] {d v m : ℕ}

/-- `np.eye(1, M=para_dim, k=i)` (splinepy/helpme/mapper.py 98-254) -/
def eye (i : Fin d) : Fin d → ℕ := fun k => if k = i then 1 else 0

/-- `ScalarTypeJacobian`, scalar_type_wrapper.hpp 164-195: `derQuery` is incremented at `i`, used and decremented again; the result is written to
column `i`. -/
def jacobianLoop (derivative : (Fin d → ℕ) → Fin v → K) : List (Fin d) → (Fin d → ℕ) × (Fin v → Fin d → K) → (Fin d → ℕ) × (Fin v → Fin d → K)
  | [], st => st
  | i :: is, (derQuery, output) =>
    let q := Function.update derQuery i (derQuery i + 1)
    let result := derivative q
    let out := fun j k => if k = i then result j else output j k
    jacobianLoop derivative is (Function.update q i (q i - 1), out)

/-- `jacobian`: rows are components, columns are parametric directions. (include/splinepy/splines/helpers/scalar_type_wrapper.hpp 165-195) -/
def jacobian (derivative : (Fin d → ℕ) → Fin v → K) : Matrix (Fin v) (Fin d) K :=
  Matrix.of (jacobianLoop derivative (List.finRange d) (fun _ => 0, fun _ _ => 0)).2

/-- Check of the dimensions in `Mapper.__init__`, mapper.py 88-94; `none`: `ValueError`. -/
def init (referenceParaDim referenceDim fieldParaDim : ℕ) : Option ℕ :=
  if ¬ referenceParaDim = fieldParaDim then none
  else if ¬ referenceParaDim = referenceDim then none
  else some referenceParaDim

/-- What the two splines return at the query; `m` is `prod(degrees + 1)` of the field. (splinepy/helpme/mapper.py 83-97) -/
structure Splines (K : Type) (d m : ℕ) where
  support : Fin m → ℕ
  basisDerivative : (Fin d → ℕ) → Fin m → K
  geometryDerivative : (Fin d → ℕ) → Fin d → K

/-- Loops `for i … for j in range(i, …)` with mirrored entries, mapper.py 186-197 and 208-219. -/
def mirrored {ι : Type} (der : (Fin d → ℕ) → ι → K) (s : ι) (i j : Fin d) : K :=
  if i ≤ j then der (fun k => eye i k + eye j k) s else der (fun k => eye j k + eye i k) s

/-- Dictionary returned by `basis_function_derivatives`. (splinepy/helpme/mapper.py 98-254) -/
structure BasisResults (K : Type) (d m : ℕ) where
  support : Fin m → ℕ
  gradient : Option (Fin m → Fin d → K)
  hessian : Option (Fin m → Fin d → Fin d → K)
  laplacian : Option (Fin m → K)

/-- `basis_function_derivatives`, mapper.py 98-253. `none`: the Jacobian is singular (`LinAlgError`). -/
def basisFunctionDerivatives (inv : Matrix (Fin d) (Fin d) K → Option (Matrix (Fin d) (Fin d) K)) (sp : Splines K d m)
    (gradient hessian laplacian : Bool) : Option (BasisResults K d m) :=
  (inv (jacobian sp.geometryDerivative)).map fun invjac =>                                              -- lines 141-143
    let bfGradients : Fin m → Fin d → K := fun s i => sp.basisDerivative (eye i) s                      -- lines 146-168
    let geoHessians : Fin d → Fin d → Fin d → K := mirrored sp.geometryDerivative
    let bfHessians : Fin m → Fin d → Fin d → K := fun a l k =>
      mirrored sp.basisDerivative a l k - ∑ n, ∑ p, bfGradients a n * invjac n p * geoHessians p l k    -- lines 222-228
    let hess : Fin m → Fin d → Fin d → K := fun a i j => ∑ l, ∑ k, invjac l i * bfHessians a l k * invjac k j
    { support := sp.support
      gradient := if gradient then some (fun s j => ∑ i, bfGradients s i * invjac i j) else none        -- lines 169-173
      hessian := if hessian then some hess else none                                                    -- lines 229-237
      laplacian :=
        if laplacian then
          some (if hessian then fun a => ∑ i, hess a i i                                                -- lines 239-242
            else fun a => ∑ l, ∑ k, ∑ i, invjac l i * bfHessians a l k * invjac k i)                    -- lines 244-250
        else none }

/-- Dictionary returned by `field_derivatives`. (splinepy/helpme/mapper.py 255-363) -/
structure FieldResults (K : Type) (d v : ℕ) where
  gradient : Option (Fin v → Fin d → K)
  divergence : Option K
  hessian : Option (Fin v → Fin d → Fin d → K)
  laplacian : Option (Fin v → K)

/-- `field_derivatives`, mapper.py 255-363; `cps` are the control points of the field. `none`: the Jacobian is singular, or divergence of a field with
another number of components than parametric dimensions. -/
def fieldDerivatives (inv : Matrix (Fin d) (Fin d) K → Option (Matrix (Fin d) (Fin d) K)) (sp : Splines K d m) (cps : ℕ → Fin v → K)
    (gradient divergence hessian laplacian : Bool) : Option (FieldResults K d v) :=
  (basisFunctionDerivatives inv sp (gradient || divergence) hessian laplacian).bind fun b =>
    let grad := b.gradient.map fun g => fun w e => ∑ s, g s e * cps (b.support s) w                     -- lines 316-322
    let hess := b.hessian.map fun h => fun w i j => ∑ s, h s i j * cps (b.support s) w                  -- lines 343-349
    let lapl :=
      if laplacian then
        if hessian then hess.map fun h => fun w => ∑ i, h w i i                                         -- lines 351-354
        else b.laplacian.map fun l => fun w => ∑ s, l s * cps (b.support s) w                           -- lines 356-361
      else none
    if divergence then
      if e : d = v then                                                                                 -- line 325
        let div :=
          if gradient then grad.map fun g => ∑ i : Fin d, g (Fin.cast e i) i                            -- lines 326-329
          else b.gradient.map fun g => ∑ s, ∑ i : Fin d, g s i * cps (b.support s) (Fin.cast e i)       -- lines 331-336
        some { gradient := if gradient then grad else none, divergence := div, hessian := hess, laplacian := lapl }
      else none                                                                                         -- lines 337-341
    else some { gradient := if gradient then grad else none, divergence := none, hessian := hess, laplacian := lapl }

end Splinepy.Mapper
