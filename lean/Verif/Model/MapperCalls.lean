import Verif.Model.Mapper

/-!
Model of the methods of the mapper that return one kind of derivative, splinepy/helpme/mapper.py 364-552. `none` if they raise.
-/
namespace Splinepy.Mapper

variable {K : Type} [Field K] {d m v : ℕ}

/-- `as_dict["…"]`: a missing key raises (mapper.py 386, 416, 468, 495, 525, 552) -/
def basisCall {A : Type} (r : Option (BasisResults K d m)) (key : BasisResults K d m → Option A) : Option (A × (Fin m → ℕ)) :=
  r.bind fun b => (key b).map fun a => (a, b.support)

/-- `basis_gradient_and_support`, mapper.py 365-386 -/
def basisGradientAndSupport (inv : Matrix (Fin d) (Fin d) K → Option (Matrix (Fin d) (Fin d) K)) (sp : Splines K d m) : Option ((Fin m → Fin d → K) × (Fin m → ℕ)) :=
  basisCall (basisFunctionDerivatives inv sp true false false) (·.gradient)

/-- `basis_hessian_and_support`, mapper.py 447-468 -/
def basisHessianAndSupport (inv : Matrix (Fin d) (Fin d) K → Option (Matrix (Fin d) (Fin d) K)) (sp : Splines K d m) :
    Option ((Fin m → Fin d → Fin d → K) × (Fin m → ℕ)) :=
  basisCall (basisFunctionDerivatives inv sp false true false) (·.hessian)

/-- `basis_laplacian_and_support`, mapper.py 504-525 -/
def basisLaplacianAndSupport (inv : Matrix (Fin d) (Fin d) K → Option (Matrix (Fin d) (Fin d) K)) (sp : Splines K d m) : Option ((Fin m → K) × (Fin m → ℕ)) :=
  basisCall (basisFunctionDerivatives inv sp false false true) (·.laplacian)

/-- `gradient`, mapper.py 388-416 -/
def gradientCall (inv : Matrix (Fin d) (Fin d) K → Option (Matrix (Fin d) (Fin d) K)) (sp : Splines K d m) (cps : ℕ → Fin v → K) : Option (Fin v → Fin d → K) :=
  (fieldDerivatives inv sp cps true false false false).bind (·.gradient)

/-- `divergence`, mapper.py 418-445: fields with another number of components are rejected first -/
def divergenceCall (inv : Matrix (Fin d) (Fin d) K → Option (Matrix (Fin d) (Fin d) K)) (sp : Splines K d m) (cps : ℕ → Fin v → K) : Option K :=
  if d ≠ v then none else (fieldDerivatives inv sp cps false true false false).bind (·.divergence)

/-- `hessian`, mapper.py 470-502 -/
def hessianCall (inv : Matrix (Fin d) (Fin d) K → Option (Matrix (Fin d) (Fin d) K)) (sp : Splines K d m) (cps : ℕ → Fin v → K) : Option (Fin v → Fin d → Fin d → K) :=
  (fieldDerivatives inv sp cps false false true false).bind (·.hessian)

/-- `laplacian`, mapper.py 527-552 -/
def laplacianCall (inv : Matrix (Fin d) (Fin d) K → Option (Matrix (Fin d) (Fin d) K)) (sp : Splines K d m) (cps : ℕ → Fin v → K) : Option (Fin v → K) :=
  (fieldDerivatives inv sp cps false false false true).bind (·.laplacian)

end Splinepy.Mapper
