import Mathlib.Algebra.BigOperators.Group.Finset.Basic
import Mathlib.Data.Rat.Defs
import Verif.Model.Index

/-!
Model of `Microstructure.create`, splinepy/microstructure/microstructure.py 427-666, after `_compute_tiling_prerequisites` (311-425): closing faces, composition
of the tiles with the Bezier patches of the deformation function, and the fields of derivatives.

Not modelled: the tiles themselves (`create_tile` is a parameter), the composition of Bezier splines (`compose`, `composition_derivative`, bezman, parameters),
logging, `_sanity_check`. Arrays of sensitivities of shape `(points, infos, n)` are given as the list of their `n` slices `[:, :, j]`.
Rational deformation functions with macro sensitivities are not modelled.
-/

namespace Splinepy.MicroCreate

/-- `closing_face + "_min"`, `closing_face + "_max"` (splinepy/microstructure/microstructure.py 579-582) -/
inductive Side
  | lower | upper
deriving DecidableEq

/-- `face_closure`, microstructure.py 575-586. -/
def faceClosure (index resolution : ℕ) : Option Side :=
  if index = 0 then some .lower else if index + 1 = resolution then some .upper else none

/-- `{"x": 0, "y": 1, "z": 2}.get(closing_face)`, 470. (splinepy/microstructure/microstructure.py) -/
def closingDim : Char → Option ℕ
  | 'x' => some 0
  | 'y' => some 1
  | 'z' => some 2
  | _ => none

/-- `local_indices`, 512-514. (splinepy/microstructure/microstructure.py) -/
def localIndices (resolutions : List ℕ) : Option (List (List (Option ℕ))) := Index.cartesianProduct (resolutions.map List.range) true

/-- Closures of all patches, 464-484 and 574-588; `none`: an exception (of 467, 478, also for unknown names: `None >= int`). (splinepy/microstructure/microstructure.py) -/
def closures (resolutions : List ℕ) (closingFace : Option Char) : Option (List (Option Side)) :=
  match closingFace with
  | none => some (List.replicate resolutions.prod none)
  | some c =>
    match closingDim c with
    | none => none
    | some k =>
      if k ≥ resolutions.length then none
      else (localIndices resolutions).map fun rows =>
        rows.map fun r => faceClosure ((r.getD k none).getD 0) (resolutions.getD k 0)

section
variable {K D T S : Type} [Field K] [DecidableEq K]

/-- One slice `[:, :, j]` of the sensitivities. (splinepy/microstructure/microstructure.py 555-568) -/
abbrev Slice (K : Type) := List (List K)

/-- `np.any(tile_sensitivities != 0.0, axis=(0, 1))`, one entry, 566. (splinepy/microstructure/microstructure.py) -/
def nonzero (s : Slice K) : Bool := s.any fun row => row.any fun x => decide (x ≠ 0)

/-- `support`, 567. (splinepy/microstructure/microstructure.py) -/
def support (sens : List (Slice K)) : List ℕ := (List.range sens.length).filter fun j => nonzero (sens.getD j [])

/-- `anti_support`, 568. (splinepy/microstructure/microstructure.py) -/
def antiSupport (sens : List (Slice K)) : List ℕ := (List.range sens.length).filter fun j => !nonzero (sens.getD j [])

/-- `spline_list_derivs[j].extend(x)`; `none`: `IndexError`. (splinepy/microstructure/microstructure.py 615-624) -/
def addAt {α : Type} (l : List (List α)) (j : ℕ) (x : List α) : Option (List (List α)) :=
  if j < l.length then some (l.modify j (· ++ x)) else none

/-- Loop over one entry of `derivatives`, 620-624. (splinepy/microstructure/microstructure.py) -/
def addDerivatives (cd : T → T → S) (tile deris : List T) (target : Option ℕ) (l : List (List (Option S))) : Option (List (List (Option S))) :=
  (tile.zip deris).foldlM (fun l (p : T × T) => target.bind fun s => addAt l s [some (cd p.1 p.2)]) l

/-- Derivatives with respect to the tile parameters, 615-624. (splinepy/microstructure/microstructure.py) -/
def parameterFields (cd : T → T → S) (sens : List (Slice K)) (tile : List T) (derivatives : List (List T)) (l : List (List (Option S))) :
    Option (List (List (Option S))) :=
  ((antiSupport sens).foldlM (fun l j => addAt l j (List.replicate tile.length none)) l).bind fun l =>
    (List.range derivatives.length).foldlM
      (fun l j => addDerivatives cd tile (derivatives.getD j []) (support sens)[j]? l) l

/-- `mapped_cps[c, ii]`, 634-637: `basis l c` is control point `c` of the derivative with respect to Bezier control point `l` (`m` of them), `matrix` the
knot insertion matrix of the patch. (splinepy/microstructure/microstructure.py) -/
def mappedCps (m : ℕ) (basis : ℕ → ℕ → K) (matrix : ℕ → ℕ → K) (c ii : ℕ) : K := ∑ l ∈ Finset.range m, basis l c * matrix l ii

/-- `control_points` of 642-648: `n` rows of length `dim`, column `jj_dim` is set. (splinepy/microstructure/microstructure.py) -/
def macroControlPoints (dim m n : ℕ) (basis : ℕ → ℕ → K) (matrix : ℕ → ℕ → K) (jcc : ℕ) : List (List K) :=
  (List.range n).map fun c => (List.range dim).map fun k => if k = jcc % dim then mappedCps m basis matrix c (jcc / dim) else 0

/-- What the composition with sensitivities returns for a tile patch, 600-609: number of control points of the composed spline, number of
Bezier control points and the control points of the derivatives. (splinepy/microstructure/microstructure.py) -/
structure BasisComposition (K : Type) where
  n : ℕ
  m : ℕ
  basis : ℕ → ℕ → K

/-- Derivatives with respect to the control points of the deformation function, 626-655. `bezier` makes the spline of 652-654. (splinepy/microstructure/microstructure.py) -/
def macroFields (bezier : BasisComposition K → List (List K) → S) (dim nMacro nParameter : ℕ) (matrix : ℕ → ℕ → K) (infos : List (BasisComposition K))
    (l : List (List (Option S))) : Option (List (List (Option S))) :=
  infos.foldlM (fun l info =>
    (List.range nMacro).foldlM (fun l jcc =>
      addAt l (nParameter + jcc) [some (bezier info (macroControlPoints dim info.m info.n info.basis matrix jcc))]) l) l

/-- Everything `create` uses. (splinepy/microstructure/microstructure.py 427-666) -/
structure Input (K D T S : Type) where
  /-- Bezier patches of the deformation function -/
  patches : List D
  /-- closures of the patches (`closures`) -/
  closure : List (Option Side)
  /-- `None` without parametrization; `parametrization_function` at the positions of the patch -/
  parameters : D → Option (Slice K)
  /-- `None` without sensitivity function; slices of `parameter_sensitivity_function` at the positions of the patch -/
  sensitivities : Option (D → List (Slice K))
  /-- number of slices at the evaluation points of the tile itself, 519-521 -/
  nSensitivities : ℕ
  /-- `create_tile`: tile and derivatives -/
  createTile : Option (Slice K) → Option (List (Slice K)) → Option Side → List T × List (List T)
  compose : D → T → S
  compositionDerivative : D → T → T → S
  /-- `None` without macro sensitivities; second return value of `compose` -/
  basisComposition : Option (D → T → BasisComposition K)
  bezier : BasisComposition K → List (List K) → S
  /-- knot insertion matrix of each patch -/
  matrix : D → ℕ → ℕ → K
  dim : ℕ
  /-- `deformation_function.cps.size` -/
  cpsSize : ℕ

/-- `n_parameter_sensitivities`, 518-523. (splinepy/microstructure/microstructure.py) -/
def Input.nParameter (x : Input K D T S) : ℕ := if x.sensitivities.isSome then x.nSensitivities else 0

/-- `n_macro_sensitivities`, 527-530. (splinepy/microstructure/microstructure.py) -/
def Input.nMacro (x : Input K D T S) : ℕ := if x.basisComposition.isSome then x.cpsSize else 0

/-- `create_tile` for one patch, 570-572 and 592-597. (splinepy/microstructure/microstructure.py) -/
def tileOf (x : Input K D T S) (d : D) (closure : Option Side) : List T × List (List T) :=
  x.createTile (x.parameters d)
    (x.sensitivities.map fun f => (support (f d)).map fun j => (f d).getD j []) closure

/-- Contributions of one patch to the fields of the tile parameters. (splinepy/microstructure/microstructure.py 611-624) -/
def parameterStep (x : Input K D T S) (d : D) (tile : List T × List (List T)) (l : List (List (Option S))) : Option (List (List (Option S))) :=
  match x.sensitivities with
  | none => some l
  | some f => parameterFields (x.compositionDerivative d) (f d) tile.1 tile.2 l

/-- Contributions of one patch to the fields of the control points. (splinepy/microstructure/microstructure.py 626-655) -/
def macroStep (x : Input K D T S) (d : D) (tile : List T) (l : List (List (Option S))) : Option (List (List (Option S))) :=
  match x.basisComposition with
  | none => some l
  | some b => macroFields x.bezier x.dim x.nMacro x.nParameter (x.matrix d) (tile.map (b d)) l

/-- Body of the loop 544-655: composed splines and fields. (splinepy/microstructure/microstructure.py) -/
def step (x : Input K D T S) (st : List S × List (List (Option S))) (p : D × Option Side) : Option (List S × List (List (Option S))) :=
  let tile := tileOf x p.1 p.2
  let ms := st.1 ++ tile.1.map (x.compose p.1)
  (parameterStep x p.1 tile st.2).bind fun l => (macroStep x p.1 tile.1 l).map fun l => (ms, l)

/-- `create`, 532-666: splines and fields handed to the multipatch. `none`: exception. (splinepy/microstructure/microstructure.py) -/
def create (x : Input K D T S) : Option (List S × List (List (Option S))) :=
  (x.patches.zip x.closure).foldlM (step x) ([], List.replicate (x.nParameter + x.nMacro) [])

end

end Splinepy.MicroCreate
