import Verif.Model.MicroGeometry

/-!
Model of `Microstructure.create` on splines with a parameter sensitivity function, splinepy/microstructure/microstructure.py 427-624, 657-666: the fields of derivatives with respect to the design
variables. Macro sensitivities are in `Verif/Model/MacroMatrix.lean`. Parameters as in `Verif/Model/MicroGeometry.lean`, and `composition_derivative` (modelled in `Verif/Model/BezierAlgebra.lean`).
-/
namespace Splinepy.MicroSens
open Splinepy.Index (Spline)
open Splinepy.MicroGeometry (Library prerequisites)
open Splinepy.MicroCreate (Slice Side addAt support antiSupport)

variable {K : Type} [Field K] [LinearOrder K]

/-- What the user sets: splinepy/microstructure/microstructure.py 40-243. The sensitivity function returns its slices `[:, :, j]`. `createTile` gets the parameters, the slices of their sensitivities and
the closure, and returns the tile and its derivatives (none without sensitivities); `none`: exception. -/
structure Settings (K : Type) where
  deformation : Spline K (List K)
  tiling : List Int
  parametrization : Option (List (List K) → List (List K))
  sensitivity : Option (List (List K) → List (Slice K))
  evaluationPoints : List (List K)
  createTile : Option (List (List K)) → Option (List (Slice K)) → Option Side → Option (List (Spline K (List K)) × List (List (Spline K (List K))))

/-- `positions`, 549-551; `para_space_patches[i_patch]` raises if there are too few of them. (splinepy/microstructure/microstructure.py) -/
def positions (lib : Library K) (points : List (List K)) (para : Option (List (Spline K (List K)))) (i : ℕ) : Option (List (List K)) :=
  (para.bind fun ps => ps[i]?).map fun p => points.map (lib.evaluate p)

/-- A function of the user at the positions, 553-555 and 559-562: without function `None`. (splinepy/microstructure/microstructure.py) -/
def atPositions {α : Type} (f : Option (List (List K) → α)) (pos : Option (List (List K))) : Option (Option α) :=
  match f with
  | none => some none
  | some f => pos.map fun p => some (f p)

/-- `tile_sensitivities[:, :, support]`, 570. (splinepy/microstructure/microstructure.py) -/
def onSupport (sens : List (Slice K)) : List (Slice K) := (support sens).map fun j => sens.getD j []

/-- Loop over one entry of `derivatives`, 620-624; `composition_derivative` may raise. (splinepy/microstructure/microstructure.py) -/
def addDerivatives (cd : Spline K (List K) → Spline K (List K) → Option (Spline K (List K))) (tile deris : List (Spline K (List K))) (target : Option ℕ)
    (l : List (List (Option (Spline K (List K))))) : Option (List (List (Option (Spline K (List K))))) :=
  (tile.zip deris).foldlM (fun l p => (cd p.1 p.2).bind fun c => target.bind fun s => addAt l s [some c]) l

/-- Fields of the design variables, 615-624. (splinepy/microstructure/microstructure.py) -/
def parameterFields (cd : Spline K (List K) → Spline K (List K) → Option (Spline K (List K))) (sens : List (Slice K)) (tile : List (Spline K (List K)))
    (derivatives : List (List (Spline K (List K)))) (l : List (List (Option (Spline K (List K))))) : Option (List (List (Option (Spline K (List K))))) :=
  ((antiSupport sens).foldlM (fun l j => addAt l j (List.replicate tile.length none)) l).bind fun l =>
    (List.range derivatives.length).foldlM (fun l j => addDerivatives cd tile (derivatives.getD j []) (support sens)[j]? l) l

/-- Body of the loop 544-624 for patch `i`: the patches of the microstructure and the fields. (splinepy/microstructure/microstructure.py) -/
def step (lib : Library K) (cd : Spline K (List K) → Spline K (List K) → Spline K (List K) → Option (Spline K (List K))) (x : Settings K) (patches : List (Spline K (List K)))
    (para : Option (List (Spline K (List K)))) (closures : List (Option Side)) (st : List (Spline K (List K)) × List (List (Option (Spline K (List K))))) (i : ℕ) :
    Option (List (Spline K (List K)) × List (List (Option (Spline K (List K))))) :=
  (patches[i]?).bind fun patch =>
    (atPositions x.parametrization (positions lib x.evaluationPoints para i)).bind fun params =>
      (atPositions x.sensitivity (positions lib x.evaluationPoints para i)).bind fun sens =>
        (closures[i]?).bind fun closure =>
          (x.createTile params (sens.map onSupport) closure).bind fun tile =>
            (tile.1.mapM (lib.compose patch)).bind fun composed =>
              (match sens with
              | none => some st.2
              | some s => parameterFields (cd patch) s tile.1 tile.2 st.2).map fun fields => (st.1 ++ composed, fields)

/-- `n_parameter_sensitivities`, 518-523. (splinepy/microstructure/microstructure.py) -/
def nParameter (x : Settings K) : ℕ := (x.sensitivity.map fun g => (g x.evaluationPoints).length).getD 0

/-- `create`, 427-624 and 657-666, without macro sensitivities: the patches of the microstructure and the fields of the design variables. A sensitivity function without parametrization
function raises (492-496). (splinepy/microstructure/microstructure.py) -/
def create (lib : Library K) (cd : Spline K (List K) → Spline K (List K) → Spline K (List K) → Option (Spline K (List K))) (eps : K) (x : Settings K) (closingFace : Option Char)
    (knotSpanWise : Bool) : Option (List (Spline K (List K)) × List (List (Option (Spline K (List K))))) :=
  if x.sensitivity.isSome && x.parametrization.isNone then none
  else (prerequisites lib eps knotSpanWise x.tiling x.parametrization.isSome x.deformation).bind fun pre =>
    (MicroCreate.closures pre.2.2 closingFace).bind fun closures =>
      (List.range pre.1.length).foldlM (step lib cd x pre.1 pre.2.1 closures) ([], List.replicate (nParameter x) [])

end Splinepy.MicroSens
