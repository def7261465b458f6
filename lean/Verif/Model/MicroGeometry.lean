import Verif.Model.BezierSpline
import Verif.Model.Create
import Verif.Model.Micro
import Verif.Model.MicroCreate

/-!
Model of `Microstructure.create` on splines, splinepy/microstructure/microstructure.py 311-425 and 427-613, 659-666: insertion of the knots of the tiling into the deformation
function, linear spline of the parametric space, Bezier extraction of both, evaluation of the parametrisation function on each element, composition
of the tiles with the patches. Fields of derivatives and macro sensitivities are in `Verif/Model/MicroCreate.lean`.

External functions are parameters (`Library`): BSplineLib (`insert_knots`, `InsertKnot`, `DetermineBezierExtractionKnots`, `KnotMultiplicities`), bezman (`compose`), evaluation.
The tile (`create_tile`) is a parameter. Not modelled: `_sanity_check` and the checks of the arguments of `create` other than `closing_face`.
-/
namespace Splinepy.MicroGeometry
open Splinepy.Index (Spline)

variable {K : Type} [Field K] [LinearOrder K]

/-- Functions of the libraries used by splinepy/microstructure/microstructure.py 311-613. -/
structure Library (K : Type) where
  /-- `insert_knots` of the core, called in splinepy/bspline.py 115-117 -/
  insertKnots : Spline K (List K) → ℕ → List K → Option (Spline K (List K))
  /-- `InsertKnot`, `DetermineBezierExtractionKnots`, `KnotMultiplicities`, see `Verif/Model/BezierSpline.lean` -/
  insertKnot : Spline K (List K) → ℕ → K → Option (Spline K (List K))
  needed : Spline K (List K) → ℕ → List K
  mults : List K → List ℕ
  /-- `compose(outer, inner)`; `none`: exception -/
  compose : Spline K (List K) → Spline K (List K) → Option (Spline K (List K))
  /-- `evaluate`, one query -/
  evaluate : Spline K (List K) → List K → List K

/-- `unique_knots`, splinepy/spline.py 879-901: the parametric bounds of a Bezier, else the distinct knots of each direction. -/
def uniqueKnots (eps : K) (s : Spline K (List K)) : List (List K) :=
  match s.knotVectors with
  | none => s.degrees.map fun _ => [0, 1]
  | some kvs => List.zipWith (fun p kv => Unique.uniqueKnots eps kv p) s.degrees kvs

/-- `parametric_bounds.T`, splinepy/microstructure/microstructure.py 377: lower and upper bound of each direction. -/
def parametricBounds (s : Spline K (List K)) : List (K × K) :=
  match s.knotVectors with
  | none => s.degrees.map fun _ => (0, 1)
  | some kvs => List.zipWith (fun p kv => (kv.getD p 0, kv.getD (kv.length - p - 1) 0)) s.degrees kvs

/-- `insert_knots`, splinepy/bspline.py 75-123: exception for an invalid dimension (94-95), nothing without knots (100-102), exception for knots out of range (104-113). -/
def pyInsertKnots (lib : Library K) (s : Spline K (List K)) (axis : ℕ) (knots : List K) : Option (Spline K (List K)) :=
  match (s.knotVectors.getD [])[axis]? with
  | none => none
  | some kv =>
    if knots = [] then some s
    else if knots.any (fun q => kv.all fun k => decide (k < q)) then none
    else if knots.any (fun q => kv.all fun k => decide (q < k)) then none
    else lib.insertKnots s axis knots

/-- Loop over the dimensions `axis, axis + 1, …`, microstructure.py 366-373. (splinepy/microstructure/microstructure.py) -/
def insertFrom (lib : Library K) : ℕ → List (List K) → Spline K (List K) → Option (Spline K (List K))
  | _, [], s => some s
  | axis, knots :: rest, s => (pyInsertKnots lib s axis knots).bind (insertFrom lib (axis + 1) rest)

/-- Linear spline of the parametric space before refinement, 376-382; `para_bounds.repeat(2, 1)` repeats each entry of each row. (splinepy/microstructure/microstructure.py) -/
def paraSpace (bounds : List (K × K)) : Option (Spline K (List K)) :=
  (Index.cartesianProduct (bounds.map fun b => [b.1, b.2]) true).map fun cps =>
    { degrees := bounds.map fun _ => 1
      knotVectors := some (bounds.map fun b => [b.1, b.1, b.2, b.2])
      weights := none
      controlPoints := cps.map fun r => r.map fun x => x.getD 0 }

/-- `unique_knots[i_pd][1:-1]`, 384-388. (splinepy/microstructure/microstructure.py) -/
def innerKnots (eps : K) (s : Spline K (List K)) : List (List K) := (uniqueKnots eps s).map fun u => u.tail.dropLast

/-- `_compute_tiling_prerequisites`, 352-425, without the matrices: patches of the deformation function, patches of the parametric space (if parametrised), numbers of elements.
`.nurbs` of a rational and `.bspline` of any other spline give the spline with knot vectors (bezier.py 374-377, rational_bezier.py 134-138, bspline.py 475-477, nurbs.py). `additional_knots[0]`
of an empty list raises. Loop 383-388 does not insert empty lists, as `insertFrom` does not. (splinepy/microstructure/microstructure.py) -/
def prerequisites (lib : Library K) (eps : K) (knotSpanWise : Bool) (tiling : List Int) (parametrized : Bool) (s : Spline K (List K)) :
    Option (List (Spline K (List K)) × Option (List (Spline K (List K))) × List ℕ) :=
  (Micro.additionalKnots knotSpanWise tiling (uniqueKnots eps s)).bind fun added =>
    if added.2 = [] then none
    else (insertFrom lib 0 added.2 (Create.withKnotVectors s)).bind fun q =>
      (if parametrized then
        (paraSpace (parametricBounds s)).bind fun p => (insertFrom lib 0 (innerKnots eps q) p).map some
      else some none).bind fun para =>
        (BezierSpline.beziers lib.needed lib.insertKnot lib.mults q).bind fun patches =>
          (match para with
          | none => some none
          | some p => (BezierSpline.beziers lib.needed lib.insertKnot lib.mults p).map some).map fun paraPatches =>
            (patches, paraPatches, (uniqueKnots eps q).map fun (u : List K) => u.length - 1)

/-- What the user sets: splinepy/microstructure/microstructure.py 40-243. `createTile` gets the parameters and the closure; `none`: exception. -/
structure Settings (K : Type) where
  deformation : Spline K (List K)
  tiling : List Int
  parametrization : Option (List (List K) → List (List K))
  evaluationPoints : List (List K)
  createTile : Option (List (List K)) → Option MicroCreate.Side → Option (List (Spline K (List K)))

/-- Parameters of the tile of patch `i`, 546-555; `para_space_patches[i_patch]` raises if there are too few of them. (splinepy/microstructure/microstructure.py) -/
def tileParameters (lib : Library K) (x : Settings K) (para : Option (List (Spline K (List K)))) (i : ℕ) : Option (Option (List (List K))) :=
  match x.parametrization, para with
  | some f, some ps => (ps[i]?).map fun p => some (f (x.evaluationPoints.map (lib.evaluate p)))
  | some _, none => none
  | none, _ => some none

/-- `create`, 427-613 without sensitivities: the patches of the microstructure. (splinepy/microstructure/microstructure.py) -/
def create (lib : Library K) (eps : K) (x : Settings K) (closingFace : Option Char) (knotSpanWise : Bool) : Option (List (Spline K (List K))) :=
  (prerequisites lib eps knotSpanWise x.tiling x.parametrization.isSome x.deformation).bind fun pre =>
    (MicroCreate.closures pre.2.2 closingFace).bind fun closures =>
      (((List.range pre.1.length).mapM fun i =>
        (pre.1[i]?).bind fun patch =>
          (tileParameters lib x pre.2.1 i).bind fun params =>
            (closures[i]?).bind fun closure =>
              (x.createTile params closure).bind fun tile => tile.mapM (lib.compose patch))).map List.flatten

end Splinepy.MicroGeometry
