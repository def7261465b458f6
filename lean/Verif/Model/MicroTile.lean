import Verif.Model.MicroSens
import Verif.Spec.TileValue

/-!
Model of the use of the tile classes in `Microstructure.create`, splinepy/microstructure/microstructure.py 574-624: the name of the closure and what the loops do with the two results of `create_tile`.
-/
namespace Splinepy.MicroTile
open Splinepy.Index (Spline)
open Splinepy.MicroCreate (Side)
open Splinepy.Tiles (Tile Mat)

/-- `closing_face + "_min"` and `closing_face + "_max"`, 578-586. (splinepy/microstructure/microstructure.py) -/
def closureName (face : Char) : Side → String
  | .lower => String.singleton face ++ "_min"
  | .upper => String.singleton face ++ "_max"

variable {K : Type}

/-- `create_tile`, called in 592-597. The tile and its derivatives are lists of Bezier splines; without derivatives `enumerate(derivatives)` of 620 raises, if sensitivities are asked for.
(splinepy/microstructure/microstructure.py) -/
def createTile (make : Option String → Option (Mat K) → Option (List (Mat K)) → Option (Tile K)) (face : Option Char) (parameters : Option (List (List K))) (sens : Option (List (List (List K))))
    (closure : Option Side) : Option (List (Spline K (List K)) × List (List (Spline K (List K)))) :=
  (make (closure.map (closureName (face.getD ' '))) parameters sens).bind fun T =>
    match sens, T.derivatives with
    | some _, none => none
    | some _, some ds => some (T.splines.map Tiles.Spec.bezier, ds.map fun d => d.map Tiles.Spec.bezier)
    | none, _ => some (T.splines.map Tiles.Spec.bezier, [])

end Splinepy.MicroTile
