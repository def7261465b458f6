import Verif.Model.MultipatchData
import Verif.Model.Multipatch
import Verif.Model.Interfaces
import Verif.Model.Centers
import Verif.Model.Boundary

/-!
Model of how a multipatch of volumes is shown: its boundary faces, `_uniform_3d_faces` (splinepy/helpme/extract.py 124-145), `PyMultipatch::BoundaryMultipatch` (src/py/py_multipatch.cpp 1338-1382).
-/
namespace Splinepy.FieldData
open Splinepy.Index (Spline)
open Splinepy.Spec (Direction directions)
open Splinepy.Mesh

variable {K V : Type} [Field K] [LinearOrder K]

/-- `GetInterfaces`, py_multipatch.cpp 1249-1262: the stored table; if there is none, the one detected from the centers of the faces. `detect` is `InterfacesFromBoundaryCenters` with the tolerance of the
multipatch, `none` an exception. Fields get no table when they are added (py_multipatch.cpp 1535-1608): theirs is detected from their own values. -/
def interfaceTable (evaluate : Spline K V → List K → V) (detect : List V → Option (List Int)) (stored : Option (List Int)) (patches : List (Spline K V)) : Option (List Int) :=
  match stored with
  | some t => some t
  | none => detect (Centers.subPatchCenters evaluate patches)

/-- `BoundaryMultipatch(-1)`, py_multipatch.cpp 1338-1382, for patches with three parametric directions, i.e. six faces each: the faces with a negative entry, in the order of the table. Not cached: the
cache is in C15. -/
def boundaryFaces (table : List Int) (patches : List (Spline K V)) : Option (List (Spline K V)) :=
  (Multipatch.boundaryPatchIds table (-1)).mapM fun i => patches[i / 6]?.bind fun p => Boundary.boundary p (i % 6)

/-- vertices and cells of a shown multipatch of volumes, visualize.py 230-254, extract.py 124-145, 196-203, for an integer resolution. The values shown on it are the vertices of the field under the same
function (data.py 615-619). -/
def volumeMultipatch (evaluate : Spline K V → List K → V) (detect : List V → Option (List Int)) (r : ℕ) (stored : Option (List Int)) (patches : List (Spline K V)) : Option (Mesh V) :=
  (interfaceTable evaluate detect stored patches).bind fun table =>
    (boundaryFaces table patches).map fun bs => patchCells (bs.map fun b => sample (evaluate b) (directions b) [r, r]) (quadFaces r r) (r ^ 2)

end Splinepy.FieldData
