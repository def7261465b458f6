import Verif.Model.Mesh
import Mathlib.Data.List.Dedup

/-!
Model of the extraction of control meshes (splinepy/helpme/extract.py 284-406) and of the lines that are shown for them (splinepy/helpme/visualize.py 426-443). As in `Model/Mesh`, `gustaf` enters by its documented results.
-/
namespace Splinepy.ControlMesh
open Splinepy.Index (Spline)
open Splinepy.Spec (netSize)
open Splinepy.Mesh

variable {K P : Type}

/-- `make_hexa_volumes` of `gustaf`: cells of a grid of vertices, first direction running fastest, corners of the lower side in cyclic order, then those of the upper side. (called in splinepy/helpme/extract.py 377) -/
def hexaVolumes (r0 r1 r2 : ℕ) : List (List ℕ) :=
  (List.range (r2 - 1)).flatMap fun k => (List.range (r1 - 1)).flatMap fun j => (List.range (r0 - 1)).map fun i =>
    [i + r0 * (j + r1 * k), i + 1 + r0 * (j + r1 * k), i + 1 + r0 * (j + 1 + r1 * k), i + r0 * (j + 1 + r1 * k),
      i + r0 * (j + r1 * (k + 1)), i + 1 + r0 * (j + r1 * (k + 1)), i + 1 + r0 * (j + 1 + r1 * (k + 1)), i + r0 * (j + 1 + r1 * (k + 1))]

/-- `control_mesh` of a spline, extract.py 300-406: edges, faces or volumes; `none` (ValueError) for other parametric dimensions. Edges go by the number of control points, the others by `control_mesh_resolutions`
(`netSize`). -/
def controlMesh (s : Spline K P) : Option (Mesh P) :=
  match netSize s with
  | [_] => some ⟨s.controlPoints, rangeToEdges s.controlPoints.length⟩
  | [r0, r1] => some ⟨s.controlPoints, quadFaces r0 r1⟩
  | [r0, r1, r2] => some ⟨s.controlPoints, hexaVolumes r0 r1 r2⟩
  | _ => none

/-- `control_mesh` of a multipatch, extract.py 314-316, 343-345, 371-373: those of the patches, put together. -/
def multipatchControlMesh (patches : List (Spline K P)) : Option (Mesh P) := (patches.mapM controlMesh).map concat

/-- the lines of an edge, a quad, a hexahedron, in `to_edges` of `gustaf` (called in visualize.py 431-433) -/
def cellLines : List ℕ → List (ℕ × ℕ)
  | [a, b] => [(a, b)]
  | [a, b, c, d] => [(a, b), (b, c), (c, d), (d, a)]
  | [a, b, c, d, e, f, g, h] => [(a, b), (b, c), (c, d), (d, a), (e, f), (f, g), (g, h), (h, e), (a, e), (b, f), (c, g), (d, h)]
  | _ => []

/-- `to_edges(unique=True)`: every line once, smaller number first (visualize.py 426-433; for curves the mesh has its edges already). The order of the lines is not modelled. -/
def lines (m : Mesh P) : List (ℕ × ℕ) := ((m.elements.flatMap cellLines).map fun e => (min e.1 e.2, max e.1 e.2)).dedup

end Splinepy.ControlMesh
