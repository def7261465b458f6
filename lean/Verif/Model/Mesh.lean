import Verif.Model.Index
import Verif.Model.Unique
import Verif.Model.Boundary
import Verif.Spec.Product
import Verif.Spec.Spline

/-!
Model of the extraction of meshes, splinepy/helpme/extract.py 16-281. `gustaf` is not part of the repository: a mesh of it is a list of vertices and a list of elements, each a list of
vertex numbers; `range_to_edges`, `make_quad_faces`, `make_hexa_volumes` and `concat` enter by their documented results.
-/
namespace Splinepy.Mesh
open Splinepy.Index (Spline)
open Splinepy.Spec (Direction directions)

variable {K P : Type}

/-- A mesh of `gustaf` (Edges, Faces, Volumes). (used in splinepy/helpme/extract.py 16-281) -/
structure Mesh (P : Type) where
  vertices : List P
  elements : List (List ℕ)
deriving DecidableEq

/-- `concat` of `gustaf`: vertex numbers of a mesh are shifted by the number of vertices of the meshes before. (called in splinepy/helpme/extract.py 68, 121, 214) -/
def concat : List (Mesh P) → Mesh P
  | [] => ⟨[], []⟩
  | m :: ms =>
    let r := concat ms
    ⟨m.vertices ++ r.vertices, m.elements ++ r.elements.map fun e => e.map fun v => v + m.vertices.length⟩

/-- `range_to_edges((0, n), closed=False)` of `gustaf`. (called in splinepy/helpme/extract.py 49, 104) -/
def rangeToEdges (n : ℕ) : List (List ℕ) := (List.range (n - 1)).map fun k => [k, k + 1]

/-- `np.linspace(lower, upper, n)`, exact arithmetic. (splinepy/helpme/extract.py 98) -/
def linspace [Field K] (lower upper : K) (n : ℕ) : List K := (List.range n).map fun k : ℕ => lower + (k : K) * ((upper - lower) / ((n - 1 : ℕ) : K))

/-- `unique_knots` of one direction: `uniqueKnots` with the tolerance `eps`, or the unit interval of Bezier splines (py_spline.cpp `parametric_bounds`). (splinepy/helpme/extract.py 77) -/
def relevantKnots [Field K] [LinearOrder K] (eps : K) (allKnots : Bool) (d : Direction K) : List K :=
  if allKnots then
    match d.knots with
    | none => [0, 1]
    | some kv => Unique.uniqueKnots eps kv d.deg
  else [d.lower, d.upper]

/-- `[:, reorder_mask]` for one row, extract.py 94-101: the mask is `[1, …, i, 0, i + 1, …, paraDim - 1]`. -/
def reorder (paraDim i : ℕ) (row : List (Option K)) : List (Option K) :=
  ((List.range i).map (· + 1) ++ [0] ++ (List.range (paraDim - 1 - i)).map (· + (1 + i))).map fun m => row.getD m none

/-- Knot lines of direction `i`, extract.py 83-119. `evaluate` is `spline.evaluate` of one query. -/
def lines [Field K] (evaluate : List K → P) (dirs : List (Direction K)) (knots : List (List K)) (resolution : List ℕ) (i : ℕ) : Option (Mesh P) :=
  let splitKnots := knots.eraseIdx i
  let nKnotLines := (splitKnots.map List.length).prod
  match dirs[i]?, resolution[i]? with
  | some d, some r =>
    (Index.cartesianProduct (linspace d.lower d.upper r :: splitKnots) true).bind fun rows =>
      ((rows.map (reorder dirs.length i)).mapM fun (row : List (Option K)) => row.mapM id).map fun queries =>
        ⟨queries.map evaluate, (List.range nKnotLines).flatMap fun j => (rangeToEdges r).map fun e => e.map fun v => v + r * j⟩
  | _, _ => none

/-- `edges` for one spline with more than one parametric direction, extract.py 62-121. -/
def edges [Field K] [LinearOrder K] (eps : K) (evaluate : List K → P) (dirs : List (Direction K)) (resolution : List ℕ) (allKnots : Bool) : Option (Mesh P) :=
  ((List.range dirs.length).mapM (lines evaluate dirs (dirs.map (relevantKnots eps allKnots)) resolution)).map concat

/-- `edges` for curves, extract.py 41-60; `samples` are the sampled patches (a single spline has one): the samples of a multipatch are the samples of its patches one after another, and
patch `i` gets the connectivity shifted by `i * resolution`. -/
def curveEdges (samples : List (List P)) (resolution : ℕ) : Mesh P :=
  ⟨samples.flatten, (List.range samples.length).flatMap fun i => (rangeToEdges resolution).map fun e => e.map fun v => v + i * resolution⟩

/-- `faces` and `volumes` for a multipatch with an integer resolution (extract.py 133-145, 175-194, 255-276): `cells` is the connectivity of one patch (`make_quad_faces`,
`make_hexa_volumes`), `n` the number of vertices of one patch (`resolution**para_dim`). -/
def patchCells (samples : List (List P)) (cells : List (List ℕ)) (n : ℕ) : Mesh P :=
  ⟨samples.flatten, (List.range samples.length).flatMap fun i => cells.map fun c => c.map fun v => v + i * n⟩

/-- `make_quad_faces` of `gustaf`: cells of a grid of vertices, first direction running fastest, corners in cyclic order. (called in splinepy/helpme/extract.py 135, 178, 188, 211) -/
def quadFaces (r0 r1 : ℕ) : List (List ℕ) :=
  (List.range (r1 - 1)).flatMap fun j => (List.range (r0 - 1)).map fun i => [i + r0 * j, i + 1 + r0 * j, i + 1 + r0 * (j + 1), i + r0 * (j + 1)]

/-- `sample(resolutions)`: values at the grid of equidistant parameters, first direction running fastest (C07). (splinepy/spline.py 1163-1190) -/
def sample [Field K] (evaluate : List K → P) (dirs : List (Direction K)) (resolution : List ℕ) : List P :=
  (Spec.firstFastest (List.zipWith (fun d r => linspace d.lower d.upper r) dirs resolution)).map evaluate

/-- `faces` of a surface before merging of vertices, extract.py 187-194. -/
def surfaceFaces [Field K] (evaluate : List K → P) (dirs : List (Direction K)) (r0 r1 : ℕ) : Mesh P := ⟨sample evaluate dirs [r0, r1], quadFaces r0 r1⟩

/-- `faces` of a spline with three parametric directions before merging of vertices, extract.py 124-145 and 196-214: the six boundaries are sampled, for equal resolutions as a multipatch,
otherwise one after another. `evaluate` is the evaluation of a boundary spline. -/
def volumeFaces [Field K] [LinearOrder K] (evaluate : Spline K P → List K → P) (s : Spline K P) (resolution : List ℕ) : Option (Mesh P) :=
  (Boundary.boundaries s []).bind fun bs =>
    match resolution with
    | [r0, r1, r2] =>
      if r0 = r1 ∧ r1 = r2 then
        some (patchCells (bs.map fun b => sample (evaluate b) (directions b) [r0, r0]) (quadFaces r0 r0) (r0 ^ 2))
      else
        some (concat (bs.zipIdx.map fun b =>
          let res := [r0, r1, r2].eraseIdx (b.2 / 2)
          ⟨sample (evaluate b.1) (directions b.1) res, quadFaces (res.getD 0 0) (res.getD 1 0)⟩))
    | _ => none

/-- `resolution` of `faces` and `volumes`: documented as integer or list of integers (splinepy/helpme/extract.py 162, 232) -/
inductive Resolution where
  | int (n : ℕ)
  | list (ns : List ℕ)

/-- `faces` of a multipatch of surfaces before merging of vertices, extract.py 174-194: `resolution - 1` raises for a list. -/
def multipatchFaces [Field K] (evaluate : Spline K P → List K → P) (patches : List (Spline K P)) : Resolution → Option (Mesh P)
  | .int r => some (patchCells (patches.map fun p => sample (evaluate p) (directions p) [r, r]) (quadFaces r r) (r ^ 2))
  | .list _ => none

/-- `volumes` of a multipatch before merging of vertices, extract.py 249-276: only integers are accepted. `hexa` is `make_hexa_volumes` of `gustaf`. -/
def multipatchVolumes [Field K] (hexa : ℕ → List (List ℕ)) (evaluate : Spline K P → List K → P) (patches : List (Spline K P)) : Resolution → Option (Mesh P)
  | .int r => some (patchCells (patches.map fun p => sample (evaluate p) (directions p) [r, r, r]) (hexa r) (r ^ 3))
  | .list _ => none

end Splinepy.Mesh
