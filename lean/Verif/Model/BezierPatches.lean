import Mathlib.Data.List.GetD
import Mathlib.Data.List.Range
import Mathlib.Algebra.BigOperators.Group.List.Basic

/-!
Model of `ExtractBezierPatchIDs`, `src/splines/helpers/extract.cpp` 29-116: the control point ids of the Bezier patches of a
spline whose inner knots were inserted up to C0.
Simplification: `int`/`size_t` are natural numbers; `knot_multiplicities[i]` non-empty is a hypothesis of the theorems.
-/
namespace Splinepy.BezierPatches

/-- Loop over the parametric dimensions in lines 75-90: updates `patch_coords[i]` and `patch_ctp_id_offsets[i]`
(first and second component) for the running id `ii`. `multiplicities` are the knot multiplicities of each dimension. (src/splines/helpers/extract.cpp) -/
def stepDims : List (List ℕ) → List (ℕ × ℕ) → ℕ → List (ℕ × ℕ)
  | m :: ms, (coord, off) :: st, ii =>
    let nPatches := m.length - 1                       -- lines 46, 53
    let patchCoord := ii % nPatches                    -- line 77
    let new : ℕ × ℕ :=
      if coord ≠ patchCoord then                       -- line 80
        (patchCoord, if patchCoord = 0 then 0 else off + m.getD patchCoord 0)  -- lines 81-85
      else (coord, off)
    new :: stepDims ms st ((ii - patchCoord) / nPatches)  -- lines 88-89
  | _, _, _ => []

/-- State of `patch_coords` and `patch_ctp_id_offsets` after the update for patch `i_patch` (loop lines 70-90). (src/splines/helpers/extract.cpp) -/
def stateAt (mults : List (List ℕ)) : ℕ → List (ℕ × ℕ)
  | 0 => stepDims mults (mults.map (fun _ => (0, 0))) 0
  | i + 1 => stepDims mults (stateAt mults i) (i + 1)

/-- `control_mesh_resolution`, lines 42-45 and 59-63. (src/splines/helpers/extract.cpp) -/
def controlMeshResolution (m : List ℕ) (deg : ℕ) : ℕ := m.sum - deg - 1

/-- Inner loop, lines 99-112: remaining (degree, patch offset, resolution), the current `bezier_index_offsets` entry,
`n_ctps_in_previous_layers` and `global_id`. (src/splines/helpers/extract.cpp) -/
def globalIdGo : List (ℕ × ℕ × ℕ) → ℕ → ℕ → ℕ → ℕ → ℕ
  | [], _, _, _, acc => acc
  | (deg, off, res) :: rest, iLocal, bezOff, prevLayers, acc =>
    let localId := (iLocal / bezOff) % (deg + 1)        -- line 104
    globalIdGo rest iLocal (bezOff * (deg + 1)) (prevLayers * res)
      (acc + (localId + off) * prevLayers)              -- lines 107-110, 57-58

/-- Lines 92-113: the ids of one patch. (src/splines/helpers/extract.cpp) -/
def patchIds (mults : List (List ℕ)) (degrees : List ℕ) (st : List (ℕ × ℕ)) : List ℕ :=
  let res := List.zipWith controlMeshResolution mults degrees
  let nCtps := degrees.foldl (fun n d => n * (d + 1)) 1  -- lines 50, 56
  (List.range nCtps).map (fun l =>
    globalIdGo (List.zip degrees (List.zip (st.map (·.2)) res)) l 1 1 0)

/-- `ExtractBezierPatchIDs`, lines 29-116. (src/splines/helpers/extract.cpp) -/
def extractBezierPatchIDs (mults : List (List ℕ)) (degrees : List ℕ) : List (List ℕ) :=
  let nTotal := mults.foldl (fun n m => n * (m.length - 1)) 1  -- lines 49, 55
  (List.range nTotal).map (fun i => patchIds mults degrees (stateAt mults i))

end Splinepy.BezierPatches
