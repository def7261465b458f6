import Mathlib.Analysis.SpecialFunctions.Trigonometric.Basic
import Mathlib.Analysis.SpecialFunctions.Sqrt
import Mathlib.LinearAlgebra.Matrix.Notation
import Mathlib.Data.Matrix.Mul
import Verif.Model.TileShapes

/-!
Model of `create_tile` of the tiles in splinepy/microstructure/tiles: checks of the arguments, auxiliary values of the tile and of its derivatives, results.

`parameters` of shape `(points, infos)` are lists of rows, `none` is Python's `None`; `parameter_sensitivities` of shape `(points, infos, n)` are given as the list of
their `n` slices `[:, :, j]`. `none` as result: an exception. The type checks `isinstance(..., float)` are left out, keyword arguments are explicit arguments.
-/

namespace Splinepy.Tiles

/-- A two dimensional array. (splinepy/microstructure/tiles/tile_base.py 79-138) -/
abbrev Mat (K : Type) := List (List K)

/-- What `create_tile` returns: `(splines, derivatives)`. (splinepy/microstructure/tiles/tile_base.py 140-158) -/
structure Tile (K : Type) where
  splines : List (Patch K)
  derivatives : Option (List (List (Patch K)))

section
variable {K : Type} [Field K] [LinearOrder K]

/-- `parameters[i, j]`. (splinepy/microstructure/tiles/cross_2d.py 400-571) -/
def entry (m : Mat K) (i j : ℕ) : K := (m.getD i []).getD j 0

/-- `check_params`, tile_base.py 79-107. -/
def checkParams (points infos : ℕ) (p : Mat K) : Bool := p.length == points && p.all fun r => r.length == infos

/-- `check_param_derivatives`, tile_base.py 109-138. -/
def checkDerivatives (points infos : ℕ) (s : Option (List (Mat K))) : Bool := (s.getD []).all (checkParams points infos)

/-- `np.all(parameters > low) and np.all(parameters < high)`. (splinepy/microstructure/tiles/cross_2d.py 80, 437) -/
def within (low high : K) (p : Mat K) : Bool := p.all fun r => r.all fun x => decide (low < x) && decide (x < high)

/-- `np.ones((points, infos)) * value`. (splinepy/microstructure/tiles/cross_2d.py 72, 429) -/
def constant (points infos : ℕ) (value : K) : Mat K := List.replicate points (List.replicate infos value)

/-- The loop `for i_derivative in range(n_derivatives + 1)` with its two results. (splinepy/microstructure/tiles/cross_2d.py 101, 463) -/
def assemble (splines : List (Patch K)) (derivative : Mat K → List (Patch K)) (s : Option (List (Mat K))) : Tile K := ⟨splines, s.map fun l => l.map derivative⟩

/-! ### `Cross2D` -/

/-- `center_r`, cross_2d.py 469-472 and 481-484. -/
def cross2DCenter (expansion : K) (p : Mat K) : K := (entry p 0 0 + entry p 1 0 + entry p 2 0 + entry p 3 0) / 4 * expansion

/-- cross_2d.py 464-473. -/
def cross2DTile (expansion : K) (p : Mat K) : List (Patch K) :=
  cross2D (1 / 2) (cross2DCenter expansion p) (1 / 2 * (1 / 2 + cross2DCenter expansion p)) (entry p 0 0) (entry p 1 0) (entry p 2 0) (entry p 3 0)

/-- cross_2d.py 475-486. -/
def cross2DDerivative (expansion : K) (d : Mat K) : List (Patch K) :=
  cross2D 0 (cross2DCenter expansion d) (1 / 2 * cross2DCenter expansion d) (entry d 0 0) (entry d 1 0) (entry d 2 0) (entry d 3 0)

/-- Branches of the closing tile, cross_2d.py 128-378. -/
def cross2DCloseBranch (closure : String) (zero half one fill bound invBound invFill top bottom : K) (p : Mat K) : Option (List (Patch K)) :=
  if closure = "x_min" then some (cross2DCloseXMin zero half one fill bound invBound invFill top bottom (entry p 1 0))
  else if closure = "x_max" then some (cross2DCloseXMax zero half one fill bound invBound invFill top bottom (entry p 0 0))
  else if closure = "y_min" then some (cross2DCloseYMin zero half one fill bound invBound invFill top bottom (entry p 3 0))
  else if closure = "y_max" then some (cross2DCloseYMax zero half one fill bound invBound invFill top bottom (entry p 2 0))
  else none

/-- cross_2d.py 102-112. -/
def cross2DCloseTile (closure : String) (bound fill : K) (p : Mat K) : Option (List (Patch K)) :=
  cross2DCloseBranch closure 0 (1 / 2) 1 fill bound (1 - bound) (1 - fill) ((1 + fill) * (1 / 2)) (1 - (1 + fill) * (1 / 2)) p

/-- cross_2d.py 113-125. -/
def cross2DCloseDerivative (closure : String) (d : Mat K) : Option (List (Patch K)) := cross2DCloseBranch closure 0 0 0 0 0 0 0 0 0 d

/-- `Cross2D._closing_tile`, cross_2d.py 30-378. -/
def cross2DClosing (closure : String) (bound fill : K) (p : Mat K) (s : Option (List (Mat K))) : Option (Tile K) :=
  if checkParams 4 1 p && within 0 (1 / 2) p && (decide (0 < bound) && decide (bound < 1 / 2)) && (decide (0 < fill) && decide (fill < 1)) && checkDerivatives 4 1 s then
    match cross2DCloseTile closure bound fill p with
    | none => none
    | some t => some (assemble t (fun d => (cross2DCloseDerivative closure d).getD []) s)
  else none

/-- `Cross2D.create_tile`, cross_2d.py 380-571. -/
def createCross2D (expansion bound fill : K) (closure : Option String) (parameters : Option (Mat K)) (s : Option (List (Mat K))) : Option (Tile K) :=
  let p := parameters.getD (constant 4 1 (1 / 5))
  if (decide (1 / 2 < expansion) && decide (expansion < 3 / 2)) && checkParams 4 1 p && within 0 (min (1 / 2) (1 / 2 / expansion)) p && checkDerivatives 4 1 s then
    match closure with
    | some c => cross2DClosing c bound fill p s
    | none => some (assemble (cross2DTile expansion p) (cross2DDerivative expansion) s)
  else none

/-! ### `DoubleLattice` -/

/-- double_lattice.py 80-113; `cl`, `one`, `half` are set to zero for derivatives; `sqrt2` is `np.sqrt(2)`. -/
def doubleLatticeTile (sqrt2 cl half one : K) (p : Mat K) : List (Patch K) :=
  let t := entry p 0 0
  let d := entry p 0 1
  doubleLattice 0 t (t + d * sqrt2) ((one - cl) * (1 / 2)) (half - d * sqrt2) half (half + d * sqrt2) ((one + cl) * (1 / 2)) (one - (t + d * sqrt2)) (one - t) one

/-- `DoubleLattice.create_tile`, double_lattice.py 24-383; `closure` disappears in `**kwargs`. -/
def createDoubleLattice (sqrt2 contact : K) (_closure : Option String) (parameters : Option (Mat K)) (s : Option (List (Mat K))) : Option (Tile K) :=
  let p := parameters.getD (constant 1 2 (1 / 10))
  if (decide (0 < contact) && decide (contact < 1)) && within 0 (1 / 2 / (1 + sqrt2)) p && checkParams 1 2 p && checkDerivatives 1 2 s then
    some (assemble (doubleLatticeTile sqrt2 contact (1 / 2) 1 p) (doubleLatticeTile sqrt2 0 0 0) s)
  else none

/-! ### `HollowOctagon` -/

/-- hollow_octagon.py 475-479. -/
def hollowOctagonTile (contact : K) (p : Mat K) : List (Patch K) := hollowOctagon 0 (1 / 2) 1 (entry p 0 0) (contact * entry p 0 0) (contact * (1 / 2))

/-- `HollowOctagon._closing_tile`, hollow_octagon.py 22-401. An unknown closure leaves `right` unbound. -/
def hollowOctagonClosing (closure : String) (contact : K) (p : Mat K) : Option (List (Patch K)) :=
  if within 0 (1 / 2) p && checkParams 1 1 p && (decide (1 / 100 < entry p 0 0) && decide (entry p 0 0 < 1 / 2)) then
    let build := fun f : K → K → K → K → K → K → List (Patch K) => f 0 (1 / 2) 1 (entry p 0 0) (contact * entry p 0 0) (contact * (1 / 2))
    if closure = "x_min" then some (build hollowOctagonCloseXMin)
    else if closure = "x_max" then some (build hollowOctagonCloseXMax)
    else if closure = "y_min" then some (build hollowOctagonCloseYMin)
    else if closure = "y_max" then some (build hollowOctagonCloseYMax)
    else none
  else none

/-- `HollowOctagon.create_tile`, hollow_octagon.py 403-574. -/
def createHollowOctagon (contact : K) (closure : Option String) (parameters : Option (Mat K)) (s : Option (List (Mat K))) : Option (Tile K) :=
  let p := parameters.getD (constant 1 1 (1 / 5))
  if (decide (0 < contact) && decide (contact < 99 / 100)) && s.isNone && checkParams 1 1 p && within 0 (1 / 2) p then
    match closure with
    | some c => (hollowOctagonClosing c contact p).map fun t => ⟨t, none⟩
    | none => some ⟨hollowOctagonTile contact p, none⟩
  else none

/-! ### `HollowCube` -/

/-- hollow_cube.py 92-115; `one` is zero for derivatives. -/
def hollowCubeTile (one : K) (p : Mat K) : List (Patch K) :=
  hollowCube 0 one (entry p 0 0) (entry p 1 0) (entry p 2 0) (entry p 3 0) (entry p 4 0) (entry p 5 0) (entry p 6 0)

/-- `HollowCube.create_tile`, hollow_cube.py 32-352. With one column the check of the rotations 73-77 is `np.all` of an empty array, i.e. true
(numpy before 2.2: later versions raise an exception for the truth value of an empty array). -/
def createHollowCube (_closure : Option String) (parameters : Option (Mat K)) (s : Option (List (Mat K))) : Option (Tile K) :=
  let p := parameters.getD (constant 7 1 (1 / 5))
  if checkParams 7 1 p && within 0 (1 / 2) p && checkDerivatives 7 1 s then some (assemble (hollowCubeTile 1 p) (hollowCubeTile 0) s)
  else none

/-! ### `Cross3D`, `Cross3DLinear` -/

/-- `center_expansion * np.mean(parameters[:, 0])`, cross_3d.py 575, 583, cross_3d_linear.py 531, 538. -/
def cross3DCenter (expansion : K) (p : Mat K) : K :=
  expansion * ((entry p 0 0 + entry p 1 0 + entry p 2 0 + entry p 3 0 + entry p 4 0 + entry p 5 0) / 6)

/-- cross_3d.py 569-576. -/
def cross3DTile (expansion : K) (p : Mat K) : List (Patch K) :=
  let c := cross3DCenter expansion p
  cross3D (1 / 2) c (1 / 2 * (1 / 2 + c)) (entry p 0 0) (entry p 1 0) (entry p 2 0) (entry p 3 0) (entry p 4 0) (entry p 5 0)

/-- cross_3d.py 577-588. -/
def cross3DDerivative (expansion : K) (d : Mat K) : List (Patch K) :=
  let c := cross3DCenter expansion d
  cross3D 0 c (1 / 2 * c) (entry d 0 0) (entry d 1 0) (entry d 2 0) (entry d 3 0) (entry d 4 0) (entry d 5 0)

/-- cross_3d_linear.py 526-532 (`half = 1 / 2`) and 533-541 (`half = 0`). -/
def cross3DLinearTile (expansion half : K) (p : Mat K) : List (Patch K) :=
  cross3DLinear half (cross3DCenter expansion p) (entry p 0 0) (entry p 1 0) (entry p 2 0) (entry p 3 0) (entry p 4 0) (entry p 5 0)

/-- `np.any(parameters <= 0) or np.any(parameters > max_radius)` is false, cross_3d.py 545, cross_3d_linear.py 501. -/
def withinClosed (high : K) (p : Mat K) : Bool := p.all fun r => r.all fun x => !decide (x ≤ 0) && !decide (high < x)

/-- Branches of the closing tiles, cross_3d.py 126-475. -/
def cross3DCloseBranch (closure : String) (lower upper : K → List (Patch K)) (p : Mat K) : Option (List (Patch K)) :=
  if closure = "z_min" then some (lower (entry p 5 0)) else if closure = "z_max" then some (upper (entry p 4 0)) else none

/-- The values of cross_3d.py 98-111, `i_derivative == 0`. -/
def closeValues (f : K → K → K → K → K → K → K → K → K → K → K → K → List (Patch K)) (bound fill thickness : K) : List (Patch K) :=
  f 0 (1 / 2) 1 bound fill (1 - bound) (1 - fill) (1 - 2 * bound) ((1 + fill) * (1 / 2)) (1 - (1 + fill) * (1 / 2)) ((1 - 2 * bound) * (1 / 2)) thickness

/-- The values of cross_3d.py 112-124, `i_derivative > 0`. -/
def closeZeros (f : K → K → K → K → K → K → K → K → K → K → K → K → List (Patch K)) (thickness : K) : List (Patch K) :=
  f 0 0 0 0 0 0 0 0 0 0 0 thickness

/-- `Cross3D._closing_tile`, cross_3d.py 32-480. -/
def cross3DClosing (closure : String) (bound fill : K) (p : Mat K) (s : Option (List (Mat K))) : Option (Tile K) :=
  if within 0 (1 / 2) p && checkDerivatives 6 1 s && (decide (0 < bound) && decide (bound < 1 / 2)) && (decide (0 < fill) && decide (fill < 1)) then
    match cross3DCloseBranch closure (closeValues cross3DCloseZMin bound fill) (closeValues cross3DCloseZMax bound fill) p with
    | none => none
    | some t => some (assemble t (fun d => (cross3DCloseBranch closure (closeZeros cross3DCloseZMinDerivative) (closeZeros cross3DCloseZMaxDerivative) d).getD []) s)
  else none

/-- `Cross3DLinear._closing_tile`, cross_3d_linear.py 32-436. -/
def cross3DLinearClosing (closure : String) (bound fill : K) (p : Mat K) (s : Option (List (Mat K))) : Option (Tile K) :=
  if within 0 (1 / 2) p && checkDerivatives 6 1 s && (decide (0 < bound) && decide (bound < 1 / 2)) && (decide (0 < fill) && decide (fill < 1)) then
    match cross3DCloseBranch closure (closeValues cross3DLinearCloseZMin bound fill) (closeValues cross3DLinearCloseZMax bound fill) p with
    | none => none
    | some t => some (assemble t (fun d => (cross3DCloseBranch closure (closeZeros cross3DLinearCloseZMinDerivative) (closeZeros cross3DLinearCloseZMaxDerivative) d).getD []) s)
  else none

/-- `Cross3D.create_tile`, cross_3d.py 482-743. -/
def createCross3D (expansion bound fill : K) (closure : Option String) (parameters : Option (Mat K)) (s : Option (List (Mat K))) : Option (Tile K) :=
  let p := parameters.getD (constant 6 1 (1 / 5))
  if (decide (1 / 2 < expansion) && decide (expansion < 3 / 2)) && checkParams 6 1 p && withinClosed (min (1 / 2) (1 / 2 / expansion)) p && checkDerivatives 6 1 s then
    match closure with
    | some c => cross3DClosing c bound fill p s
    | none => some (assemble (cross3DTile expansion p) (cross3DDerivative expansion) s)
  else none

/-- `Cross3DLinear.create_tile`, cross_3d_linear.py 438-673. -/
def createCross3DLinear (expansion bound fill : K) (closure : Option String) (parameters : Option (Mat K)) (s : Option (List (Mat K))) : Option (Tile K) :=
  let p := parameters.getD (constant 6 1 (1 / 5))
  if (decide (1 / 2 < expansion) && decide (expansion < 3 / 2)) && checkParams 6 1 p && withinClosed (min (1 / 2) (1 / 2 / expansion)) p && checkDerivatives 6 1 s then
    match closure with
    | some c => cross3DLinearClosing c bound fill p s
    | none => some (assemble (cross3DLinearTile expansion (1 / 2) p) (cross3DLinearTile expansion 0) s)
  else none

/-! ### `Snappy` -/

/-- `Snappy._closing_tile` called by `create_tile` with `parameters=None`, snappy.py 24-293, called in `create_tile`: `check_params(None)` raises a `TypeError` (64). -/
def snappyClosing (_closure : String) : Option (Tile K) := none

/-- `Snappy.create_tile`, snappy.py 295-518. -/
def createSnappy (contact a b c r : K) (closure : Option String) (parameters : Option (Mat K)) (s : Option (List (Mat K))) : Option (Tile K) :=
  if decide (0 ≤ a) && decide (0 ≤ b) && decide (0 ≤ c) && decide (0 ≤ r) && decide (0 ≤ contact) && (decide (0 < contact) && decide (contact < 49 / 100))
      && decide (r + contact < 1 / 2) && (decide (2 * c + b < 1) && !decide (c < a)) && parameters.isNone && s.isNone then
    match closure with
    | some cl => snappyClosing cl
    | none => some ⟨snappy 0 (1 / 2) 1 (contact * (1 / 2)) (1 - contact * (1 / 2)) a (1 - a) b r, none⟩
  else none

end

/-! ### Tiles with angles -/

open Real in
/-- Values of chi.py 70-76, `i_derivative == 0`. -/
noncomputable def chiTile (p : Mat ℝ) : List (Patch ℝ) :=
  let alpha := entry p 0 0 + π / 4
  let r := √(1 / 8)
  chi 0 (1 / 2) (r * sin alpha) (r * cos alpha)

open Real in
/-- Values of chi.py 77-83, `i_derivative > 0`: `alpha` is the sensitivity. -/
noncomputable def chiDerivative (d : Mat ℝ) : List (Patch ℝ) :=
  let alpha := entry d 0 0
  let r := √(1 / 8)
  chi 0 0 (r * cos alpha) (-r * sin alpha)

open Real in
open Classical in
/-- `Chi.create_tile`, chi.py 22-150. -/
noncomputable def createChi (_closure : Option String) (parameters : Option (Mat ℝ)) (s : Option (List (Mat ℝ))) : Option (Tile ℝ) :=
  let p := parameters.getD [[π / 8]]
  if (parameters.isNone || p.all fun r => r.all fun x => decide (-π * (1 / 2) ≤ x) && decide (x < π * (1 / 2))) && checkParams 1 1 p && checkDerivatives 1 1 s then
    some (assemble (chiTile p) chiDerivative s)
  else none

/-- Three by three matrices, splinepy/microstructure/tiles/cube_void.py 60-255. -/
abbrev Mat3 := Matrix (Fin 3) (Fin 3) ℝ

/-- `_rotation_matrix_x`, cube_void.py 43-45, ellips_v_oid.py 69-71. -/
noncomputable def rotX (angle : ℝ) : Mat3 := !![1, 0, 0; 0, Real.cos angle, Real.sin angle; 0, -Real.sin angle, Real.cos angle]

/-- `_rotation_matrix_x_deriv`, cube_void.py 47-49. -/
noncomputable def rotXDeriv (angle : ℝ) : Mat3 := !![0, 0, 0; 0, -Real.sin angle, Real.cos angle; 0, -Real.cos angle, -Real.sin angle]

/-- `_rotation_matrix_y`, cube_void.py 51-53. -/
noncomputable def rotY (angle : ℝ) : Mat3 := !![Real.cos angle, 0, -Real.sin angle; 0, 1, 0; Real.sin angle, 0, Real.cos angle]

/-- `_rotation_matrix_y_deriv`, cube_void.py 55-57 (the middle entry is `1`). -/
noncomputable def rotYDeriv (angle : ℝ) : Mat3 := !![-Real.sin angle, 0, -Real.cos angle; 0, 1, 0; Real.cos angle, 0, -Real.sin angle]

/-- `np.diag([r_x, r_yz, r_yz])`. (splinepy/microstructure/tiles/cube_void.py 109) -/
def diag3 (x yz : ℝ) : Mat3 := !![x, 0, 0; 0, yz, 0; 0, 0, yz]

/-- `einsum("ij,kj->ki", matrix, points)`. (splinepy/microstructure/tiles/cube_void.py 122-200) -/
def applyRows (m : Mat3) (points : List (List ℝ)) : List (List ℝ) := points.map fun r => (List.finRange 3).map fun i => ∑ l : Fin 3, m i l * r.getD l 0

/-- `parameters.flatten()[i]` (splinepy/microstructure/tiles/cube_void.py 98) -/
def flatEntry (p : Mat ℝ) (i : ℕ) : ℝ := p.flatten.getD i 0

/-- cube_void.py 117-128 and 150, ellips_v_oid.py 143-154 and 176; `einsum("ij,jk,kl,ml->mi")`. -/
noncomputable def voidPoints (sphere : List (List ℝ)) (p : Mat ℝ) : List (List ℝ) :=
  shift [1 / 2, 1 / 2, 1 / 2] (applyRows (rotY (flatEntry p 3) * rotX (flatEntry p 2) * diag3 (flatEntry p 0) (flatEntry p 1)) sphere)

/-- cube_void.py 129-150, ellips_v_oid.py 155-176. -/
noncomputable def voidDerivatives (sphere : List (List ℝ)) (p d : Mat ℝ) : List (List ℝ) :=
  shift [0, 0, 0] (applyRows
    (flatEntry d 3 • (rotYDeriv (flatEntry p 3) * rotX (flatEntry p 2) * diag3 (flatEntry p 0) (flatEntry p 1))
      + flatEntry d 2 • (rotY (flatEntry p 3) * rotXDeriv (flatEntry p 2) * diag3 (flatEntry p 0) (flatEntry p 1))
      + rotY (flatEntry p 3) * rotX (flatEntry p 2) * diag3 (flatEntry d 0) (flatEntry d 1)) sphere)

/-- `_sphere_ctps` of `CubeVoid`, cube_void.py 30-41. -/
noncomputable def cubeSphere : List (List ℝ) :=
  [[-(1 / 2), -(1 / 2), -(1 / 2)], [1 / 2, -(1 / 2), -(1 / 2)], [-(1 / 2), 1 / 2, -(1 / 2)], [1 / 2, 1 / 2, -(1 / 2)],
   [-(1 / 2), -(1 / 2), 1 / 2], [1 / 2, -(1 / 2), 1 / 2], [-(1 / 2), 1 / 2, 1 / 2], [1 / 2, 1 / 2, 1 / 2]]

/-- `_sphere_ctps` of `EllipsVoid`, ellips_v_oid.py 33-68. -/
noncomputable def ellipsSphere : List (List ℝ) :=
  let c0 := 1 / 2 / √3
  let aux1 := √3 / 2 * (1 / 2)
  let aux0 := aux1 * 2
  [[-c0, -c0, -c0], [0, -aux1, -aux1], [c0, -c0, -c0], [-aux1, 0, -aux1], [0, 0, -aux0], [aux1, 0, -aux1], [-c0, c0, -c0], [0, aux1, -aux1], [c0, c0, -c0],
   [-aux1, -aux1, 0], [0, -aux0, 0], [aux1, -aux1, 0], [-aux0, 0, 0], [0, 0, 0], [aux0, 0, 0], [-aux1, aux1, 0], [0, aux0, 0], [aux1, aux1, 0],
   [-c0, -c0, c0], [0, -aux1, aux1], [c0, -c0, c0], [-aux1, 0, aux1], [0, 0, aux0], [aux1, 0, aux1], [-c0, c0, c0], [0, aux1, aux1], [c0, c0, c0]]

/-- `CubeVoid.create_tile`, cube_void.py 59-255: of `parameters` only the number of entries matters (unpacking in 105). -/
noncomputable def createCubeVoid (_closure : Option String) (parameters : Option (Mat ℝ)) (s : Option (List (Mat ℝ))) : Option (Tile ℝ) :=
  let p := parameters.getD [[1 / 2, 1 / 2, 0, 0]]
  if p.flatten.length == 4 && checkDerivatives 1 4 s then
    some (assemble (cubeVoid 0 1 (voidPoints cubeSphere p)) (fun d => cubeVoid 0 0 (voidDerivatives cubeSphere p d)) s)
  else none

/-- `EllipsVoid.create_tile`, ellips_v_oid.py 85-341. -/
noncomputable def createEllipsVoid (_closure : Option String) (parameters : Option (Mat ℝ)) (s : Option (List (Mat ℝ))) : Option (Tile ℝ) :=
  let p := parameters.getD [[1 / 2, 1 / 2, 0, 0]]
  if p.flatten.length == 4 && checkDerivatives 1 4 s then
    some (assemble (ellipsVoid 0 (1 / 2) 1 (voidPoints ellipsSphere p)) (fun d => ellipsVoid 0 0 0 (voidDerivatives ellipsSphere p d)) s)
  else none

end Splinepy.Tiles
