import Mathlib.Algebra.Order.Field.Basic
import Mathlib.Data.List.GetD

/-!
Model of the control points which the tiles of a microstructure put into their Bezier patches, splinepy/microstructure/tiles. One definition per loop body
`for i_derivative in range(n_derivatives + 1)` (or per branch of `closure == ...`): its arguments are the local variables the loop body sets before, its value is
`spline_list`. The very same definitions serve the tile (`i_derivative == 0`) and its derivatives, which only set the variables differently; see `Model/Tiles.lean`.

The lists are transcribed from the literals of the source, entry by entry.
-/

set_option linter.unusedVariables false

namespace Splinepy.Tiles

/-- `Bezier(degrees, control_points)`: only the data given to the constructor. (splinepy/microstructure/tiles, e.g. cross_2d.py 60-571) -/
structure Patch (K : Type) where
  degrees : List ℕ
  cps : List (List K)
deriving DecidableEq

section
variable {K : Type} [Field K] [LinearOrder K]

/-- `array + vector` (numpy broadcasting over the rows). (splinepy/microstructure/tiles, e.g. cross_2d.py 60-571) -/
def shift (v : List K) (a : List (List K)) : List (List K) := a.map fun r => List.zipWith (· + ·) r v

/-- `array - vector`. (splinepy/microstructure/tiles, e.g. cross_2d.py 60-571) -/
def unshift (v : List K) (a : List (List K)) : List (List K) := a.map fun r => List.zipWith (· - ·) r v

/-- `np.maximum(array, c)`. (splinepy/microstructure/tiles, e.g. cross_2d.py 60-571) -/
def clampLow (c : K) (a : List (List K)) : List (List K) := a.map fun r => r.map fun x => max x c

/-- `np.minimum(array, c)`. (splinepy/microstructure/tiles, e.g. cross_2d.py 60-571) -/
def clampHigh (c : K) (a : List (List K)) : List (List K) := a.map fun r => r.map fun x => min x c

/-- `array[i, :]`. (splinepy/microstructure/tiles, e.g. cross_2d.py 60-571) -/
def row (a : List (List K)) (i : ℕ) : List K := a.getD i []

/-- `Cross2D.create_tile`. `splinepy/microstructure/tiles/cross_2d.py` 488-566. -/
def cross2D (v_one_half center_r hd_center x_min_r x_max_r y_min_r y_max_r : K) : List (Patch K) :=
  let center_points : List (List K) := (shift [v_one_half, v_one_half] [
      [-center_r, -center_r],
      [center_r, -center_r],
      [-center_r, center_r],
      [center_r, center_r]])
  let y_min_ctps : List (List K) := (shift [v_one_half, v_one_half] [
      [-y_min_r, -v_one_half],
      [y_min_r, -v_one_half],
      [-y_min_r, -hd_center],
      [y_min_r, -hd_center],
      [-center_r, -center_r],
      [center_r, -center_r]])
  let y_max_ctps : List (List K) := (shift [v_one_half, v_one_half] [
      [-center_r, center_r],
      [center_r, center_r],
      [-y_max_r, hd_center],
      [y_max_r, hd_center],
      [-y_max_r, v_one_half],
      [y_max_r, v_one_half]])
  let x_min_ctps : List (List K) := (shift [v_one_half, v_one_half] [
      [-v_one_half, -x_min_r],
      [-hd_center, -x_min_r],
      [-center_r, -center_r],
      [-v_one_half, x_min_r],
      [-hd_center, x_min_r],
      [-center_r, center_r]])
  let x_max_ctps : List (List K) := (shift [v_one_half, v_one_half] [
      [center_r, -center_r],
      [hd_center, -x_max_r],
      [v_one_half, -x_max_r],
      [center_r, center_r],
      [hd_center, x_max_r],
      [v_one_half, x_max_r]])
  [ ⟨[1, 1], center_points⟩,
    ⟨[2, 1], x_min_ctps⟩,
    ⟨[2, 1], x_max_ctps⟩,
    ⟨[1, 2], y_min_ctps⟩,
    ⟨[1, 2], y_max_ctps⟩ ]

/-- `Cross2D._closing_tile`. `splinepy/microstructure/tiles/cross_2d.py` 132-184. -/
def cross2DCloseXMin (v_zero v_one_half v_one fill_height bound_width inv_bound_width inv_fill_height ctps_mid_height_top ctps_mid_height_bottom branch_thickness : K) : List (Patch K) :=
  let block0_ctps : List (List K) := [
      [v_zero, v_zero],
      [fill_height, v_zero],
      [v_zero, bound_width],
      [fill_height, bound_width]]
  let block1_ctps : List (List K) := [
      [v_zero, bound_width],
      [fill_height, bound_width],
      [v_zero, inv_bound_width],
      [fill_height, inv_bound_width]]
  let block2_ctps : List (List K) := [
      [v_zero, inv_bound_width],
      [fill_height, inv_bound_width],
      [v_zero, v_one],
      [fill_height, v_one]]
  let branch_ctps : List (List K) := [
      [fill_height, bound_width],
      [ctps_mid_height_top, v_one_half - branch_thickness],
      [v_one, v_one_half - branch_thickness],
      [fill_height, inv_bound_width],
      [ctps_mid_height_top, v_one_half + branch_thickness],
      [v_one, v_one_half + branch_thickness]]
  [ ⟨[1, 1], block0_ctps⟩,
    ⟨[1, 1], block1_ctps⟩,
    ⟨[1, 1], block2_ctps⟩,
    ⟨[2, 1], branch_ctps⟩ ]

/-- `Cross2D._closing_tile`. `splinepy/microstructure/tiles/cross_2d.py` 188-247. -/
def cross2DCloseXMax (v_zero v_one_half v_one fill_height bound_width inv_bound_width inv_fill_height ctps_mid_height_top ctps_mid_height_bottom branch_thickness : K) : List (Patch K) :=
  let block0_ctps : List (List K) := [
      [inv_fill_height, v_zero],
      [v_one, v_zero],
      [inv_fill_height, bound_width],
      [v_one, bound_width]]
  let block1_ctps : List (List K) := [
      [inv_fill_height, bound_width],
      [v_one, bound_width],
      [inv_fill_height, inv_bound_width],
      [v_one, inv_bound_width]]
  let block2_ctps : List (List K) := [
      [inv_fill_height, inv_bound_width],
      [v_one, inv_bound_width],
      [inv_fill_height, v_one],
      [v_one, v_one]]
  let branch_ctps : List (List K) := [
      [0, v_one_half - branch_thickness],
      [ctps_mid_height_bottom, v_one_half - branch_thickness],
      [inv_fill_height, bound_width],
      [v_zero, v_one_half + branch_thickness],
      [ctps_mid_height_bottom, v_one_half + branch_thickness],
      [inv_fill_height, inv_bound_width]]
  [ ⟨[1, 1], block0_ctps⟩,
    ⟨[1, 1], block1_ctps⟩,
    ⟨[1, 1], block2_ctps⟩,
    ⟨[2, 1], branch_ctps⟩ ]

/-- `Cross2D._closing_tile`. `splinepy/microstructure/tiles/cross_2d.py` 252-304. -/
def cross2DCloseYMin (v_zero v_one_half v_one fill_height bound_width inv_bound_width inv_fill_height ctps_mid_height_top ctps_mid_height_bottom branch_thickness : K) : List (Patch K) :=
  let block0_ctps : List (List K) := [
      [v_zero, v_zero],
      [bound_width, v_zero],
      [v_zero, fill_height],
      [bound_width, fill_height]]
  let block1_ctps : List (List K) := [
      [bound_width, v_zero],
      [inv_bound_width, v_zero],
      [bound_width, fill_height],
      [inv_bound_width, fill_height]]
  let block2_ctps : List (List K) := [
      [inv_bound_width, v_zero],
      [v_one, v_zero],
      [inv_bound_width, fill_height],
      [v_one, fill_height]]
  let branch_ctps : List (List K) := [
      [bound_width, fill_height],
      [inv_bound_width, fill_height],
      [v_one_half - branch_thickness, ctps_mid_height_top],
      [v_one_half + branch_thickness, ctps_mid_height_top],
      [v_one_half - branch_thickness, v_one],
      [v_one_half + branch_thickness, v_one]]
  [ ⟨[1, 1], block0_ctps⟩,
    ⟨[1, 1], block1_ctps⟩,
    ⟨[1, 1], block2_ctps⟩,
    ⟨[1, 2], branch_ctps⟩ ]

/-- `Cross2D._closing_tile`. `splinepy/microstructure/tiles/cross_2d.py` 308-372. -/
def cross2DCloseYMax (v_zero v_one_half v_one fill_height bound_width inv_bound_width inv_fill_height ctps_mid_height_top ctps_mid_height_bottom branch_thickness : K) : List (Patch K) :=
  let block0_ctps : List (List K) := [
      [v_zero, inv_fill_height],
      [bound_width, inv_fill_height],
      [v_zero, v_one],
      [bound_width, v_one]]
  let block1_ctps : List (List K) := [
      [bound_width, inv_fill_height],
      [inv_bound_width, inv_fill_height],
      [bound_width, v_one],
      [inv_bound_width, v_one]]
  let block2_ctps : List (List K) := [
      [inv_bound_width, inv_fill_height],
      [v_one, inv_fill_height],
      [inv_bound_width, v_one],
      [v_one, v_one]]
  let branch_ctps : List (List K) := [
      [v_one_half - branch_thickness, v_zero],
      [v_one_half + branch_thickness, v_zero],
      [v_one_half - branch_thickness, ctps_mid_height_bottom],
      [v_one_half + branch_thickness, ctps_mid_height_bottom],
      [bound_width, inv_fill_height],
      [inv_bound_width, inv_fill_height]]
  [ ⟨[1, 1], block0_ctps⟩,
    ⟨[1, 1], block1_ctps⟩,
    ⟨[1, 1], block2_ctps⟩,
    ⟨[1, 2], branch_ctps⟩ ]

/-- `DoubleLattice.create_tile`. `splinepy/microstructure/tiles/double_lattice.py` 117-375. -/
def doubleLattice (a01 a02 a03 a04 a05 a06 a07 a08 a09 a10 a11 : K) : List (Patch K) :=
  [ ⟨[1, 1], [
      [a01, a01],
      [a02, a02],
      [a01, a04],
      [a02, a03]]⟩,
    ⟨[1, 1], [
      [a01, a01],
      [a04, a01],
      [a02, a02],
      [a03, a02]]⟩,
    ⟨[1, 1], [
      [a04, a01],
      [a08, a01],
      [a03, a02],
      [a09, a02]]⟩,
    ⟨[1, 1], [
      [a08, a01],
      [a11, a01],
      [a09, a02],
      [a10, a02]]⟩,
    ⟨[1, 1], [
      [a10, a02],
      [a11, a01],
      [a10, a03],
      [a11, a04]]⟩,
    ⟨[1, 1], [
      [a11, a04],
      [a11, a08],
      [a10, a03],
      [a10, a09]]⟩,
    ⟨[1, 1], [
      [a10, a09],
      [a11, a08],
      [a10, a10],
      [a11, a11]]⟩,
    ⟨[1, 1], [
      [a09, a10],
      [a10, a10],
      [a08, a11],
      [a11, a11]]⟩,
    ⟨[1, 1], [
      [a03, a10],
      [a09, a10],
      [a04, a11],
      [a08, a11]]⟩,
    ⟨[1, 1], [
      [a02, a10],
      [a03, a10],
      [a01, a11],
      [a04, a11]]⟩,
    ⟨[1, 1], [
      [a01, a08],
      [a02, a09],
      [a01, a11],
      [a02, a10]]⟩,
    ⟨[1, 1], [
      [a01, a04],
      [a02, a03],
      [a01, a08],
      [a02, a09]]⟩,
    ⟨[1, 1], [
      [a02, a09],
      [a05, a06],
      [a02, a10],
      [a06, a06]]⟩,
    ⟨[1, 1], [
      [a02, a10],
      [a06, a06],
      [a03, a10],
      [a06, a07]]⟩,
    ⟨[1, 1], [
      [a02, a02],
      [a06, a06],
      [a02, a03],
      [a05, a06]]⟩,
    ⟨[1, 1], [
      [a02, a02],
      [a03, a02],
      [a06, a06],
      [a06, a05]]⟩,
    ⟨[1, 1], [
      [a09, a02],
      [a10, a02],
      [a06, a05],
      [a06, a06]]⟩,
    ⟨[1, 1], [
      [a06, a06],
      [a10, a02],
      [a07, a06],
      [a10, a03]]⟩,
    ⟨[1, 1], [
      [a06, a06],
      [a07, a06],
      [a10, a10],
      [a10, a09]]⟩,
    ⟨[1, 1], [
      [a06, a06],
      [a10, a10],
      [a06, a07],
      [a09, a10]]⟩ ]

/-- `Chi.create_tile`. `splinepy/microstructure/tiles/chi.py` 87-143. -/
def chi (v_zero v_one_half s c : K) : List (Patch K) :=
  [ ⟨[2], (shift [v_one_half, v_one_half] [
      [v_zero, v_zero],
      [-s, -c],
      [-v_one_half, -v_one_half]])⟩,
    ⟨[2], (shift [v_one_half, v_one_half] [
      [v_zero, v_zero],
      [c, -s],
      [v_one_half, -v_one_half]])⟩,
    ⟨[2], (shift [v_one_half, v_one_half] [
      [v_zero, v_zero],
      [s, c],
      [v_one_half, v_one_half]])⟩,
    ⟨[2], (shift [v_one_half, v_one_half] [
      [v_zero, v_zero],
      [-c, s],
      [-v_one_half, v_one_half]])⟩ ]

/-- `HollowOctagon.create_tile`. `splinepy/microstructure/tiles/hollow_octagon.py` 483-573. -/
def hollowOctagon (v_zero v_one_half v_one v_h_void v_inner_c_h v_outer_c_h : K) : List (Patch K) :=
  let right : List (List K) := [
      [v_h_void + v_one_half, (-v_inner_c_h) + v_one_half],
      [v_one, (-v_outer_c_h) + v_one_half],
      [v_h_void + v_one_half, v_inner_c_h + v_one_half],
      [v_one, v_outer_c_h + v_one_half]]
  let right_top : List (List K) := [
      [v_h_void + v_one_half, v_inner_c_h + v_one_half],
      [v_one, v_outer_c_h + v_one_half],
      [v_inner_c_h + v_one_half, v_h_void + v_one_half],
      [v_outer_c_h + v_one_half, v_one]]
  let top : List (List K) := [
      [v_inner_c_h + v_one_half, v_h_void + v_one_half],
      [v_outer_c_h + v_one_half, v_one],
      [(-v_inner_c_h) + v_one_half, v_h_void + v_one_half],
      [(-v_outer_c_h) + v_one_half, v_one]]
  let bottom_left : List (List K) := [
      [(-v_h_void) + v_one_half, (-v_inner_c_h) + v_one_half],
      [v_zero, (-v_outer_c_h) + v_one_half],
      [(-v_inner_c_h) + v_one_half, (-v_h_void) + v_one_half],
      [(-v_outer_c_h) + v_one_half, v_zero]]
  let left : List (List K) := [
      [v_zero, (-v_outer_c_h) + v_one_half],
      [(-v_h_void) + v_one_half, (-v_inner_c_h) + v_one_half],
      [v_zero, v_outer_c_h + v_one_half],
      [(-v_h_void) + v_one_half, v_inner_c_h + v_one_half]]
  let top_left : List (List K) := [
      [v_zero, v_outer_c_h + v_one_half],
      [(-v_h_void) + v_one_half, v_inner_c_h + v_one_half],
      [(-v_outer_c_h) + v_one_half, v_one],
      [(-v_inner_c_h) + v_one_half, v_h_void + v_one_half]]
  let bottom : List (List K) := [
      [v_outer_c_h + v_one_half, v_zero],
      [v_inner_c_h + v_one_half, (-v_h_void) + v_one_half],
      [(-v_outer_c_h) + v_one_half, v_zero],
      [(-v_inner_c_h) + v_one_half, (-v_h_void) + v_one_half]]
  let bottom_right : List (List K) := [
      [v_inner_c_h + v_one_half, (-v_h_void) + v_one_half],
      [v_outer_c_h + v_one_half, v_zero],
      [v_h_void + v_one_half, (-v_inner_c_h) + v_one_half],
      [v_one, (-v_outer_c_h) + v_one_half]]
  [ ⟨[1, 1], right⟩,
    ⟨[1, 1], right_top⟩,
    ⟨[1, 1], bottom⟩,
    ⟨[1, 1], bottom_left⟩,
    ⟨[1, 1], left⟩,
    ⟨[1, 1], top_left⟩,
    ⟨[1, 1], top⟩,
    ⟨[1, 1], bottom_right⟩ ]

/-- `HollowOctagon._closing_tile`. `splinepy/microstructure/tiles/hollow_octagon.py` 89-161, 383-400. -/
def hollowOctagonCloseXMin (v_zero v_one_half v_one v_h_void v_inner_c_h v_outer_c_h : K) : List (Patch K) :=
  let right : List (List K) := [
      [v_h_void + v_one_half, (-v_inner_c_h) + v_one_half],
      [v_one, (-v_outer_c_h) + v_one_half],
      [v_h_void + v_one_half, v_inner_c_h + v_one_half],
      [v_one, v_outer_c_h + v_one_half]]
  let right_top : List (List K) := [
      [v_h_void + v_one_half, v_inner_c_h + v_one_half],
      [v_one, v_outer_c_h + v_one_half],
      [v_inner_c_h + v_one_half, v_h_void + v_one_half],
      [v_outer_c_h + v_one_half, v_one]]
  let top : List (List K) := [
      [v_inner_c_h + v_one_half, v_h_void + v_one_half],
      [v_outer_c_h + v_one_half, v_one],
      [(-v_inner_c_h) + v_one_half, v_h_void + v_one_half],
      [(-v_outer_c_h) + v_one_half, v_one]]
  let bottom_left : List (List K) := [
      [(-v_h_void) + v_one_half, (-v_inner_c_h) + v_one_half],
      [v_zero, v_zero],
      [(-v_inner_c_h) + v_one_half, (-v_h_void) + v_one_half],
      [(-v_outer_c_h) + v_one_half, v_zero]]
  let left : List (List K) := [
      [v_zero, v_zero],
      [(-v_h_void) + v_one_half, (-v_inner_c_h) + v_one_half],
      [v_zero, v_one],
      [(-v_h_void) + v_one_half, v_inner_c_h + v_one_half]]
  let top_left : List (List K) := [
      [v_zero, v_one],
      [(-v_h_void) + v_one_half, v_inner_c_h + v_one_half],
      [(-v_outer_c_h) + v_one_half, v_one],
      [(-v_inner_c_h) + v_one_half, v_h_void + v_one_half]]
  let bottom : List (List K) := [
      [v_outer_c_h + v_one_half, v_zero],
      [v_inner_c_h + v_one_half, (-v_h_void) + v_one_half],
      [(-v_outer_c_h) + v_one_half, v_zero],
      [(-v_inner_c_h) + v_one_half, (-v_h_void) + v_one_half]]
  let bottom_right : List (List K) := [
      [v_inner_c_h + v_one_half, (-v_h_void) + v_one_half],
      [v_outer_c_h + v_one_half, v_zero],
      [v_h_void + v_one_half, (-v_inner_c_h) + v_one_half],
      [v_one, (-v_outer_c_h) + v_one_half]]
  [ ⟨[1, 1], right⟩,
    ⟨[1, 1], right_top⟩,
    ⟨[1, 1], bottom⟩,
    ⟨[1, 1], bottom_left⟩,
    ⟨[1, 1], left⟩,
    ⟨[1, 1], top_left⟩,
    ⟨[1, 1], top⟩,
    ⟨[1, 1], bottom_right⟩ ]

/-- `HollowOctagon._closing_tile`. `splinepy/microstructure/tiles/hollow_octagon.py` 163-234, 383-400. -/
def hollowOctagonCloseXMax (v_zero v_one_half v_one v_h_void v_inner_c_h v_outer_c_h : K) : List (Patch K) :=
  let right : List (List K) := [
      [v_h_void + v_one_half, (-v_inner_c_h) + v_one_half],
      [v_one, v_zero],
      [v_h_void + v_one_half, v_inner_c_h + v_one_half],
      [v_one, v_one]]
  let right_top : List (List K) := [
      [v_h_void + v_one_half, v_inner_c_h + v_one_half],
      [v_one, v_one],
      [v_inner_c_h + v_one_half, v_h_void + v_one_half],
      [v_outer_c_h + v_one_half, v_one]]
  let top : List (List K) := [
      [v_inner_c_h + v_one_half, v_h_void + v_one_half],
      [v_outer_c_h + v_one_half, v_one],
      [(-v_inner_c_h) + v_one_half, v_h_void + v_one_half],
      [(-v_outer_c_h) + v_one_half, v_one]]
  let bottom_left : List (List K) := [
      [(-v_h_void) + v_one_half, (-v_inner_c_h) + v_one_half],
      [v_zero, (-v_outer_c_h) + v_one_half],
      [(-v_inner_c_h) + v_one_half, (-v_h_void) + v_one_half],
      [(-v_outer_c_h) + v_one_half, v_zero]]
  let left : List (List K) := [
      [v_zero, (-v_outer_c_h) + v_one_half],
      [(-v_h_void) + v_one_half, (-v_inner_c_h) + v_one_half],
      [v_zero, v_outer_c_h + v_one_half],
      [(-v_h_void) + v_one_half, v_inner_c_h + v_one_half]]
  let top_left : List (List K) := [
      [v_zero, v_outer_c_h + v_one_half],
      [(-v_h_void) + v_one_half, v_inner_c_h + v_one_half],
      [(-v_outer_c_h) + v_one_half, v_one],
      [(-v_inner_c_h) + v_one_half, v_h_void + v_one_half]]
  let bottom : List (List K) := [
      [v_outer_c_h + v_one_half, v_zero],
      [v_inner_c_h + v_one_half, (-v_h_void) + v_one_half],
      [(-v_outer_c_h) + v_one_half, v_zero],
      [(-v_inner_c_h) + v_one_half, (-v_h_void) + v_one_half]]
  let bottom_right : List (List K) := [
      [v_inner_c_h + v_one_half, (-v_h_void) + v_one_half],
      [v_outer_c_h + v_one_half, v_zero],
      [v_h_void + v_one_half, (-v_inner_c_h) + v_one_half],
      [v_one, v_zero]]
  [ ⟨[1, 1], right⟩,
    ⟨[1, 1], right_top⟩,
    ⟨[1, 1], bottom⟩,
    ⟨[1, 1], bottom_left⟩,
    ⟨[1, 1], left⟩,
    ⟨[1, 1], top_left⟩,
    ⟨[1, 1], top⟩,
    ⟨[1, 1], bottom_right⟩ ]

/-- `HollowOctagon._closing_tile`. `splinepy/microstructure/tiles/hollow_octagon.py` 236-308, 383-400. -/
def hollowOctagonCloseYMin (v_zero v_one_half v_one v_h_void v_inner_c_h v_outer_c_h : K) : List (Patch K) :=
  let right : List (List K) := [
      [v_h_void + v_one_half, (-v_inner_c_h) + v_one_half],
      [v_one, (-v_outer_c_h) + v_one_half],
      [v_h_void + v_one_half, v_inner_c_h + v_one_half],
      [v_one, v_outer_c_h + v_one_half]]
  let right_top : List (List K) := [
      [v_h_void + v_one_half, v_inner_c_h + v_one_half],
      [v_one, v_outer_c_h + v_one_half],
      [v_inner_c_h + v_one_half, v_h_void + v_one_half],
      [v_outer_c_h + v_one_half, v_one]]
  let top : List (List K) := [
      [v_inner_c_h + v_one_half, v_h_void + v_one_half],
      [v_outer_c_h + v_one_half, v_one],
      [(-v_inner_c_h) + v_one_half, v_h_void + v_one_half],
      [(-v_outer_c_h) + v_one_half, v_one]]
  let bottom_left : List (List K) := [
      [(-v_h_void) + v_one_half, (-v_inner_c_h) + v_one_half],
      [v_zero, (-v_outer_c_h) + v_one_half],
      [(-v_inner_c_h) + v_one_half, (-v_h_void) + v_one_half],
      [v_zero, v_zero]]
  let left : List (List K) := [
      [v_zero, (-v_outer_c_h) + v_one_half],
      [(-v_h_void) + v_one_half, (-v_inner_c_h) + v_one_half],
      [v_zero, v_outer_c_h + v_one_half],
      [(-v_h_void) + v_one_half, v_inner_c_h + v_one_half]]
  let top_left : List (List K) := [
      [v_zero, v_outer_c_h + v_one_half],
      [(-v_h_void) + v_one_half, v_inner_c_h + v_one_half],
      [(-v_outer_c_h) + v_one_half, v_one],
      [(-v_inner_c_h) + v_one_half, v_h_void + v_one_half]]
  let bottom : List (List K) := [
      [v_one, v_zero],
      [v_inner_c_h + v_one_half, (-v_h_void) + v_one_half],
      [v_zero, v_zero],
      [(-v_inner_c_h) + v_one_half, (-v_h_void) + v_one_half]]
  let bottom_right : List (List K) := [
      [v_inner_c_h + v_one_half, (-v_h_void) + v_one_half],
      [v_one, v_zero],
      [v_h_void + v_one_half, (-v_inner_c_h) + v_one_half],
      [v_one, (-v_outer_c_h) + v_one_half]]
  [ ⟨[1, 1], right⟩,
    ⟨[1, 1], right_top⟩,
    ⟨[1, 1], bottom⟩,
    ⟨[1, 1], bottom_left⟩,
    ⟨[1, 1], left⟩,
    ⟨[1, 1], top_left⟩,
    ⟨[1, 1], top⟩,
    ⟨[1, 1], bottom_right⟩ ]

/-- `HollowOctagon._closing_tile`. `splinepy/microstructure/tiles/hollow_octagon.py` 310-382, 383-400. -/
def hollowOctagonCloseYMax (v_zero v_one_half v_one v_h_void v_inner_c_h v_outer_c_h : K) : List (Patch K) :=
  let right : List (List K) := [
      [v_h_void + v_one_half, (-v_inner_c_h) + v_one_half],
      [v_one, (-v_outer_c_h) + v_one_half],
      [v_h_void + v_one_half, v_inner_c_h + v_one_half],
      [v_one, v_outer_c_h + v_one_half]]
  let right_top : List (List K) := [
      [v_h_void + v_one_half, v_inner_c_h + v_one_half],
      [v_one, v_outer_c_h + v_one_half],
      [v_inner_c_h + v_one_half, v_h_void + v_one_half],
      [v_one, v_one]]
  let top : List (List K) := [
      [v_inner_c_h + v_one_half, v_h_void + v_one_half],
      [v_one, v_one],
      [(-v_inner_c_h) + v_one_half, v_h_void + v_one_half],
      [v_zero, v_one]]
  let bottom_left : List (List K) := [
      [(-v_h_void) + v_one_half, (-v_inner_c_h) + v_one_half],
      [v_zero, (-v_outer_c_h) + v_one_half],
      [(-v_inner_c_h) + v_one_half, (-v_h_void) + v_one_half],
      [(-v_outer_c_h) + v_one_half, v_zero]]
  let left : List (List K) := [
      [v_zero, (-v_outer_c_h) + v_one_half],
      [(-v_h_void) + v_one_half, (-v_inner_c_h) + v_one_half],
      [v_zero, v_outer_c_h + v_one_half],
      [(-v_h_void) + v_one_half, v_inner_c_h + v_one_half]]
  let top_left : List (List K) := [
      [v_zero, v_outer_c_h + v_one_half],
      [(-v_h_void) + v_one_half, v_inner_c_h + v_one_half],
      [v_zero, v_one],
      [(-v_inner_c_h) + v_one_half, v_h_void + v_one_half]]
  let bottom : List (List K) := [
      [v_outer_c_h + v_one_half, v_zero],
      [v_inner_c_h + v_one_half, (-v_h_void) + v_one_half],
      [(-v_outer_c_h) + v_one_half, v_zero],
      [(-v_inner_c_h) + v_one_half, (-v_h_void) + v_one_half]]
  let bottom_right : List (List K) := [
      [v_inner_c_h + v_one_half, (-v_h_void) + v_one_half],
      [v_outer_c_h + v_one_half, v_zero],
      [v_h_void + v_one_half, (-v_inner_c_h) + v_one_half],
      [v_one, (-v_outer_c_h) + v_one_half]]
  [ ⟨[1, 1], right⟩,
    ⟨[1, 1], right_top⟩,
    ⟨[1, 1], bottom⟩,
    ⟨[1, 1], bottom_left⟩,
    ⟨[1, 1], left⟩,
    ⟨[1, 1], top_left⟩,
    ⟨[1, 1], top⟩,
    ⟨[1, 1], bottom_right⟩ ]

/-- `HollowCube.create_tile`. `splinepy/microstructure/tiles/hollow_cube.py` 117-344. -/
def hollowCube (v_zero v_one x_min x_max y_min y_max z_min z_max center : K) : List (Patch K) :=
  [ ⟨[1, 1, 1], [
      [v_one - z_max, z_max, v_one],
      [v_one, v_zero, v_one],
      [v_one - z_max, v_one - z_max, v_one],
      [v_one, v_one, v_one],
      [v_one - center, center, v_one - center],
      [v_one, x_max, v_one - x_max],
      [v_one - center, v_one - center, v_one - center],
      [v_one, v_one - x_max, v_one - x_max]]⟩,
    ⟨[1, 1, 1], [
      [v_zero, x_min, x_min],
      [center, center, center],
      [v_zero, v_one - x_min, x_min],
      [center, v_one - center, center],
      [v_zero, v_zero, v_zero],
      [z_min, z_min, v_zero],
      [v_zero, v_one, v_zero],
      [z_min, v_one - z_min, v_zero]]⟩,
    ⟨[1, 1, 1], [
      [v_zero, v_zero, v_one],
      [z_max, z_max, v_one],
      [v_zero, v_one, v_one],
      [z_max, v_one - z_max, v_one],
      [v_zero, x_min, v_one - x_min],
      [center, center, v_one - center],
      [v_zero, v_one - x_min, v_one - x_min],
      [center, v_one - center, v_one - center]]⟩,
    ⟨[1, 1, 1], [
      [v_one - center, center, center],
      [v_one, x_max, x_max],
      [v_one - center, v_one - center, center],
      [v_one, v_one - x_max, x_max],
      [v_one - z_min, z_min, v_zero],
      [v_one, v_zero, v_zero],
      [v_one - z_min, v_one - z_min, v_zero],
      [v_one, v_one, v_zero]]⟩,
    ⟨[1, 1, 1], [
      [v_one - y_max, v_one, y_max],
      [v_one, v_one, v_zero],
      [v_one - y_max, v_one, v_one - y_max],
      [v_one, v_one, v_one],
      [v_one - center, v_one - center, center],
      [v_one, v_one - x_max, x_max],
      [v_one - center, v_one - center, v_one - center],
      [v_one, v_one - x_max, v_one - x_max]]⟩,
    ⟨[1, 1, 1], [
      [v_zero, v_one, v_zero],
      [v_one, v_one, v_zero],
      [y_max, v_one, y_max],
      [v_one - y_max, v_one, y_max],
      [z_min, v_one - z_min, v_zero],
      [v_one - z_min, v_one - z_min, v_zero],
      [center, v_one - center, center],
      [v_one - center, v_one - center, center]]⟩,
    ⟨[1, 1, 1], [
      [v_zero, v_one, v_zero],
      [y_max, v_one, y_max],
      [v_zero, v_one, v_one],
      [y_max, v_one, v_one - y_max],
      [v_zero, v_one - x_min, x_min],
      [center, v_one - center, center],
      [v_zero, v_one - x_min, v_one - x_min],
      [center, v_one - center, v_one - center]]⟩,
    ⟨[1, 1, 1], [
      [y_max, v_one, v_one - y_max],
      [v_one - y_max, v_one, v_one - y_max],
      [v_zero, v_one, v_one],
      [v_one, v_one, v_one],
      [center, v_one - center, v_one - center],
      [v_one - center, v_one - center, v_one - center],
      [z_max, v_one - z_max, v_one],
      [v_one - z_max, v_one - z_max, v_one]]⟩,
    ⟨[1, 1, 1], [
      [v_one - center, center, center],
      [v_one, x_max, x_max],
      [v_one - center, center, v_one - center],
      [v_one, x_max, v_one - x_max],
      [v_one - y_min, v_zero, y_min],
      [v_one, v_zero, v_zero],
      [v_one - y_min, v_zero, v_one - y_min],
      [v_one, v_zero, v_one]]⟩,
    ⟨[1, 1, 1], [
      [v_zero, x_min, x_min],
      [center, center, center],
      [v_zero, x_min, v_one - x_min],
      [center, center, v_one - center],
      [v_zero, v_zero, v_zero],
      [y_min, v_zero, y_min],
      [v_zero, v_zero, v_one],
      [y_min, v_zero, v_one - y_min]]⟩,
    ⟨[1, 1, 1], [
      [center, center, v_one - center],
      [v_one - center, center, v_one - center],
      [z_max, z_max, v_one],
      [v_one - z_max, z_max, v_one],
      [y_min, v_zero, v_one - y_min],
      [v_one - y_min, v_zero, v_one - y_min],
      [v_zero, v_zero, v_one],
      [v_one, v_zero, v_one]]⟩,
    ⟨[1, 1, 1], [
      [z_min, z_min, v_zero],
      [v_one - z_min, z_min, v_zero],
      [center, center, center],
      [v_one - center, center, center],
      [v_zero, v_zero, v_zero],
      [v_one, v_zero, v_zero],
      [y_min, v_zero, y_min],
      [v_one - y_min, v_zero, y_min]]⟩ ]

/-- `Cross3D.create_tile`. `splinepy/microstructure/tiles/cross_3d.py` 589-737. -/
def cross3D (v_one_half center_r hd_center x_min_r x_max_r y_min_r y_max_r z_min_r z_max_r : K) : List (Patch K) :=
  let center_points : List (List K) := [
      [-center_r, -center_r, -center_r],
      [center_r, -center_r, -center_r],
      [-center_r, center_r, -center_r],
      [center_r, center_r, -center_r],
      [-center_r, -center_r, center_r],
      [center_r, -center_r, center_r],
      [-center_r, center_r, center_r],
      [center_r, center_r, center_r]]
  let x_min_ctps : List (List K) := [
      [-v_one_half, -x_min_r, -x_min_r],
      [-hd_center, -x_min_r, -x_min_r],
      row center_points 0,
      [-v_one_half, x_min_r, -x_min_r],
      [-hd_center, x_min_r, -x_min_r],
      row center_points 2,
      [-v_one_half, -x_min_r, x_min_r],
      [-hd_center, -x_min_r, x_min_r],
      row center_points 4,
      [-v_one_half, x_min_r, x_min_r],
      [-hd_center, x_min_r, x_min_r],
      row center_points 6]
  let x_max_ctps : List (List K) := [
      row center_points 1,
      [hd_center, -x_max_r, -x_max_r],
      [v_one_half, -x_max_r, -x_max_r],
      row center_points 3,
      [hd_center, x_max_r, -x_max_r],
      [v_one_half, x_max_r, -x_max_r],
      row center_points 5,
      [hd_center, -x_max_r, x_max_r],
      [v_one_half, -x_max_r, x_max_r],
      row center_points 7,
      [hd_center, x_max_r, x_max_r],
      [v_one_half, x_max_r, x_max_r]]
  let y_min_ctps : List (List K) := [
      [-y_min_r, -v_one_half, -y_min_r],
      [y_min_r, -v_one_half, -y_min_r],
      [-y_min_r, -hd_center, -y_min_r],
      [y_min_r, -hd_center, -y_min_r],
      row center_points 0,
      row center_points 1,
      [-y_min_r, -v_one_half, y_min_r],
      [y_min_r, -v_one_half, y_min_r],
      [-y_min_r, -hd_center, y_min_r],
      [y_min_r, -hd_center, y_min_r],
      row center_points 4,
      row center_points 5]
  let y_max_ctps : List (List K) := [
      row center_points 2,
      row center_points 3,
      [-y_max_r, hd_center, -y_max_r],
      [y_max_r, hd_center, -y_max_r],
      [-y_max_r, v_one_half, -y_max_r],
      [y_max_r, v_one_half, -y_max_r],
      row center_points 6,
      row center_points 7,
      [-y_max_r, hd_center, y_max_r],
      [y_max_r, hd_center, y_max_r],
      [-y_max_r, v_one_half, y_max_r],
      [y_max_r, v_one_half, y_max_r]]
  let z_min_ctps : List (List K) := [
      [-z_min_r, -z_min_r, -v_one_half],
      [z_min_r, -z_min_r, -v_one_half],
      [-z_min_r, z_min_r, -v_one_half],
      [z_min_r, z_min_r, -v_one_half],
      [-z_min_r, -z_min_r, -hd_center],
      [z_min_r, -z_min_r, -hd_center],
      [-z_min_r, z_min_r, -hd_center],
      [z_min_r, z_min_r, -hd_center],
      row center_points 0,
      row center_points 1,
      row center_points 2,
      row center_points 3]
  let z_max_ctps : List (List K) := [
      row center_points 4,
      row center_points 5,
      row center_points 6,
      row center_points 7,
      [-z_max_r, -z_max_r, hd_center],
      [z_max_r, -z_max_r, hd_center],
      [-z_max_r, z_max_r, hd_center],
      [z_max_r, z_max_r, hd_center],
      [-z_max_r, -z_max_r, v_one_half],
      [z_max_r, -z_max_r, v_one_half],
      [-z_max_r, z_max_r, v_one_half],
      [z_max_r, z_max_r, v_one_half]]
  [ ⟨[1, 1, 1], (shift [v_one_half, v_one_half, v_one_half] center_points)⟩,
    ⟨[2, 1, 1], (shift [v_one_half, v_one_half, v_one_half] x_min_ctps)⟩,
    ⟨[2, 1, 1], (shift [v_one_half, v_one_half, v_one_half] x_max_ctps)⟩,
    ⟨[1, 2, 1], (shift [v_one_half, v_one_half, v_one_half] y_min_ctps)⟩,
    ⟨[1, 2, 1], (shift [v_one_half, v_one_half, v_one_half] y_max_ctps)⟩,
    ⟨[1, 1, 2], (shift [v_one_half, v_one_half, v_one_half] z_min_ctps)⟩,
    ⟨[1, 1, 2], (shift [v_one_half, v_one_half, v_one_half] z_max_ctps)⟩ ]

/-- `Cross3DLinear.create_tile`. `splinepy/microstructure/tiles/cross_3d_linear.py` 543-668. -/
def cross3DLinear (v_one_half center_r x_min_r x_max_r y_min_r y_max_r z_min_r z_max_r : K) : List (Patch K) :=
  let center_points : List (List K) := [
      [-center_r, -center_r, -center_r],
      [center_r, -center_r, -center_r],
      [-center_r, center_r, -center_r],
      [center_r, center_r, -center_r],
      [-center_r, -center_r, center_r],
      [center_r, -center_r, center_r],
      [-center_r, center_r, center_r],
      [center_r, center_r, center_r]]
  let x_min_ctps : List (List K) := [
      [-v_one_half, -x_min_r, -x_min_r],
      row center_points 0,
      [-v_one_half, x_min_r, -x_min_r],
      row center_points 2,
      [-v_one_half, -x_min_r, x_min_r],
      row center_points 4,
      [-v_one_half, x_min_r, x_min_r],
      row center_points 6]
  let x_max_ctps : List (List K) := [
      row center_points 1,
      [v_one_half, -x_max_r, -x_max_r],
      row center_points 3,
      [v_one_half, x_max_r, -x_max_r],
      row center_points 5,
      [v_one_half, -x_max_r, x_max_r],
      row center_points 7,
      [v_one_half, x_max_r, x_max_r]]
  let y_min_ctps : List (List K) := [
      [-y_min_r, -v_one_half, -y_min_r],
      [y_min_r, -v_one_half, -y_min_r],
      row center_points 0,
      row center_points 1,
      [-y_min_r, -v_one_half, y_min_r],
      [y_min_r, -v_one_half, y_min_r],
      row center_points 4,
      row center_points 5]
  let y_max_ctps : List (List K) := [
      row center_points 2,
      row center_points 3,
      [-y_max_r, v_one_half, -y_max_r],
      [y_max_r, v_one_half, -y_max_r],
      row center_points 6,
      row center_points 7,
      [-y_max_r, v_one_half, y_max_r],
      [y_max_r, v_one_half, y_max_r]]
  let z_min_ctps : List (List K) := [
      [-z_min_r, -z_min_r, -v_one_half],
      [z_min_r, -z_min_r, -v_one_half],
      [-z_min_r, z_min_r, -v_one_half],
      [z_min_r, z_min_r, -v_one_half],
      row center_points 0,
      row center_points 1,
      row center_points 2,
      row center_points 3]
  let z_max_ctps : List (List K) := [
      row center_points 4,
      row center_points 5,
      row center_points 6,
      row center_points 7,
      [-z_max_r, -z_max_r, v_one_half],
      [z_max_r, -z_max_r, v_one_half],
      [-z_max_r, z_max_r, v_one_half],
      [z_max_r, z_max_r, v_one_half]]
  [ ⟨[1, 1, 1], (shift [v_one_half, v_one_half, v_one_half] center_points)⟩,
    ⟨[1, 1, 1], (shift [v_one_half, v_one_half, v_one_half] x_min_ctps)⟩,
    ⟨[1, 1, 1], (shift [v_one_half, v_one_half, v_one_half] x_max_ctps)⟩,
    ⟨[1, 1, 1], (shift [v_one_half, v_one_half, v_one_half] y_min_ctps)⟩,
    ⟨[1, 1, 1], (shift [v_one_half, v_one_half, v_one_half] y_max_ctps)⟩,
    ⟨[1, 1, 1], (shift [v_one_half, v_one_half, v_one_half] z_min_ctps)⟩,
    ⟨[1, 1, 1], (shift [v_one_half, v_one_half, v_one_half] z_max_ctps)⟩ ]

/-- `Cross3D._closing_tile`, `i_derivative == 0`. `splinepy/microstructure/tiles/cross_3d.py` 132-295. -/
def cross3DCloseZMin (v_zero v_one_half v_one bound_width fill_height inv_boundary_width inv_filling_height center_width ctps_mid_height_top ctps_mid_height_bottom r_center branch_thickness : K) : List (Patch K) :=
  let ctps_corner : List (List K) := [
      [v_zero, v_zero, v_zero],
      [bound_width, v_zero, v_zero],
      [v_zero, bound_width, v_zero],
      [bound_width, bound_width, v_zero],
      [v_zero, v_zero, fill_height],
      [bound_width, v_zero, fill_height],
      [v_zero, bound_width, fill_height],
      [bound_width, bound_width, fill_height]]
  let center_ctps : List (List K) := [
      [bound_width, bound_width, v_zero],
      [inv_boundary_width, bound_width, v_zero],
      [bound_width, inv_boundary_width, v_zero],
      [inv_boundary_width, inv_boundary_width, v_zero],
      [bound_width, bound_width, fill_height],
      [inv_boundary_width, bound_width, fill_height],
      [bound_width, inv_boundary_width, fill_height],
      [inv_boundary_width, inv_boundary_width, fill_height]]
  let branch_ctps : List (List K) := (shift [v_one_half, v_one_half, v_zero] [
      [-r_center, -r_center, fill_height],
      [r_center, -r_center, fill_height],
      [-r_center, r_center, fill_height],
      [r_center, r_center, fill_height],
      [-branch_thickness, -branch_thickness, ctps_mid_height_top],
      [branch_thickness, -branch_thickness, ctps_mid_height_top],
      [-branch_thickness, branch_thickness, ctps_mid_height_top],
      [branch_thickness, branch_thickness, ctps_mid_height_top],
      [-branch_thickness, -branch_thickness, v_one],
      [branch_thickness, -branch_thickness, v_one],
      [-branch_thickness, branch_thickness, v_one],
      [branch_thickness, branch_thickness, v_one]])
  [ ⟨[1, 1, 1], ctps_corner⟩,
    ⟨[1, 1, 1], (shift [v_zero, inv_boundary_width, v_zero] ctps_corner)⟩,
    ⟨[1, 1, 1], (shift [inv_boundary_width, v_zero, v_zero] ctps_corner)⟩,
    ⟨[1, 1, 1], (shift [inv_boundary_width, inv_boundary_width, v_zero] ctps_corner)⟩,
    ⟨[1, 1, 1], center_ctps⟩,
    ⟨[1, 1, 1], (clampLow v_zero (unshift [center_width, v_zero, v_zero] center_ctps))⟩,
    ⟨[1, 1, 1], (clampLow v_zero (unshift [v_zero, center_width, v_zero] center_ctps))⟩,
    ⟨[1, 1, 1], (clampHigh v_one (shift [center_width, v_zero, v_zero] center_ctps))⟩,
    ⟨[1, 1, 1], (clampHigh v_one (shift [v_zero, center_width, v_zero] center_ctps))⟩,
    ⟨[1, 1, 2], branch_ctps⟩ ]

/-- `Cross3D._closing_tile`, `i_derivative > 0`. `splinepy/microstructure/tiles/cross_3d.py` 132-295. -/
def cross3DCloseZMinDerivative (v_zero v_one_half v_one bound_width fill_height inv_boundary_width inv_filling_height center_width ctps_mid_height_top ctps_mid_height_bottom r_center branch_thickness : K) : List (Patch K) :=
  let ctps_corner : List (List K) := [
      [v_zero, v_zero, v_zero],
      [bound_width, v_zero, v_zero],
      [v_zero, bound_width, v_zero],
      [bound_width, bound_width, v_zero],
      [v_zero, v_zero, fill_height],
      [bound_width, v_zero, fill_height],
      [v_zero, bound_width, fill_height],
      [bound_width, bound_width, fill_height]]
  let center_ctps : List (List K) := [
      [bound_width, bound_width, v_zero],
      [inv_boundary_width, bound_width, v_zero],
      [bound_width, inv_boundary_width, v_zero],
      [inv_boundary_width, inv_boundary_width, v_zero],
      [bound_width, bound_width, fill_height],
      [inv_boundary_width, bound_width, fill_height],
      [bound_width, inv_boundary_width, fill_height],
      [inv_boundary_width, inv_boundary_width, fill_height]]
  let branch_ctps : List (List K) := (shift [v_one_half, v_one_half, v_zero] [
      [-r_center, -r_center, fill_height],
      [r_center, -r_center, fill_height],
      [-r_center, r_center, fill_height],
      [r_center, r_center, fill_height],
      [-branch_thickness, -branch_thickness, ctps_mid_height_top],
      [branch_thickness, -branch_thickness, ctps_mid_height_top],
      [-branch_thickness, branch_thickness, ctps_mid_height_top],
      [branch_thickness, branch_thickness, ctps_mid_height_top],
      [-branch_thickness, -branch_thickness, v_one],
      [branch_thickness, -branch_thickness, v_one],
      [-branch_thickness, branch_thickness, v_one],
      [branch_thickness, branch_thickness, v_one]])
  [ ⟨[1, 1, 1], ctps_corner⟩,
    ⟨[1, 1, 1], (shift [v_zero, inv_boundary_width, v_zero] ctps_corner)⟩,
    ⟨[1, 1, 1], (shift [inv_boundary_width, v_zero, v_zero] ctps_corner)⟩,
    ⟨[1, 1, 1], (shift [inv_boundary_width, inv_boundary_width, v_zero] ctps_corner)⟩,
    ⟨[1, 1, 1], center_ctps⟩,
    ⟨[1, 1, 1], (List.replicate 8 [0, 0, 0])⟩,
    ⟨[1, 1, 1], (List.replicate 8 [0, 0, 0])⟩,
    ⟨[1, 1, 1], (List.replicate 8 [0, 0, 0])⟩,
    ⟨[1, 1, 1], (List.replicate 8 [0, 0, 0])⟩,
    ⟨[1, 1, 2], branch_ctps⟩ ]

/-- `Cross3D._closing_tile`, `i_derivative == 0`. `splinepy/microstructure/tiles/cross_3d.py` 302-470. -/
def cross3DCloseZMax (v_zero v_one_half v_one bound_width fill_height inv_boundary_width inv_filling_height center_width ctps_mid_height_top ctps_mid_height_bottom r_center branch_thickness : K) : List (Patch K) :=
  let ctps_corner : List (List K) := [
      [v_zero, v_zero, inv_filling_height],
      [bound_width, v_zero, inv_filling_height],
      [v_zero, bound_width, inv_filling_height],
      [bound_width, bound_width, inv_filling_height],
      [v_zero, v_zero, v_one],
      [bound_width, v_zero, v_one],
      [v_zero, bound_width, v_one],
      [bound_width, bound_width, v_one]]
  let center_ctps : List (List K) := [
      [bound_width, bound_width, inv_filling_height],
      [inv_boundary_width, bound_width, inv_filling_height],
      [bound_width, inv_boundary_width, inv_filling_height],
      [inv_boundary_width, inv_boundary_width, inv_filling_height],
      [bound_width, bound_width, v_one],
      [inv_boundary_width, bound_width, v_one],
      [bound_width, inv_boundary_width, v_one],
      [inv_boundary_width, inv_boundary_width, v_one]]
  let branch_ctps : List (List K) := (shift [v_one_half, v_one_half, v_zero] [
      [-branch_thickness, -branch_thickness, v_zero],
      [branch_thickness, -branch_thickness, v_zero],
      [-branch_thickness, branch_thickness, v_zero],
      [branch_thickness, branch_thickness, v_zero],
      [-branch_thickness, -branch_thickness, ctps_mid_height_bottom],
      [branch_thickness, -branch_thickness, ctps_mid_height_bottom],
      [-branch_thickness, branch_thickness, ctps_mid_height_bottom],
      [branch_thickness, branch_thickness, ctps_mid_height_bottom],
      [-r_center, -r_center, inv_filling_height],
      [r_center, -r_center, inv_filling_height],
      [-r_center, r_center, inv_filling_height],
      [r_center, r_center, inv_filling_height]])
  [ ⟨[1, 1, 1], ctps_corner⟩,
    ⟨[1, 1, 1], (shift [v_zero, inv_boundary_width, v_zero] ctps_corner)⟩,
    ⟨[1, 1, 1], (shift [inv_boundary_width, v_zero, v_zero] ctps_corner)⟩,
    ⟨[1, 1, 1], (shift [inv_boundary_width, inv_boundary_width, v_zero] ctps_corner)⟩,
    ⟨[1, 1, 1], center_ctps⟩,
    ⟨[1, 1, 1], (clampLow v_zero (unshift [center_width, v_zero, v_zero] center_ctps))⟩,
    ⟨[1, 1, 1], (clampLow v_zero (unshift [v_zero, center_width, v_zero] center_ctps))⟩,
    ⟨[1, 1, 1], (clampHigh v_one (shift [center_width, v_zero, v_zero] center_ctps))⟩,
    ⟨[1, 1, 1], (clampHigh v_one (shift [v_zero, center_width, v_zero] center_ctps))⟩,
    ⟨[1, 1, 2], branch_ctps⟩ ]

/-- `Cross3D._closing_tile`, `i_derivative > 0`. `splinepy/microstructure/tiles/cross_3d.py` 302-470. -/
def cross3DCloseZMaxDerivative (v_zero v_one_half v_one bound_width fill_height inv_boundary_width inv_filling_height center_width ctps_mid_height_top ctps_mid_height_bottom r_center branch_thickness : K) : List (Patch K) :=
  let ctps_corner : List (List K) := [
      [v_zero, v_zero, inv_filling_height],
      [bound_width, v_zero, inv_filling_height],
      [v_zero, bound_width, inv_filling_height],
      [bound_width, bound_width, inv_filling_height],
      [v_zero, v_zero, v_one],
      [bound_width, v_zero, v_one],
      [v_zero, bound_width, v_one],
      [bound_width, bound_width, v_one]]
  let center_ctps : List (List K) := [
      [bound_width, bound_width, inv_filling_height],
      [inv_boundary_width, bound_width, inv_filling_height],
      [bound_width, inv_boundary_width, inv_filling_height],
      [inv_boundary_width, inv_boundary_width, inv_filling_height],
      [bound_width, bound_width, v_one],
      [inv_boundary_width, bound_width, v_one],
      [bound_width, inv_boundary_width, v_one],
      [inv_boundary_width, inv_boundary_width, v_one]]
  let branch_ctps : List (List K) := (shift [v_one_half, v_one_half, v_zero] [
      [-branch_thickness, -branch_thickness, v_zero],
      [branch_thickness, -branch_thickness, v_zero],
      [-branch_thickness, branch_thickness, v_zero],
      [branch_thickness, branch_thickness, v_zero],
      [-branch_thickness, -branch_thickness, ctps_mid_height_bottom],
      [branch_thickness, -branch_thickness, ctps_mid_height_bottom],
      [-branch_thickness, branch_thickness, ctps_mid_height_bottom],
      [branch_thickness, branch_thickness, ctps_mid_height_bottom],
      [-r_center, -r_center, inv_filling_height],
      [r_center, -r_center, inv_filling_height],
      [-r_center, r_center, inv_filling_height],
      [r_center, r_center, inv_filling_height]])
  [ ⟨[1, 1, 1], ctps_corner⟩,
    ⟨[1, 1, 1], (shift [v_zero, inv_boundary_width, v_zero] ctps_corner)⟩,
    ⟨[1, 1, 1], (shift [inv_boundary_width, v_zero, v_zero] ctps_corner)⟩,
    ⟨[1, 1, 1], (shift [inv_boundary_width, inv_boundary_width, v_zero] ctps_corner)⟩,
    ⟨[1, 1, 1], center_ctps⟩,
    ⟨[1, 1, 1], (List.replicate 8 [0, 0, 0])⟩,
    ⟨[1, 1, 1], (List.replicate 8 [0, 0, 0])⟩,
    ⟨[1, 1, 1], (List.replicate 8 [0, 0, 0])⟩,
    ⟨[1, 1, 1], (List.replicate 8 [0, 0, 0])⟩,
    ⟨[1, 1, 2], branch_ctps⟩ ]

/-- `Cross3DLinear._closing_tile`, `i_derivative == 0`. `splinepy/microstructure/tiles/cross_3d_linear.py` 128-271. -/
def cross3DLinearCloseZMin (v_zero v_one_half v_one bound_width fill_height inv_boundary_width inv_filling_height center_width ctps_mid_height_top ctps_mid_height_bottom r_center branch_thickness : K) : List (Patch K) :=
  let ctps_corner : List (List K) := [
      [v_zero, v_zero, v_zero],
      [bound_width, v_zero, v_zero],
      [v_zero, bound_width, v_zero],
      [bound_width, bound_width, v_zero],
      [v_zero, v_zero, fill_height],
      [bound_width, v_zero, fill_height],
      [v_zero, bound_width, fill_height],
      [bound_width, bound_width, fill_height]]
  let center_ctps : List (List K) := [
      [bound_width, bound_width, v_zero],
      [inv_boundary_width, bound_width, v_zero],
      [bound_width, inv_boundary_width, v_zero],
      [inv_boundary_width, inv_boundary_width, v_zero],
      [bound_width, bound_width, fill_height],
      [inv_boundary_width, bound_width, fill_height],
      [bound_width, inv_boundary_width, fill_height],
      [inv_boundary_width, inv_boundary_width, fill_height]]
  let branch_ctps : List (List K) := (shift [v_one_half, v_one_half, v_zero] [
      [-r_center, -r_center, fill_height],
      [r_center, -r_center, fill_height],
      [-r_center, r_center, fill_height],
      [r_center, r_center, fill_height],
      [-branch_thickness, -branch_thickness, v_one],
      [branch_thickness, -branch_thickness, v_one],
      [-branch_thickness, branch_thickness, v_one],
      [branch_thickness, branch_thickness, v_one]])
  [ ⟨[1, 1, 1], ctps_corner⟩,
    ⟨[1, 1, 1], (shift [v_zero, inv_boundary_width, v_zero] ctps_corner)⟩,
    ⟨[1, 1, 1], (shift [inv_boundary_width, v_zero, v_zero] ctps_corner)⟩,
    ⟨[1, 1, 1], (shift [inv_boundary_width, inv_boundary_width, v_zero] ctps_corner)⟩,
    ⟨[1, 1, 1], center_ctps⟩,
    ⟨[1, 1, 1], (clampLow v_zero (unshift [center_width, v_zero, v_zero] center_ctps))⟩,
    ⟨[1, 1, 1], (clampLow v_zero (unshift [v_zero, center_width, v_zero] center_ctps))⟩,
    ⟨[1, 1, 1], (clampHigh v_one (shift [center_width, v_zero, v_zero] center_ctps))⟩,
    ⟨[1, 1, 1], (clampHigh v_one (shift [v_zero, center_width, v_zero] center_ctps))⟩,
    ⟨[1, 1, 1], branch_ctps⟩ ]

/-- `Cross3DLinear._closing_tile`, `i_derivative > 0`. `splinepy/microstructure/tiles/cross_3d_linear.py` 128-271. -/
def cross3DLinearCloseZMinDerivative (v_zero v_one_half v_one bound_width fill_height inv_boundary_width inv_filling_height center_width ctps_mid_height_top ctps_mid_height_bottom r_center branch_thickness : K) : List (Patch K) :=
  let ctps_corner : List (List K) := [
      [v_zero, v_zero, v_zero],
      [bound_width, v_zero, v_zero],
      [v_zero, bound_width, v_zero],
      [bound_width, bound_width, v_zero],
      [v_zero, v_zero, fill_height],
      [bound_width, v_zero, fill_height],
      [v_zero, bound_width, fill_height],
      [bound_width, bound_width, fill_height]]
  let center_ctps : List (List K) := [
      [bound_width, bound_width, v_zero],
      [inv_boundary_width, bound_width, v_zero],
      [bound_width, inv_boundary_width, v_zero],
      [inv_boundary_width, inv_boundary_width, v_zero],
      [bound_width, bound_width, fill_height],
      [inv_boundary_width, bound_width, fill_height],
      [bound_width, inv_boundary_width, fill_height],
      [inv_boundary_width, inv_boundary_width, fill_height]]
  let branch_ctps : List (List K) := (shift [v_one_half, v_one_half, v_zero] [
      [-r_center, -r_center, fill_height],
      [r_center, -r_center, fill_height],
      [-r_center, r_center, fill_height],
      [r_center, r_center, fill_height],
      [-branch_thickness, -branch_thickness, v_one],
      [branch_thickness, -branch_thickness, v_one],
      [-branch_thickness, branch_thickness, v_one],
      [branch_thickness, branch_thickness, v_one]])
  [ ⟨[1, 1, 1], ctps_corner⟩,
    ⟨[1, 1, 1], (shift [v_zero, inv_boundary_width, v_zero] ctps_corner)⟩,
    ⟨[1, 1, 1], (shift [inv_boundary_width, v_zero, v_zero] ctps_corner)⟩,
    ⟨[1, 1, 1], (shift [inv_boundary_width, inv_boundary_width, v_zero] ctps_corner)⟩,
    ⟨[1, 1, 1], center_ctps⟩,
    ⟨[1, 1, 1], (List.replicate 8 [0, 0, 0])⟩,
    ⟨[1, 1, 1], (List.replicate 8 [0, 0, 0])⟩,
    ⟨[1, 1, 1], (List.replicate 8 [0, 0, 0])⟩,
    ⟨[1, 1, 1], (List.replicate 8 [0, 0, 0])⟩,
    ⟨[1, 1, 1], branch_ctps⟩ ]

/-- `Cross3DLinear._closing_tile`, `i_derivative == 0`. `splinepy/microstructure/tiles/cross_3d_linear.py` 278-425. -/
def cross3DLinearCloseZMax (v_zero v_one_half v_one bound_width fill_height inv_boundary_width inv_filling_height center_width ctps_mid_height_top ctps_mid_height_bottom r_center branch_thickness : K) : List (Patch K) :=
  let ctps_corner : List (List K) := [
      [v_zero, v_zero, inv_filling_height],
      [bound_width, v_zero, inv_filling_height],
      [v_zero, bound_width, inv_filling_height],
      [bound_width, bound_width, inv_filling_height],
      [v_zero, v_zero, v_one],
      [bound_width, v_zero, v_one],
      [v_zero, bound_width, v_one],
      [bound_width, bound_width, v_one]]
  let center_ctps : List (List K) := [
      [bound_width, bound_width, inv_filling_height],
      [inv_boundary_width, bound_width, inv_filling_height],
      [bound_width, inv_boundary_width, inv_filling_height],
      [inv_boundary_width, inv_boundary_width, inv_filling_height],
      [bound_width, bound_width, v_one],
      [inv_boundary_width, bound_width, v_one],
      [bound_width, inv_boundary_width, v_one],
      [inv_boundary_width, inv_boundary_width, v_one]]
  let branch_ctps : List (List K) := (shift [v_one_half, v_one_half, v_zero] [
      [-branch_thickness, -branch_thickness, v_zero],
      [branch_thickness, -branch_thickness, v_zero],
      [-branch_thickness, branch_thickness, v_zero],
      [branch_thickness, branch_thickness, v_zero],
      [-r_center, -r_center, inv_filling_height],
      [r_center, -r_center, inv_filling_height],
      [-r_center, r_center, inv_filling_height],
      [r_center, r_center, inv_filling_height]])
  [ ⟨[1, 1, 1], ctps_corner⟩,
    ⟨[1, 1, 1], (shift [v_zero, inv_boundary_width, v_zero] ctps_corner)⟩,
    ⟨[1, 1, 1], (shift [inv_boundary_width, v_zero, v_zero] ctps_corner)⟩,
    ⟨[1, 1, 1], (shift [inv_boundary_width, inv_boundary_width, v_zero] ctps_corner)⟩,
    ⟨[1, 1, 1], center_ctps⟩,
    ⟨[1, 1, 1], (clampLow v_zero (unshift [center_width, v_zero, v_zero] center_ctps))⟩,
    ⟨[1, 1, 1], (clampLow v_zero (unshift [v_zero, center_width, v_zero] center_ctps))⟩,
    ⟨[1, 1, 1], (clampHigh v_one (shift [center_width, v_zero, v_zero] center_ctps))⟩,
    ⟨[1, 1, 1], (clampHigh v_one (shift [v_zero, center_width, v_zero] center_ctps))⟩,
    ⟨[1, 1, 1], branch_ctps⟩ ]

/-- `Cross3DLinear._closing_tile`, `i_derivative > 0`. `splinepy/microstructure/tiles/cross_3d_linear.py` 278-425. -/
def cross3DLinearCloseZMaxDerivative (v_zero v_one_half v_one bound_width fill_height inv_boundary_width inv_filling_height center_width ctps_mid_height_top ctps_mid_height_bottom r_center branch_thickness : K) : List (Patch K) :=
  let ctps_corner : List (List K) := [
      [v_zero, v_zero, inv_filling_height],
      [bound_width, v_zero, inv_filling_height],
      [v_zero, bound_width, inv_filling_height],
      [bound_width, bound_width, inv_filling_height],
      [v_zero, v_zero, v_one],
      [bound_width, v_zero, v_one],
      [v_zero, bound_width, v_one],
      [bound_width, bound_width, v_one]]
  let center_ctps : List (List K) := [
      [bound_width, bound_width, inv_filling_height],
      [inv_boundary_width, bound_width, inv_filling_height],
      [bound_width, inv_boundary_width, inv_filling_height],
      [inv_boundary_width, inv_boundary_width, inv_filling_height],
      [bound_width, bound_width, v_one],
      [inv_boundary_width, bound_width, v_one],
      [bound_width, inv_boundary_width, v_one],
      [inv_boundary_width, inv_boundary_width, v_one]]
  let branch_ctps : List (List K) := (shift [v_one_half, v_one_half, v_zero] [
      [-branch_thickness, -branch_thickness, v_zero],
      [branch_thickness, -branch_thickness, v_zero],
      [-branch_thickness, branch_thickness, v_zero],
      [branch_thickness, branch_thickness, v_zero],
      [-r_center, -r_center, inv_filling_height],
      [r_center, -r_center, inv_filling_height],
      [-r_center, r_center, inv_filling_height],
      [r_center, r_center, inv_filling_height]])
  [ ⟨[1, 1, 1], ctps_corner⟩,
    ⟨[1, 1, 1], (shift [v_zero, inv_boundary_width, v_zero] ctps_corner)⟩,
    ⟨[1, 1, 1], (shift [inv_boundary_width, v_zero, v_zero] ctps_corner)⟩,
    ⟨[1, 1, 1], (shift [inv_boundary_width, inv_boundary_width, v_zero] ctps_corner)⟩,
    ⟨[1, 1, 1], center_ctps⟩,
    ⟨[1, 1, 1], (List.replicate 8 [0, 0, 0])⟩,
    ⟨[1, 1, 1], (List.replicate 8 [0, 0, 0])⟩,
    ⟨[1, 1, 1], (List.replicate 8 [0, 0, 0])⟩,
    ⟨[1, 1, 1], (List.replicate 8 [0, 0, 0])⟩,
    ⟨[1, 1, 1], branch_ctps⟩ ]

/-- `CubeVoid.create_tile`. `splinepy/microstructure/tiles/cube_void.py` 154-247. -/
def cubeVoid (v_zero v_one : K) (ctps : List (List K)) : List (Patch K) :=
  [ ⟨[1, 1, 1], [
      [v_zero, v_zero, v_zero],
      [v_one, v_zero, v_zero],
      [v_zero, v_one, v_zero],
      [v_one, v_one, v_zero],
      row ctps 0,
      row ctps 1,
      row ctps 2,
      row ctps 3]⟩,
    ⟨[1, 1, 1], [
      row ctps 4,
      row ctps 5,
      row ctps 6,
      row ctps 7,
      [v_zero, v_zero, v_one],
      [v_one, v_zero, v_one],
      [v_zero, v_one, v_one],
      [v_one, v_one, v_one]]⟩,
    ⟨[1, 1, 1], [
      [v_zero, v_zero, v_zero],
      [v_one, v_zero, v_zero],
      row ctps 0,
      row ctps 1,
      [v_zero, v_zero, v_one],
      [v_one, v_zero, v_one],
      row ctps 4,
      row ctps 5]⟩,
    ⟨[1, 1, 1], [
      row ctps 2,
      row ctps 3,
      [v_zero, v_one, v_zero],
      [v_one, v_one, v_zero],
      row ctps 6,
      row ctps 7,
      [v_zero, v_one, v_one],
      [v_one, v_one, v_one]]⟩,
    ⟨[1, 1, 1], [
      [v_zero, v_zero, v_zero],
      row ctps 0,
      [v_zero, v_one, v_zero],
      row ctps 2,
      [v_zero, v_zero, v_one],
      row ctps 4,
      [v_zero, v_one, v_one],
      row ctps 6]⟩,
    ⟨[1, 1, 1], [
      row ctps 1,
      [v_one, v_zero, v_zero],
      row ctps 3,
      [v_one, v_one, v_zero],
      row ctps 5,
      [v_one, v_zero, v_one],
      row ctps 7,
      [v_one, v_one, v_one]]⟩ ]

/-- `EllipsVoid.create_tile`. `splinepy/microstructure/tiles/ellips_v_oid.py` 180-333. -/
def ellipsVoid (v_zero v_one_half v_one : K) (ctps : List (List K)) : List (Patch K) :=
  [ ⟨[2, 2, 1], [
      [v_zero, v_zero, v_zero],
      [v_one_half, v_zero, v_zero],
      [v_one, v_zero, v_zero],
      [v_zero, v_one_half, v_zero],
      [v_one_half, v_one_half, v_zero],
      [v_one, v_one_half, v_zero],
      [v_zero, v_one, v_zero],
      [v_one_half, v_one, v_zero],
      [v_one, v_one, v_zero],
      row ctps 0,
      row ctps 1,
      row ctps 2,
      row ctps 3,
      row ctps 4,
      row ctps 5,
      row ctps 6,
      row ctps 7,
      row ctps 8]⟩,
    ⟨[2, 2, 1], [
      row ctps 18,
      row ctps 19,
      row ctps 20,
      row ctps 21,
      row ctps 22,
      row ctps 23,
      row ctps 24,
      row ctps 25,
      row ctps 26,
      [v_zero, v_zero, v_one],
      [v_one_half, v_zero, v_one],
      [v_one, v_zero, v_one],
      [v_zero, v_one_half, v_one],
      [v_one_half, v_one_half, v_one],
      [v_one, v_one_half, v_one],
      [v_zero, v_one, v_one],
      [v_one_half, v_one, v_one],
      [v_one, v_one, v_one]]⟩,
    ⟨[2, 1, 2], [
      [v_zero, v_zero, v_zero],
      [v_one_half, v_zero, v_zero],
      [v_one, v_zero, v_zero],
      row ctps 0,
      row ctps 1,
      row ctps 2,
      [v_zero, v_zero, v_one_half],
      [v_one_half, v_zero, v_one_half],
      [v_one, v_zero, v_one_half],
      row ctps 9,
      row ctps 10,
      row ctps 11,
      [v_zero, v_zero, v_one],
      [v_one_half, v_zero, v_one],
      [v_one, v_zero, v_one],
      row ctps 18,
      row ctps 19,
      row ctps 20]⟩,
    ⟨[2, 1, 2], [
      row ctps 6,
      row ctps 7,
      row ctps 8,
      [v_zero, v_one, v_zero],
      [v_one_half, v_one, v_zero],
      [v_one, v_one, v_zero],
      row ctps 15,
      row ctps 16,
      row ctps 17,
      [v_zero, v_one, v_one_half],
      [v_one_half, v_one, v_one_half],
      [v_one, v_one, v_one_half],
      row ctps 24,
      row ctps 25,
      row ctps 26,
      [v_zero, v_one, v_one],
      [v_one_half, v_one, v_one],
      [v_one, v_one, v_one]]⟩,
    ⟨[1, 2, 2], [
      [v_zero, v_zero, v_zero],
      row ctps 0,
      [v_zero, v_one_half, v_zero],
      row ctps 3,
      [v_zero, v_one, v_zero],
      row ctps 6,
      [v_zero, v_zero, v_one_half],
      row ctps 9,
      [v_zero, v_one_half, v_one_half],
      row ctps 12,
      [v_zero, v_one, v_one_half],
      row ctps 15,
      [v_zero, v_zero, v_one],
      row ctps 18,
      [v_zero, v_one_half, v_one],
      row ctps 21,
      [v_zero, v_one, v_one],
      row ctps 24]⟩,
    ⟨[1, 2, 2], [
      row ctps 2,
      [v_one, v_zero, v_zero],
      row ctps 5,
      [v_one, v_one_half, v_zero],
      row ctps 8,
      [v_one, v_one, v_zero],
      row ctps 11,
      [v_one, v_zero, v_one_half],
      row ctps 14,
      [v_one, v_one_half, v_one_half],
      row ctps 17,
      [v_one, v_one, v_one_half],
      row ctps 20,
      [v_one, v_zero, v_one],
      row ctps 23,
      [v_one, v_one_half, v_one],
      row ctps 26,
      [v_one, v_one, v_one]]⟩ ]

/-- `Snappy.create_tile`. `splinepy/microstructure/tiles/snappy.py` 394-518. -/
def snappy (v_zero v_one_half v_one cl_2 cl_2_inv a a_inv b r : K) : List (Patch K) :=
  let spline_1 : List (List K) := [
      [v_zero, v_zero],
      [cl_2, v_zero],
      [v_zero, b],
      [cl_2, b]]
  let spline_2 : List (List K) := [
      [cl_2_inv, v_zero],
      [v_one, v_zero],
      [cl_2_inv, b],
      [v_one, b]]
  let spline_3 : List (List K) := [
      [v_zero, a_inv],
      [cl_2, a_inv],
      [v_zero, v_one],
      [cl_2, v_one]]
  let spline_4 : List (List K) := [
      [cl_2_inv, a_inv],
      [v_one, a_inv],
      [cl_2_inv, v_one],
      [v_one, v_one]]
  let spline_5 : List (List K) := [
      [v_one_half - cl_2, v_one_half - b],
      [v_one_half + cl_2, v_one_half - b],
      [v_one_half - cl_2, v_one_half],
      [v_one_half + cl_2, v_one_half]]
  let spline_6 : List (List K) := [
      [v_one_half - cl_2, v_one_half],
      [v_one_half + cl_2, v_one_half],
      [v_one_half - cl_2, v_one_half + a],
      [v_one_half + cl_2, v_one_half + a]]
  let spline_7 : List (List K) := [
      [cl_2, v_zero],
      [cl_2 + r, v_zero],
      [(v_one_half - cl_2) - r, v_one_half - b],
      [v_one_half - cl_2, v_one_half - b],
      [cl_2, b],
      [cl_2 + r, b],
      [(v_one_half - cl_2) - r, v_one_half],
      [v_one_half - cl_2, v_one_half]]
  let spline_8 : List (List K) := (shift [v_one_half, v_zero] [
      [cl_2, v_one_half - b],
      [cl_2 + r, v_one_half - b],
      [(v_one_half - cl_2) - r, v_zero],
      [v_one_half - cl_2, v_zero],
      [cl_2, v_one_half],
      [cl_2 + r, v_one_half],
      [(v_one_half - cl_2) - r, b],
      [v_one_half - cl_2, b]])
  let spline_9 : List (List K) := [
      [cl_2, a_inv],
      [cl_2 + r, a_inv],
      [(v_one_half - cl_2) - r, v_one_half],
      [v_one_half - cl_2, v_one_half],
      [cl_2, v_one],
      [cl_2 + r, v_one],
      [(v_one_half - cl_2) - r, v_one_half + a],
      [v_one_half - cl_2, v_one_half + a]]
  let spline_10 : List (List K) := (shift [v_one_half, v_zero] [
      [cl_2, v_one_half],
      [cl_2 + r, v_one_half],
      [(v_one_half - cl_2) - r, a_inv],
      [v_one_half - cl_2, a_inv],
      [cl_2, v_one_half + a],
      [cl_2 + r, v_one_half + a],
      [(v_one_half - cl_2) - r, v_one],
      [v_one_half - cl_2, v_one]])
  [ ⟨[1, 1], spline_1⟩,
    ⟨[1, 1], spline_2⟩,
    ⟨[1, 1], spline_3⟩,
    ⟨[1, 1], spline_4⟩,
    ⟨[1, 1], spline_5⟩,
    ⟨[1, 1], spline_6⟩,
    ⟨[3, 1], spline_7⟩,
    ⟨[3, 1], spline_8⟩,
    ⟨[3, 1], spline_9⟩,
    ⟨[3, 1], spline_10⟩ ]

end

end Splinepy.Tiles
