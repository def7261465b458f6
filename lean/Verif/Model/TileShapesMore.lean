import Verif.Model.TileShapes

/-!
Control points of further tiles of splinepy/microstructure/tiles: `HollowOctagonExtrude`, `InverseCross3D`, `Armadillo`. As in `Model/TileShapes.lean`, the arguments are the local
variables set before, the value is `spline_list`, and the lists are transcribed from the literals of the source, entry by entry.
-/

set_option linter.unusedVariables false

namespace Splinepy.Tiles

section
variable {K : Type} [Field K] [LinearOrder K]

/-- `HollowOctagonExtrude.create_tile`. `splinepy/microstructure/tiles/hollow_octagon_extrude.py` 90-240. -/
def hollowOctagonExtrude (v_zero v_one_half v_one v_h_void v_inner_c_h v_outer_c_h : K) : List (Patch K) :=
  let right : List (List K) := [
      [v_h_void + v_one_half, (-v_inner_c_h) + v_one_half, v_zero],
      [v_one, (-v_outer_c_h) + v_one_half, 0],
      [v_h_void + v_one_half, v_inner_c_h + v_one_half, 0],
      [v_one, v_outer_c_h + v_one_half, 0],
      [v_h_void + v_one_half, (-v_inner_c_h) + v_one_half, v_one],
      [v_one, (-v_outer_c_h) + v_one_half, v_one],
      [v_h_void + v_one_half, v_inner_c_h + v_one_half, v_one],
      [v_one, v_outer_c_h + v_one_half, v_one]]
  let right_top : List (List K) := [
      [v_h_void + v_one_half, v_inner_c_h + v_one_half, v_zero],
      [v_one, v_outer_c_h + v_one_half, v_zero],
      [v_inner_c_h + v_one_half, v_h_void + v_one_half, v_zero],
      [v_outer_c_h + v_one_half, v_one, v_zero],
      [v_h_void + v_one_half, v_inner_c_h + v_one_half, v_one],
      [v_one, v_outer_c_h + v_one_half, v_one],
      [v_inner_c_h + v_one_half, v_h_void + v_one_half, v_one],
      [v_outer_c_h + v_one_half, v_one, v_one]]
  let top : List (List K) := [
      [v_inner_c_h + v_one_half, v_h_void + v_one_half, v_zero],
      [v_outer_c_h + v_one_half, v_one, v_zero],
      [(-v_inner_c_h) + v_one_half, v_h_void + v_one_half, v_zero],
      [(-v_outer_c_h) + v_one_half, v_one, v_zero],
      [v_inner_c_h + v_one_half, v_h_void + v_one_half, v_one],
      [v_outer_c_h + v_one_half, v_one, v_one],
      [(-v_inner_c_h) + v_one_half, v_h_void + v_one_half, v_one],
      [(-v_outer_c_h) + v_one_half, v_one, v_one]]
  let bottom_left : List (List K) := [
      [(-v_h_void) + v_one_half, (-v_inner_c_h) + v_one_half, v_zero],
      [v_zero, (-v_outer_c_h) + v_one_half, v_zero],
      [(-v_inner_c_h) + v_one_half, (-v_h_void) + v_one_half, v_zero],
      [(-v_outer_c_h) + v_one_half, v_zero, v_zero],
      [(-v_h_void) + v_one_half, (-v_inner_c_h) + v_one_half, v_one],
      [v_zero, (-v_outer_c_h) + v_one_half, v_one],
      [(-v_inner_c_h) + v_one_half, (-v_h_void) + v_one_half, v_one],
      [(-v_outer_c_h) + v_one_half, v_zero, v_one]]
  let left : List (List K) := [
      [v_zero, (-v_outer_c_h) + v_one_half, v_zero],
      [(-v_h_void) + v_one_half, (-v_inner_c_h) + v_one_half, v_zero],
      [v_zero, v_outer_c_h + v_one_half, v_zero],
      [(-v_h_void) + v_one_half, v_inner_c_h + v_one_half, v_zero],
      [v_zero, (-v_outer_c_h) + v_one_half, v_one],
      [(-v_h_void) + v_one_half, (-v_inner_c_h) + v_one_half, v_one],
      [v_zero, v_outer_c_h + v_one_half, v_one],
      [(-v_h_void) + v_one_half, v_inner_c_h + v_one_half, v_one]]
  let top_left : List (List K) := [
      [v_zero, v_outer_c_h + v_one_half, v_zero],
      [(-v_h_void) + v_one_half, v_inner_c_h + v_one_half, v_zero],
      [(-v_outer_c_h) + v_one_half, v_one, v_zero],
      [(-v_inner_c_h) + v_one_half, v_h_void + v_one_half, v_zero],
      [v_zero, v_outer_c_h + v_one_half, v_one],
      [(-v_h_void) + v_one_half, v_inner_c_h + v_one_half, v_one],
      [(-v_outer_c_h) + v_one_half, v_one, v_one],
      [(-v_inner_c_h) + v_one_half, v_h_void + v_one_half, v_one]]
  let bottom : List (List K) := [
      [v_outer_c_h + v_one_half, v_zero, v_zero],
      [v_inner_c_h + v_one_half, (-v_h_void) + v_one_half, v_zero],
      [(-v_outer_c_h) + v_one_half, v_zero, v_zero],
      [(-v_inner_c_h) + v_one_half, (-v_h_void) + v_one_half, v_zero],
      [v_outer_c_h + v_one_half, v_zero, v_one],
      [v_inner_c_h + v_one_half, (-v_h_void) + v_one_half, v_one],
      [(-v_outer_c_h) + v_one_half, v_zero, v_one],
      [(-v_inner_c_h) + v_one_half, (-v_h_void) + v_one_half, v_one]]
  let bottom_right : List (List K) := [
      [v_inner_c_h + v_one_half, (-v_h_void) + v_one_half, v_zero],
      [v_outer_c_h + v_one_half, v_zero, v_zero],
      [v_h_void + v_one_half, (-v_inner_c_h) + v_one_half, v_zero],
      [v_one, (-v_outer_c_h) + v_one_half, v_zero],
      [v_inner_c_h + v_one_half, (-v_h_void) + v_one_half, v_one],
      [v_outer_c_h + v_one_half, v_zero, v_one],
      [v_h_void + v_one_half, (-v_inner_c_h) + v_one_half, v_one],
      [v_one, (-v_outer_c_h) + v_one_half, v_one]]
  [ ⟨[1, 1, 1], right⟩,
    ⟨[1, 1, 1], right_top⟩,
    ⟨[1, 1, 1], bottom⟩,
    ⟨[1, 1, 1], bottom_left⟩,
    ⟨[1, 1, 1], left⟩,
    ⟨[1, 1, 1], top_left⟩,
    ⟨[1, 1, 1], top⟩,
    ⟨[1, 1, 1], bottom_right⟩ ]

/-- `InverseCross3D.create_tile`. `splinepy/microstructure/tiles/inverse_cross_3d.py` 1004-1614. -/
def inverseCross3D (seperator_distance aux_column_width hd_center center_r x_min_r x_max_r y_min_r y_max_r z_min_r z_max_r aux_x_min aux_x_max aux_y_min aux_y_max aux_z_min aux_z_max : K) : List (Patch K) :=
  let x_min_y_min : List (List K) := (shift [(1 / 2), (1 / 2), (1 / 2)] [
      [-(1 / 2), -(1 / 2), -aux_column_width],
      [-seperator_distance, -(1 / 2), -aux_column_width],
      [-y_min_r, -(1 / 2), -y_min_r],
      [-(1 / 2), -seperator_distance, -aux_column_width],
      [-hd_center, -hd_center, -aux_column_width],
      [-aux_y_min, -hd_center, -aux_y_min],
      [-(1 / 2), -x_min_r, -x_min_r],
      [-hd_center, -aux_x_min, -aux_x_min],
      [-center_r, -center_r, -center_r],
      [-(1 / 2), -(1 / 2), aux_column_width],
      [-seperator_distance, -(1 / 2), aux_column_width],
      [-y_min_r, -(1 / 2), y_min_r],
      [-(1 / 2), -seperator_distance, aux_column_width],
      [-hd_center, -hd_center, aux_column_width],
      [-aux_y_min, -hd_center, aux_y_min],
      [-(1 / 2), -x_min_r, x_min_r],
      [-hd_center, -aux_x_min, aux_x_min],
      [-center_r, -center_r, center_r]])
  let x_max_y_min : List (List K) := (shift [(1 / 2), (1 / 2), (1 / 2)] [
      [y_min_r, -(1 / 2), -y_min_r],
      [seperator_distance, -(1 / 2), -aux_column_width],
      [(1 / 2), -(1 / 2), -aux_column_width],
      [aux_y_min, -hd_center, -aux_y_min],
      [hd_center, -hd_center, -aux_column_width],
      [(1 / 2), -seperator_distance, -aux_column_width],
      [center_r, -center_r, -center_r],
      [hd_center, -aux_x_max, -aux_x_max],
      [(1 / 2), -x_max_r, -x_max_r],
      [y_min_r, -(1 / 2), y_min_r],
      [seperator_distance, -(1 / 2), aux_column_width],
      [(1 / 2), -(1 / 2), aux_column_width],
      [aux_y_min, -hd_center, aux_y_min],
      [hd_center, -hd_center, aux_column_width],
      [(1 / 2), -seperator_distance, aux_column_width],
      [center_r, -center_r, center_r],
      [hd_center, -aux_x_max, aux_x_max],
      [(1 / 2), -x_max_r, x_max_r]])
  let x_min_y_max : List (List K) := (shift [(1 / 2), (1 / 2), (1 / 2)] [
      [-(1 / 2), x_min_r, -x_min_r],
      [-hd_center, aux_x_min, -aux_x_min],
      [-center_r, center_r, -center_r],
      [-(1 / 2), seperator_distance, -aux_column_width],
      [-hd_center, hd_center, -aux_column_width],
      [-aux_y_max, hd_center, -aux_y_max],
      [-(1 / 2), (1 / 2), -aux_column_width],
      [-seperator_distance, (1 / 2), -aux_column_width],
      [-y_max_r, (1 / 2), -y_max_r],
      [-(1 / 2), x_min_r, x_min_r],
      [-hd_center, aux_x_min, aux_x_min],
      [-center_r, center_r, center_r],
      [-(1 / 2), seperator_distance, aux_column_width],
      [-hd_center, hd_center, aux_column_width],
      [-aux_y_max, hd_center, aux_y_max],
      [-(1 / 2), (1 / 2), aux_column_width],
      [-seperator_distance, (1 / 2), aux_column_width],
      [-y_max_r, (1 / 2), y_max_r]])
  let x_max_y_max : List (List K) := (shift [(1 / 2), (1 / 2), (1 / 2)] [
      [center_r, center_r, -center_r],
      [hd_center, aux_x_max, -aux_x_max],
      [(1 / 2), x_max_r, -x_max_r],
      [aux_y_max, hd_center, -aux_y_max],
      [hd_center, hd_center, -aux_column_width],
      [(1 / 2), seperator_distance, -aux_column_width],
      [y_max_r, (1 / 2), -y_max_r],
      [seperator_distance, (1 / 2), -aux_column_width],
      [(1 / 2), (1 / 2), -aux_column_width],
      [center_r, center_r, center_r],
      [hd_center, aux_x_max, aux_x_max],
      [(1 / 2), x_max_r, x_max_r],
      [aux_y_max, hd_center, aux_y_max],
      [hd_center, hd_center, aux_column_width],
      [(1 / 2), seperator_distance, aux_column_width],
      [y_max_r, (1 / 2), y_max_r],
      [seperator_distance, (1 / 2), aux_column_width],
      [(1 / 2), (1 / 2), aux_column_width]])
  let x_min_z_min : List (List K) := (shift [(1 / 2), (1 / 2), (1 / 2)] [
      [-(1 / 2), -aux_column_width, -(1 / 2)],
      [-seperator_distance, -aux_column_width, -(1 / 2)],
      [-z_min_r, -z_min_r, -(1 / 2)],
      [-(1 / 2), aux_column_width, -(1 / 2)],
      [-seperator_distance, aux_column_width, -(1 / 2)],
      [-z_min_r, z_min_r, -(1 / 2)],
      [-(1 / 2), -aux_column_width, -seperator_distance],
      [-hd_center, -aux_column_width, -hd_center],
      [-aux_z_min, -aux_z_min, -hd_center],
      [-(1 / 2), aux_column_width, -seperator_distance],
      [-hd_center, aux_column_width, -hd_center],
      [-aux_z_min, aux_z_min, -hd_center],
      [-(1 / 2), -x_min_r, -x_min_r],
      [-hd_center, -aux_x_min, -aux_x_min],
      [-center_r, -center_r, -center_r],
      [-(1 / 2), x_min_r, -x_min_r],
      [-hd_center, aux_x_min, -aux_x_min],
      [-center_r, center_r, -center_r]])
  let x_max_z_min : List (List K) := (shift [(1 / 2), (1 / 2), (1 / 2)] [
      [z_min_r, -z_min_r, -(1 / 2)],
      [seperator_distance, -aux_column_width, -(1 / 2)],
      [(1 / 2), -aux_column_width, -(1 / 2)],
      [z_min_r, z_min_r, -(1 / 2)],
      [seperator_distance, aux_column_width, -(1 / 2)],
      [(1 / 2), aux_column_width, -(1 / 2)],
      [aux_z_min, -aux_z_min, -hd_center],
      [hd_center, -aux_column_width, -hd_center],
      [(1 / 2), -aux_column_width, -seperator_distance],
      [aux_z_min, aux_z_min, -hd_center],
      [hd_center, aux_column_width, -hd_center],
      [(1 / 2), aux_column_width, -seperator_distance],
      [center_r, -center_r, -center_r],
      [hd_center, -aux_x_max, -aux_x_max],
      [(1 / 2), -x_max_r, -x_max_r],
      [center_r, center_r, -center_r],
      [hd_center, aux_x_max, -aux_x_max],
      [(1 / 2), x_max_r, -x_max_r]])
  let x_min_z_max : List (List K) := (shift [(1 / 2), (1 / 2), (1 / 2)] [
      [-(1 / 2), -x_min_r, x_min_r],
      [-hd_center, -aux_x_min, aux_x_min],
      [-center_r, -center_r, center_r],
      [-(1 / 2), x_min_r, x_min_r],
      [-hd_center, aux_x_min, aux_x_min],
      [-center_r, center_r, center_r],
      [-(1 / 2), -aux_column_width, seperator_distance],
      [-hd_center, -aux_column_width, hd_center],
      [-aux_z_max, -aux_z_max, hd_center],
      [-(1 / 2), aux_column_width, seperator_distance],
      [-hd_center, aux_column_width, hd_center],
      [-aux_z_max, aux_z_max, hd_center],
      [-(1 / 2), -aux_column_width, (1 / 2)],
      [-seperator_distance, -aux_column_width, (1 / 2)],
      [-z_max_r, -z_max_r, (1 / 2)],
      [-(1 / 2), aux_column_width, (1 / 2)],
      [-seperator_distance, aux_column_width, (1 / 2)],
      [-z_max_r, z_max_r, (1 / 2)]])
  let x_max_z_max : List (List K) := (shift [(1 / 2), (1 / 2), (1 / 2)] [
      [center_r, -center_r, center_r],
      [hd_center, -aux_x_max, aux_x_max],
      [(1 / 2), -x_max_r, x_max_r],
      [center_r, center_r, center_r],
      [hd_center, aux_x_max, aux_x_max],
      [(1 / 2), x_max_r, x_max_r],
      [aux_z_max, -aux_z_max, hd_center],
      [hd_center, -aux_column_width, hd_center],
      [(1 / 2), -aux_column_width, seperator_distance],
      [aux_z_max, aux_z_max, hd_center],
      [hd_center, aux_column_width, hd_center],
      [(1 / 2), aux_column_width, seperator_distance],
      [z_max_r, -z_max_r, (1 / 2)],
      [seperator_distance, -aux_column_width, (1 / 2)],
      [(1 / 2), -aux_column_width, (1 / 2)],
      [z_max_r, z_max_r, (1 / 2)],
      [seperator_distance, aux_column_width, (1 / 2)],
      [(1 / 2), aux_column_width, (1 / 2)]])
  let y_min_z_min : List (List K) := (shift [(1 / 2), (1 / 2), (1 / 2)] [
      [-aux_column_width, -(1 / 2), -(1 / 2)],
      [aux_column_width, -(1 / 2), -(1 / 2)],
      [-aux_column_width, -seperator_distance, -(1 / 2)],
      [aux_column_width, -seperator_distance, -(1 / 2)],
      [-z_min_r, -z_min_r, -(1 / 2)],
      [z_min_r, -z_min_r, -(1 / 2)],
      [-aux_column_width, -(1 / 2), -seperator_distance],
      [aux_column_width, -(1 / 2), -seperator_distance],
      [-aux_column_width, -hd_center, -hd_center],
      [aux_column_width, -hd_center, -hd_center],
      [-aux_z_min, -aux_z_min, -hd_center],
      [aux_z_min, -aux_z_min, -hd_center],
      [-y_min_r, -(1 / 2), -y_min_r],
      [y_min_r, -(1 / 2), -y_min_r],
      [-aux_y_min, -hd_center, -aux_y_min],
      [aux_y_min, -hd_center, -aux_y_min],
      [-center_r, -center_r, -center_r],
      [center_r, -center_r, -center_r]])
  let y_max_z_min : List (List K) := (shift [(1 / 2), (1 / 2), (1 / 2)] [
      [-z_min_r, z_min_r, -(1 / 2)],
      [z_min_r, z_min_r, -(1 / 2)],
      [-aux_column_width, seperator_distance, -(1 / 2)],
      [aux_column_width, seperator_distance, -(1 / 2)],
      [-aux_column_width, (1 / 2), -(1 / 2)],
      [aux_column_width, (1 / 2), -(1 / 2)],
      [-aux_z_min, aux_z_min, -hd_center],
      [aux_z_min, aux_z_min, -hd_center],
      [-aux_column_width, hd_center, -hd_center],
      [aux_column_width, hd_center, -hd_center],
      [-aux_column_width, (1 / 2), -seperator_distance],
      [aux_column_width, (1 / 2), -seperator_distance],
      [-center_r, center_r, -center_r],
      [center_r, center_r, -center_r],
      [-aux_y_max, hd_center, -aux_y_max],
      [aux_y_max, hd_center, -aux_y_max],
      [-y_max_r, (1 / 2), -y_max_r],
      [y_max_r, (1 / 2), -y_max_r]])
  let y_min_z_max : List (List K) := (shift [(1 / 2), (1 / 2), (1 / 2)] [
      [-y_min_r, -(1 / 2), y_min_r],
      [y_min_r, -(1 / 2), y_min_r],
      [-aux_y_min, -hd_center, aux_y_min],
      [aux_y_min, -hd_center, aux_y_min],
      [-center_r, -center_r, center_r],
      [center_r, -center_r, center_r],
      [-aux_column_width, -(1 / 2), seperator_distance],
      [aux_column_width, -(1 / 2), seperator_distance],
      [-aux_column_width, -hd_center, hd_center],
      [aux_column_width, -hd_center, hd_center],
      [-aux_z_max, -aux_z_max, hd_center],
      [aux_z_max, -aux_z_max, hd_center],
      [-aux_column_width, -(1 / 2), (1 / 2)],
      [aux_column_width, -(1 / 2), (1 / 2)],
      [-aux_column_width, -seperator_distance, (1 / 2)],
      [aux_column_width, -seperator_distance, (1 / 2)],
      [-z_max_r, -z_max_r, (1 / 2)],
      [z_max_r, -z_max_r, (1 / 2)]])
  let y_max_z_max : List (List K) := (shift [(1 / 2), (1 / 2), (1 / 2)] [
      [-center_r, center_r, center_r],
      [center_r, center_r, center_r],
      [-aux_y_max, hd_center, aux_y_max],
      [aux_y_max, hd_center, aux_y_max],
      [-y_max_r, (1 / 2), y_max_r],
      [y_max_r, (1 / 2), y_max_r],
      [-aux_z_max, aux_z_max, hd_center],
      [aux_z_max, aux_z_max, hd_center],
      [-aux_column_width, hd_center, hd_center],
      [aux_column_width, hd_center, hd_center],
      [-aux_column_width, (1 / 2), seperator_distance],
      [aux_column_width, (1 / 2), seperator_distance],
      [-z_max_r, z_max_r, (1 / 2)],
      [z_max_r, z_max_r, (1 / 2)],
      [-aux_column_width, seperator_distance, (1 / 2)],
      [aux_column_width, seperator_distance, (1 / 2)],
      [-aux_column_width, (1 / 2), (1 / 2)],
      [aux_column_width, (1 / 2), (1 / 2)]])
  let x_min_y_min_z_min : List (List K) := (shift [(1 / 2), (1 / 2), (1 / 2)] [
      [-(1 / 2), -(1 / 2), -(1 / 2)],
      [-seperator_distance, -(1 / 2), -(1 / 2)],
      [-aux_column_width, -(1 / 2), -(1 / 2)],
      [-(1 / 2), -seperator_distance, -(1 / 2)],
      [-seperator_distance, -seperator_distance, -(1 / 2)],
      [-aux_column_width, -seperator_distance, -(1 / 2)],
      [-(1 / 2), -aux_column_width, -(1 / 2)],
      [-seperator_distance, -aux_column_width, -(1 / 2)],
      [-z_min_r, -z_min_r, -(1 / 2)],
      [-(1 / 2), -(1 / 2), -seperator_distance],
      [-seperator_distance, -(1 / 2), -seperator_distance],
      [-aux_column_width, -(1 / 2), -seperator_distance],
      [-(1 / 2), -seperator_distance, -seperator_distance],
      [-hd_center, -hd_center, -hd_center],
      [-aux_column_width, -hd_center, -hd_center],
      [-(1 / 2), -aux_column_width, -seperator_distance],
      [-hd_center, -aux_column_width, -hd_center],
      [-aux_z_min, -aux_z_min, -hd_center],
      [-(1 / 2), -(1 / 2), -aux_column_width],
      [-seperator_distance, -(1 / 2), -aux_column_width],
      [-y_min_r, -(1 / 2), -y_min_r],
      [-(1 / 2), -seperator_distance, -aux_column_width],
      [-hd_center, -hd_center, -aux_column_width],
      [-aux_y_min, -hd_center, -aux_y_min],
      [-(1 / 2), -x_min_r, -x_min_r],
      [-hd_center, -aux_x_min, -aux_x_min],
      [-center_r, -center_r, -center_r]])
  let x_max_y_min_z_min : List (List K) := (shift [(1 / 2), (1 / 2), (1 / 2)] [
      [aux_column_width, -(1 / 2), -(1 / 2)],
      [seperator_distance, -(1 / 2), -(1 / 2)],
      [(1 / 2), -(1 / 2), -(1 / 2)],
      [aux_column_width, -seperator_distance, -(1 / 2)],
      [seperator_distance, -seperator_distance, -(1 / 2)],
      [(1 / 2), -seperator_distance, -(1 / 2)],
      [z_min_r, -z_min_r, -(1 / 2)],
      [seperator_distance, -aux_column_width, -(1 / 2)],
      [(1 / 2), -aux_column_width, -(1 / 2)],
      [aux_column_width, -(1 / 2), -seperator_distance],
      [seperator_distance, -(1 / 2), -seperator_distance],
      [(1 / 2), -(1 / 2), -seperator_distance],
      [aux_column_width, -hd_center, -hd_center],
      [hd_center, -hd_center, -hd_center],
      [(1 / 2), -seperator_distance, -seperator_distance],
      [aux_z_min, -aux_z_min, -hd_center],
      [hd_center, -aux_column_width, -hd_center],
      [(1 / 2), -aux_column_width, -seperator_distance],
      [y_min_r, -(1 / 2), -y_min_r],
      [seperator_distance, -(1 / 2), -aux_column_width],
      [(1 / 2), -(1 / 2), -aux_column_width],
      [aux_y_min, -hd_center, -aux_y_min],
      [hd_center, -hd_center, -aux_column_width],
      [(1 / 2), -seperator_distance, -aux_column_width],
      [center_r, -center_r, -center_r],
      [hd_center, -aux_x_max, -aux_x_max],
      [(1 / 2), -x_max_r, -x_max_r]])
  let x_min_y_max_z_min : List (List K) := (shift [(1 / 2), (1 / 2), (1 / 2)] [
      [-(1 / 2), aux_column_width, -(1 / 2)],
      [-seperator_distance, aux_column_width, -(1 / 2)],
      [-z_min_r, z_min_r, -(1 / 2)],
      [-(1 / 2), seperator_distance, -(1 / 2)],
      [-seperator_distance, seperator_distance, -(1 / 2)],
      [-aux_column_width, seperator_distance, -(1 / 2)],
      [-(1 / 2), (1 / 2), -(1 / 2)],
      [-seperator_distance, (1 / 2), -(1 / 2)],
      [-aux_column_width, (1 / 2), -(1 / 2)],
      [-(1 / 2), aux_column_width, -seperator_distance],
      [-hd_center, aux_column_width, -hd_center],
      [-aux_z_min, aux_z_min, -hd_center],
      [-(1 / 2), seperator_distance, -seperator_distance],
      [-hd_center, hd_center, -hd_center],
      [-aux_column_width, hd_center, -hd_center],
      [-(1 / 2), (1 / 2), -seperator_distance],
      [-seperator_distance, (1 / 2), -seperator_distance],
      [-aux_column_width, (1 / 2), -seperator_distance],
      [-(1 / 2), x_min_r, -x_min_r],
      [-hd_center, aux_x_min, -aux_x_min],
      [-center_r, center_r, -center_r],
      [-(1 / 2), seperator_distance, -aux_column_width],
      [-hd_center, hd_center, -aux_column_width],
      [-aux_y_max, hd_center, -aux_y_max],
      [-(1 / 2), (1 / 2), -aux_column_width],
      [-seperator_distance, (1 / 2), -aux_column_width],
      [-y_max_r, (1 / 2), -y_max_r]])
  let x_max_y_max_z_min : List (List K) := (shift [(1 / 2), (1 / 2), (1 / 2)] [
      [z_min_r, z_min_r, -(1 / 2)],
      [seperator_distance, aux_column_width, -(1 / 2)],
      [(1 / 2), aux_column_width, -(1 / 2)],
      [aux_column_width, seperator_distance, -(1 / 2)],
      [seperator_distance, seperator_distance, -(1 / 2)],
      [(1 / 2), seperator_distance, -(1 / 2)],
      [aux_column_width, (1 / 2), -(1 / 2)],
      [seperator_distance, (1 / 2), -(1 / 2)],
      [(1 / 2), (1 / 2), -(1 / 2)],
      [aux_z_min, aux_z_min, -hd_center],
      [hd_center, aux_column_width, -hd_center],
      [(1 / 2), aux_column_width, -seperator_distance],
      [aux_column_width, hd_center, -hd_center],
      [hd_center, hd_center, -hd_center],
      [(1 / 2), seperator_distance, -seperator_distance],
      [aux_column_width, (1 / 2), -seperator_distance],
      [seperator_distance, (1 / 2), -seperator_distance],
      [(1 / 2), (1 / 2), -seperator_distance],
      [center_r, center_r, -center_r],
      [hd_center, aux_x_max, -aux_x_max],
      [(1 / 2), x_max_r, -x_max_r],
      [aux_y_max, hd_center, -aux_y_max],
      [hd_center, hd_center, -aux_column_width],
      [(1 / 2), seperator_distance, -aux_column_width],
      [y_max_r, (1 / 2), -y_max_r],
      [seperator_distance, (1 / 2), -aux_column_width],
      [(1 / 2), (1 / 2), -aux_column_width]])
  let x_min_y_min_z_max : List (List K) := (shift [(1 / 2), (1 / 2), (1 / 2)] [
      [-(1 / 2), -(1 / 2), aux_column_width],
      [-seperator_distance, -(1 / 2), aux_column_width],
      [-y_min_r, -(1 / 2), y_min_r],
      [-(1 / 2), -seperator_distance, aux_column_width],
      [-hd_center, -hd_center, aux_column_width],
      [-aux_y_min, -hd_center, aux_y_min],
      [-(1 / 2), -x_min_r, x_min_r],
      [-hd_center, -aux_x_min, aux_x_min],
      [-center_r, -center_r, center_r],
      [-(1 / 2), -(1 / 2), seperator_distance],
      [-seperator_distance, -(1 / 2), seperator_distance],
      [-aux_column_width, -(1 / 2), seperator_distance],
      [-(1 / 2), -seperator_distance, seperator_distance],
      [-hd_center, -hd_center, hd_center],
      [-aux_column_width, -hd_center, hd_center],
      [-(1 / 2), -aux_column_width, seperator_distance],
      [-hd_center, -aux_column_width, hd_center],
      [-aux_z_max, -aux_z_max, hd_center],
      [-(1 / 2), -(1 / 2), (1 / 2)],
      [-seperator_distance, -(1 / 2), (1 / 2)],
      [-aux_column_width, -(1 / 2), (1 / 2)],
      [-(1 / 2), -seperator_distance, (1 / 2)],
      [-seperator_distance, -seperator_distance, (1 / 2)],
      [-aux_column_width, -seperator_distance, (1 / 2)],
      [-(1 / 2), -aux_column_width, (1 / 2)],
      [-seperator_distance, -aux_column_width, (1 / 2)],
      [-z_max_r, -z_max_r, (1 / 2)]])
  let x_max_y_min_z_max : List (List K) := (shift [(1 / 2), (1 / 2), (1 / 2)] [
      [y_min_r, -(1 / 2), y_min_r],
      [seperator_distance, -(1 / 2), aux_column_width],
      [(1 / 2), -(1 / 2), aux_column_width],
      [aux_y_min, -hd_center, aux_y_min],
      [hd_center, -hd_center, aux_column_width],
      [(1 / 2), -seperator_distance, aux_column_width],
      [center_r, -center_r, center_r],
      [hd_center, -aux_x_max, aux_x_max],
      [(1 / 2), -x_max_r, x_max_r],
      [aux_column_width, -(1 / 2), seperator_distance],
      [seperator_distance, -(1 / 2), seperator_distance],
      [(1 / 2), -(1 / 2), seperator_distance],
      [aux_column_width, -hd_center, hd_center],
      [hd_center, -hd_center, hd_center],
      [(1 / 2), -seperator_distance, seperator_distance],
      [aux_z_max, -aux_z_max, hd_center],
      [hd_center, -aux_column_width, hd_center],
      [(1 / 2), -aux_column_width, seperator_distance],
      [aux_column_width, -(1 / 2), (1 / 2)],
      [seperator_distance, -(1 / 2), (1 / 2)],
      [(1 / 2), -(1 / 2), (1 / 2)],
      [aux_column_width, -seperator_distance, (1 / 2)],
      [seperator_distance, -seperator_distance, (1 / 2)],
      [(1 / 2), -seperator_distance, (1 / 2)],
      [z_max_r, -z_max_r, (1 / 2)],
      [seperator_distance, -aux_column_width, (1 / 2)],
      [(1 / 2), -aux_column_width, (1 / 2)]])
  let x_min_y_max_z_max : List (List K) := (shift [(1 / 2), (1 / 2), (1 / 2)] [
      [-(1 / 2), x_min_r, x_min_r],
      [-hd_center, aux_x_min, aux_x_min],
      [-center_r, center_r, center_r],
      [-(1 / 2), seperator_distance, aux_column_width],
      [-hd_center, hd_center, aux_column_width],
      [-aux_y_max, hd_center, aux_y_max],
      [-(1 / 2), (1 / 2), aux_column_width],
      [-seperator_distance, (1 / 2), aux_column_width],
      [-y_max_r, (1 / 2), y_max_r],
      [-(1 / 2), aux_column_width, seperator_distance],
      [-hd_center, aux_column_width, hd_center],
      [-aux_z_max, aux_z_max, hd_center],
      [-(1 / 2), seperator_distance, seperator_distance],
      [-hd_center, hd_center, hd_center],
      [-aux_column_width, hd_center, hd_center],
      [-(1 / 2), (1 / 2), seperator_distance],
      [-seperator_distance, (1 / 2), seperator_distance],
      [-aux_column_width, (1 / 2), seperator_distance],
      [-(1 / 2), aux_column_width, (1 / 2)],
      [-seperator_distance, aux_column_width, (1 / 2)],
      [-z_max_r, z_max_r, (1 / 2)],
      [-(1 / 2), seperator_distance, (1 / 2)],
      [-seperator_distance, seperator_distance, (1 / 2)],
      [-aux_column_width, seperator_distance, (1 / 2)],
      [-(1 / 2), (1 / 2), (1 / 2)],
      [-seperator_distance, (1 / 2), (1 / 2)],
      [-aux_column_width, (1 / 2), (1 / 2)]])
  let x_max_y_max_z_max : List (List K) := (shift [(1 / 2), (1 / 2), (1 / 2)] [
      [center_r, center_r, center_r],
      [hd_center, aux_x_max, aux_x_max],
      [(1 / 2), x_max_r, x_max_r],
      [aux_y_max, hd_center, aux_y_max],
      [hd_center, hd_center, aux_column_width],
      [(1 / 2), seperator_distance, aux_column_width],
      [y_max_r, (1 / 2), y_max_r],
      [seperator_distance, (1 / 2), aux_column_width],
      [(1 / 2), (1 / 2), aux_column_width],
      [aux_z_max, aux_z_max, hd_center],
      [hd_center, aux_column_width, hd_center],
      [(1 / 2), aux_column_width, seperator_distance],
      [aux_column_width, hd_center, hd_center],
      [hd_center, hd_center, hd_center],
      [(1 / 2), seperator_distance, seperator_distance],
      [aux_column_width, (1 / 2), seperator_distance],
      [seperator_distance, (1 / 2), seperator_distance],
      [(1 / 2), (1 / 2), seperator_distance],
      [z_max_r, z_max_r, (1 / 2)],
      [seperator_distance, aux_column_width, (1 / 2)],
      [(1 / 2), aux_column_width, (1 / 2)],
      [aux_column_width, seperator_distance, (1 / 2)],
      [seperator_distance, seperator_distance, (1 / 2)],
      [(1 / 2), seperator_distance, (1 / 2)],
      [aux_column_width, (1 / 2), (1 / 2)],
      [seperator_distance, (1 / 2), (1 / 2)],
      [(1 / 2), (1 / 2), (1 / 2)]])
  [ ⟨[2, 2, 1], x_min_y_min⟩,
    ⟨[2, 2, 1], x_max_y_min⟩,
    ⟨[2, 2, 1], x_min_y_max⟩,
    ⟨[2, 2, 1], x_max_y_max⟩,
    ⟨[2, 1, 2], x_min_z_min⟩,
    ⟨[2, 1, 2], x_max_z_min⟩,
    ⟨[2, 1, 2], x_min_z_max⟩,
    ⟨[2, 1, 2], x_max_z_max⟩,
    ⟨[1, 2, 2], y_min_z_min⟩,
    ⟨[1, 2, 2], y_max_z_min⟩,
    ⟨[1, 2, 2], y_min_z_max⟩,
    ⟨[1, 2, 2], y_max_z_max⟩,
    ⟨[2, 2, 2], x_min_y_min_z_min⟩,
    ⟨[2, 2, 2], x_max_y_min_z_min⟩,
    ⟨[2, 2, 2], x_min_y_max_z_min⟩,
    ⟨[2, 2, 2], x_max_y_max_z_min⟩,
    ⟨[2, 2, 2], x_min_y_min_z_max⟩,
    ⟨[2, 2, 2], x_max_y_min_z_max⟩,
    ⟨[2, 2, 2], x_min_y_max_z_max⟩,
    ⟨[2, 2, 2], x_max_y_max_z_max⟩ ]

/-- `InverseCross3D._closing_tile`. `splinepy/microstructure/tiles/inverse_cross_3d.py` 116-480. -/
def inverseCross3DCloseZMin (seperator_distance aux_column_width filling_height inv_filling_height ctps_mid_height_top ctps_mid_height_bottom r_center half_r_center branch_thickness : K) : List (Patch K) :=
  let branch_neighbor_x_min_ctps : List (List K) := (shift [(1 / 2), (1 / 2), 0] [
      [-(1 / 2), -r_center, filling_height],
      [-half_r_center, -r_center, filling_height],
      [-r_center, -r_center, filling_height],
      [-(1 / 2), r_center, filling_height],
      [-half_r_center, r_center, filling_height],
      [-r_center, r_center, filling_height],
      [-(1 / 2), -aux_column_width, ctps_mid_height_top],
      [-seperator_distance, -aux_column_width, ctps_mid_height_top],
      [-branch_thickness, -branch_thickness, ctps_mid_height_top],
      [-(1 / 2), aux_column_width, ctps_mid_height_top],
      [-seperator_distance, aux_column_width, ctps_mid_height_top],
      [-branch_thickness, branch_thickness, ctps_mid_height_top],
      [-(1 / 2), -aux_column_width, 1],
      [-seperator_distance, -aux_column_width, 1],
      [-branch_thickness, -branch_thickness, 1],
      [-(1 / 2), aux_column_width, 1],
      [-seperator_distance, aux_column_width, 1],
      [-branch_thickness, branch_thickness, 1]])
  let branch_neighbor_x_max_ctps : List (List K) := (shift [(1 / 2), (1 / 2), 0] [
      [r_center, -r_center, filling_height],
      [half_r_center, -r_center, filling_height],
      [(1 / 2), -r_center, filling_height],
      [r_center, r_center, filling_height],
      [half_r_center, r_center, filling_height],
      [(1 / 2), r_center, filling_height],
      [branch_thickness, -branch_thickness, ctps_mid_height_top],
      [seperator_distance, -aux_column_width, ctps_mid_height_top],
      [(1 / 2), -aux_column_width, ctps_mid_height_top],
      [branch_thickness, branch_thickness, ctps_mid_height_top],
      [seperator_distance, aux_column_width, ctps_mid_height_top],
      [(1 / 2), aux_column_width, ctps_mid_height_top],
      [branch_thickness, -branch_thickness, 1],
      [seperator_distance, -aux_column_width, 1],
      [(1 / 2), -aux_column_width, 1],
      [branch_thickness, branch_thickness, 1],
      [seperator_distance, aux_column_width, 1],
      [(1 / 2), aux_column_width, 1]])
  let branch_neighbor_y_min_ctps : List (List K) := (shift [(1 / 2), (1 / 2), 0] [
      [-r_center, -(1 / 2), filling_height],
      [r_center, -(1 / 2), filling_height],
      [-r_center, -half_r_center, filling_height],
      [r_center, -half_r_center, filling_height],
      [-r_center, -r_center, filling_height],
      [r_center, -r_center, filling_height],
      [-aux_column_width, -(1 / 2), ctps_mid_height_top],
      [aux_column_width, -(1 / 2), ctps_mid_height_top],
      [-aux_column_width, -seperator_distance, ctps_mid_height_top],
      [aux_column_width, -seperator_distance, ctps_mid_height_top],
      [-branch_thickness, -branch_thickness, ctps_mid_height_top],
      [branch_thickness, -branch_thickness, ctps_mid_height_top],
      [-aux_column_width, -(1 / 2), 1],
      [aux_column_width, -(1 / 2), 1],
      [-aux_column_width, -seperator_distance, 1],
      [aux_column_width, -seperator_distance, 1],
      [-branch_thickness, -branch_thickness, 1],
      [branch_thickness, -branch_thickness, 1]])
  let branch_neighbor_y_max_ctps : List (List K) := (shift [(1 / 2), (1 / 2), 0] [
      [-r_center, r_center, filling_height],
      [r_center, r_center, filling_height],
      [-r_center, half_r_center, filling_height],
      [r_center, half_r_center, filling_height],
      [-r_center, (1 / 2), filling_height],
      [r_center, (1 / 2), filling_height],
      [-branch_thickness, branch_thickness, ctps_mid_height_top],
      [branch_thickness, branch_thickness, ctps_mid_height_top],
      [-aux_column_width, seperator_distance, ctps_mid_height_top],
      [aux_column_width, seperator_distance, ctps_mid_height_top],
      [-aux_column_width, (1 / 2), ctps_mid_height_top],
      [aux_column_width, (1 / 2), ctps_mid_height_top],
      [-branch_thickness, branch_thickness, 1],
      [branch_thickness, branch_thickness, 1],
      [-aux_column_width, seperator_distance, 1],
      [aux_column_width, seperator_distance, 1],
      [-aux_column_width, (1 / 2), 1],
      [aux_column_width, (1 / 2), 1]])
  let branch_x_min_y_min_ctps : List (List K) := (shift [(1 / 2), (1 / 2), 0] [
      [-(1 / 2), -(1 / 2), filling_height],
      [-half_r_center, -(1 / 2), filling_height],
      [-r_center, -(1 / 2), filling_height],
      [-(1 / 2), -half_r_center, filling_height],
      [-half_r_center, -half_r_center, filling_height],
      [-r_center, -half_r_center, filling_height],
      [-(1 / 2), -r_center, filling_height],
      [-half_r_center, -r_center, filling_height],
      [-r_center, -r_center, filling_height],
      [-(1 / 2), -(1 / 2), ctps_mid_height_top],
      [-seperator_distance, -(1 / 2), ctps_mid_height_top],
      [-aux_column_width, -(1 / 2), ctps_mid_height_top],
      [-(1 / 2), -seperator_distance, ctps_mid_height_top],
      [-seperator_distance, -seperator_distance, ctps_mid_height_top],
      [-aux_column_width, -seperator_distance, ctps_mid_height_top],
      [-(1 / 2), -aux_column_width, ctps_mid_height_top],
      [-seperator_distance, -aux_column_width, ctps_mid_height_top],
      [-branch_thickness, -branch_thickness, ctps_mid_height_top],
      [-(1 / 2), -(1 / 2), 1],
      [-seperator_distance, -(1 / 2), 1],
      [-aux_column_width, -(1 / 2), 1],
      [-(1 / 2), -seperator_distance, 1],
      [-seperator_distance, -seperator_distance, 1],
      [-aux_column_width, -seperator_distance, 1],
      [-(1 / 2), -aux_column_width, 1],
      [-seperator_distance, -aux_column_width, 1],
      [-branch_thickness, -branch_thickness, 1]])
  let branch_x_min_y_max_ctps : List (List K) := (shift [(1 / 2), (1 / 2), 0] [
      [-(1 / 2), r_center, filling_height],
      [-half_r_center, r_center, filling_height],
      [-r_center, r_center, filling_height],
      [-(1 / 2), half_r_center, filling_height],
      [-half_r_center, half_r_center, filling_height],
      [-r_center, half_r_center, filling_height],
      [-(1 / 2), (1 / 2), filling_height],
      [-half_r_center, (1 / 2), filling_height],
      [-r_center, (1 / 2), filling_height],
      [-(1 / 2), aux_column_width, ctps_mid_height_top],
      [-seperator_distance, aux_column_width, ctps_mid_height_top],
      [-branch_thickness, branch_thickness, ctps_mid_height_top],
      [-(1 / 2), seperator_distance, ctps_mid_height_top],
      [-seperator_distance, seperator_distance, ctps_mid_height_top],
      [-aux_column_width, seperator_distance, ctps_mid_height_top],
      [-(1 / 2), (1 / 2), ctps_mid_height_top],
      [-seperator_distance, (1 / 2), ctps_mid_height_top],
      [-aux_column_width, (1 / 2), ctps_mid_height_top],
      [-(1 / 2), aux_column_width, 1],
      [-seperator_distance, aux_column_width, 1],
      [-branch_thickness, branch_thickness, 1],
      [-(1 / 2), seperator_distance, 1],
      [-seperator_distance, seperator_distance, 1],
      [-aux_column_width, seperator_distance, 1],
      [-(1 / 2), (1 / 2), 1],
      [-seperator_distance, (1 / 2), 1],
      [-aux_column_width, (1 / 2), 1]])
  let branch_x_max_y_min_ctps : List (List K) := (shift [(1 / 2), (1 / 2), 0] [
      [r_center, -(1 / 2), filling_height],
      [half_r_center, -(1 / 2), filling_height],
      [(1 / 2), -(1 / 2), filling_height],
      [r_center, -half_r_center, filling_height],
      [half_r_center, -half_r_center, filling_height],
      [(1 / 2), -half_r_center, filling_height],
      [r_center, -r_center, filling_height],
      [half_r_center, -r_center, filling_height],
      [(1 / 2), -r_center, filling_height],
      [aux_column_width, -(1 / 2), ctps_mid_height_top],
      [seperator_distance, -(1 / 2), ctps_mid_height_top],
      [(1 / 2), -(1 / 2), ctps_mid_height_top],
      [aux_column_width, -seperator_distance, ctps_mid_height_top],
      [seperator_distance, -seperator_distance, ctps_mid_height_top],
      [(1 / 2), -seperator_distance, ctps_mid_height_top],
      [branch_thickness, -branch_thickness, ctps_mid_height_top],
      [seperator_distance, -aux_column_width, ctps_mid_height_top],
      [(1 / 2), -aux_column_width, ctps_mid_height_top],
      [aux_column_width, -(1 / 2), 1],
      [seperator_distance, -(1 / 2), 1],
      [(1 / 2), -(1 / 2), 1],
      [aux_column_width, -seperator_distance, 1],
      [seperator_distance, -seperator_distance, 1],
      [(1 / 2), -seperator_distance, 1],
      [branch_thickness, -branch_thickness, 1],
      [seperator_distance, -aux_column_width, 1],
      [(1 / 2), -aux_column_width, 1]])
  let branch_x_max_y_max_ctps : List (List K) := (shift [(1 / 2), (1 / 2), 0] [
      [r_center, r_center, filling_height],
      [half_r_center, r_center, filling_height],
      [(1 / 2), r_center, filling_height],
      [r_center, half_r_center, filling_height],
      [half_r_center, half_r_center, filling_height],
      [(1 / 2), half_r_center, filling_height],
      [r_center, (1 / 2), filling_height],
      [half_r_center, (1 / 2), filling_height],
      [(1 / 2), (1 / 2), filling_height],
      [branch_thickness, branch_thickness, ctps_mid_height_top],
      [seperator_distance, aux_column_width, ctps_mid_height_top],
      [(1 / 2), aux_column_width, ctps_mid_height_top],
      [aux_column_width, seperator_distance, ctps_mid_height_top],
      [seperator_distance, seperator_distance, ctps_mid_height_top],
      [(1 / 2), seperator_distance, ctps_mid_height_top],
      [aux_column_width, (1 / 2), ctps_mid_height_top],
      [seperator_distance, (1 / 2), ctps_mid_height_top],
      [(1 / 2), (1 / 2), ctps_mid_height_top],
      [branch_thickness, branch_thickness, 1],
      [seperator_distance, aux_column_width, 1],
      [(1 / 2), aux_column_width, 1],
      [aux_column_width, seperator_distance, 1],
      [seperator_distance, seperator_distance, 1],
      [(1 / 2), seperator_distance, 1],
      [aux_column_width, (1 / 2), 1],
      [seperator_distance, (1 / 2), 1],
      [(1 / 2), (1 / 2), 1]])
  [ ⟨[2, 1, 2], branch_neighbor_x_min_ctps⟩,
    ⟨[2, 1, 2], branch_neighbor_x_max_ctps⟩,
    ⟨[1, 2, 2], branch_neighbor_y_min_ctps⟩,
    ⟨[1, 2, 2], branch_neighbor_y_max_ctps⟩,
    ⟨[2, 2, 2], branch_x_min_y_min_ctps⟩,
    ⟨[2, 2, 2], branch_x_min_y_max_ctps⟩,
    ⟨[2, 2, 2], branch_x_max_y_min_ctps⟩,
    ⟨[2, 2, 2], branch_x_max_y_max_ctps⟩ ]

/-- `InverseCross3D._closing_tile`. `splinepy/microstructure/tiles/inverse_cross_3d.py` 484-883. -/
def inverseCross3DCloseZMax (seperator_distance aux_column_width filling_height inv_filling_height ctps_mid_height_top ctps_mid_height_bottom r_center half_r_center branch_thickness : K) : List (Patch K) :=
  let branch_neighbor_x_min_ctps : List (List K) := (shift [(1 / 2), (1 / 2), 0] [
      [-(1 / 2), -aux_column_width, 0],
      [-seperator_distance, -aux_column_width, 0],
      [-branch_thickness, -branch_thickness, 0],
      [-(1 / 2), aux_column_width, 0],
      [-seperator_distance, aux_column_width, 0],
      [-branch_thickness, branch_thickness, 0],
      [-(1 / 2), -aux_column_width, ctps_mid_height_bottom],
      [-seperator_distance, -aux_column_width, ctps_mid_height_bottom],
      [-branch_thickness, -branch_thickness, ctps_mid_height_bottom],
      [-(1 / 2), aux_column_width, ctps_mid_height_bottom],
      [-seperator_distance, aux_column_width, ctps_mid_height_bottom],
      [-branch_thickness, branch_thickness, ctps_mid_height_bottom],
      [-(1 / 2), -r_center, inv_filling_height],
      [-half_r_center, -r_center, inv_filling_height],
      [-r_center, -r_center, inv_filling_height],
      [-(1 / 2), r_center, inv_filling_height],
      [-half_r_center, r_center, inv_filling_height],
      [-r_center, r_center, inv_filling_height]])
  let branch_neighbor_x_max_ctps : List (List K) := (shift [(1 / 2), (1 / 2), 0] [
      [branch_thickness, -branch_thickness, 0],
      [seperator_distance, -aux_column_width, 0],
      [(1 / 2), -aux_column_width, 0],
      [branch_thickness, branch_thickness, 0],
      [seperator_distance, aux_column_width, 0],
      [(1 / 2), aux_column_width, 0],
      [branch_thickness, -branch_thickness, ctps_mid_height_bottom],
      [seperator_distance, -aux_column_width, ctps_mid_height_bottom],
      [(1 / 2), -aux_column_width, ctps_mid_height_bottom],
      [branch_thickness, branch_thickness, ctps_mid_height_bottom],
      [seperator_distance, aux_column_width, ctps_mid_height_bottom],
      [(1 / 2), aux_column_width, ctps_mid_height_bottom],
      [r_center, -r_center, inv_filling_height],
      [half_r_center, -r_center, inv_filling_height],
      [(1 / 2), -r_center, inv_filling_height],
      [r_center, r_center, inv_filling_height],
      [half_r_center, r_center, inv_filling_height],
      [(1 / 2), r_center, inv_filling_height]])
  let branch_neighbor_y_min_ctps : List (List K) := (shift [(1 / 2), (1 / 2), 0] [
      [-aux_column_width, -(1 / 2), 0],
      [aux_column_width, -(1 / 2), 0],
      [-aux_column_width, -seperator_distance, 0],
      [aux_column_width, -seperator_distance, 0],
      [-branch_thickness, -branch_thickness, 0],
      [branch_thickness, -branch_thickness, 0],
      [-aux_column_width, -(1 / 2), ctps_mid_height_bottom],
      [aux_column_width, -(1 / 2), ctps_mid_height_bottom],
      [-aux_column_width, -seperator_distance, ctps_mid_height_bottom],
      [aux_column_width, -seperator_distance, ctps_mid_height_bottom],
      [-branch_thickness, -branch_thickness, ctps_mid_height_bottom],
      [branch_thickness, -branch_thickness, ctps_mid_height_bottom],
      [-r_center, -(1 / 2), inv_filling_height],
      [r_center, -(1 / 2), inv_filling_height],
      [-r_center, -half_r_center, inv_filling_height],
      [r_center, -half_r_center, inv_filling_height],
      [-r_center, -r_center, inv_filling_height],
      [r_center, -r_center, inv_filling_height]])
  let branch_neighbor_y_max_ctps : List (List K) := (shift [(1 / 2), (1 / 2), 0] [
      [-branch_thickness, branch_thickness, 0],
      [branch_thickness, branch_thickness, 0],
      [-aux_column_width, seperator_distance, 0],
      [aux_column_width, seperator_distance, 0],
      [-aux_column_width, (1 / 2), 0],
      [aux_column_width, (1 / 2), 0],
      [-branch_thickness, branch_thickness, ctps_mid_height_bottom],
      [branch_thickness, branch_thickness, ctps_mid_height_bottom],
      [-aux_column_width, seperator_distance, ctps_mid_height_bottom],
      [aux_column_width, seperator_distance, ctps_mid_height_bottom],
      [-aux_column_width, (1 / 2), ctps_mid_height_bottom],
      [aux_column_width, (1 / 2), ctps_mid_height_bottom],
      [-r_center, r_center, inv_filling_height],
      [r_center, r_center, inv_filling_height],
      [-r_center, half_r_center, inv_filling_height],
      [r_center, half_r_center, inv_filling_height],
      [-r_center, (1 / 2), inv_filling_height],
      [r_center, (1 / 2), inv_filling_height]])
  let branch_x_min_y_min_ctps : List (List K) := (shift [(1 / 2), (1 / 2), 0] [
      [-(1 / 2), -(1 / 2), 0],
      [-seperator_distance, -(1 / 2), 0],
      [-aux_column_width, -(1 / 2), 0],
      [-(1 / 2), -seperator_distance, 0],
      [-seperator_distance, -seperator_distance, 0],
      [-aux_column_width, -seperator_distance, 0],
      [-(1 / 2), -aux_column_width, 0],
      [-seperator_distance, -aux_column_width, 0],
      [-branch_thickness, -branch_thickness, 0],
      [-(1 / 2), -(1 / 2), ctps_mid_height_bottom],
      [-seperator_distance, -(1 / 2), ctps_mid_height_bottom],
      [-aux_column_width, -(1 / 2), ctps_mid_height_bottom],
      [-(1 / 2), -seperator_distance, ctps_mid_height_bottom],
      [-seperator_distance, -seperator_distance, ctps_mid_height_bottom],
      [-aux_column_width, -seperator_distance, ctps_mid_height_bottom],
      [-(1 / 2), -aux_column_width, ctps_mid_height_bottom],
      [-seperator_distance, -aux_column_width, ctps_mid_height_bottom],
      [-branch_thickness, -branch_thickness, ctps_mid_height_bottom],
      [-(1 / 2), -(1 / 2), inv_filling_height],
      [-half_r_center, -(1 / 2), inv_filling_height],
      [-r_center, -(1 / 2), inv_filling_height],
      [-(1 / 2), -half_r_center, inv_filling_height],
      [-half_r_center, -half_r_center, inv_filling_height],
      [-r_center, -half_r_center, inv_filling_height],
      [-(1 / 2), -r_center, inv_filling_height],
      [-half_r_center, -r_center, inv_filling_height],
      [-r_center, -r_center, inv_filling_height]])
  let branch_x_max_y_max_ctps : List (List K) := (shift [(1 / 2), (1 / 2), 0] [
      [branch_thickness, branch_thickness, 0],
      [seperator_distance, aux_column_width, 0],
      [(1 / 2), aux_column_width, 0],
      [aux_column_width, seperator_distance, 0],
      [seperator_distance, seperator_distance, 0],
      [(1 / 2), seperator_distance, 0],
      [aux_column_width, (1 / 2), 0],
      [seperator_distance, (1 / 2), 0],
      [(1 / 2), (1 / 2), 0],
      [branch_thickness, branch_thickness, ctps_mid_height_bottom],
      [seperator_distance, aux_column_width, ctps_mid_height_bottom],
      [(1 / 2), aux_column_width, ctps_mid_height_bottom],
      [aux_column_width, seperator_distance, ctps_mid_height_bottom],
      [seperator_distance, seperator_distance, ctps_mid_height_bottom],
      [(1 / 2), seperator_distance, ctps_mid_height_bottom],
      [aux_column_width, (1 / 2), ctps_mid_height_bottom],
      [seperator_distance, (1 / 2), ctps_mid_height_bottom],
      [(1 / 2), (1 / 2), ctps_mid_height_bottom],
      [r_center, r_center, inv_filling_height],
      [half_r_center, r_center, inv_filling_height],
      [(1 / 2), r_center, inv_filling_height],
      [r_center, half_r_center, inv_filling_height],
      [half_r_center, half_r_center, inv_filling_height],
      [(1 / 2), half_r_center, inv_filling_height],
      [r_center, (1 / 2), inv_filling_height],
      [half_r_center, (1 / 2), inv_filling_height],
      [(1 / 2), (1 / 2), inv_filling_height]])
  let branch_x_max_y_min_ctps : List (List K) := (shift [(1 / 2), (1 / 2), 0] [
      [aux_column_width, -(1 / 2), 0],
      [seperator_distance, -(1 / 2), 0],
      [(1 / 2), -(1 / 2), 0],
      [aux_column_width, -seperator_distance, 0],
      [seperator_distance, -seperator_distance, 0],
      [(1 / 2), -seperator_distance, 0],
      [branch_thickness, -branch_thickness, 0],
      [seperator_distance, -aux_column_width, 0],
      [(1 / 2), -aux_column_width, 0],
      [aux_column_width, -(1 / 2), ctps_mid_height_bottom],
      [seperator_distance, -(1 / 2), ctps_mid_height_bottom],
      [(1 / 2), -(1 / 2), ctps_mid_height_bottom],
      [aux_column_width, -seperator_distance, ctps_mid_height_bottom],
      [seperator_distance, -seperator_distance, ctps_mid_height_bottom],
      [(1 / 2), -seperator_distance, ctps_mid_height_bottom],
      [branch_thickness, -branch_thickness, ctps_mid_height_bottom],
      [seperator_distance, -aux_column_width, ctps_mid_height_bottom],
      [(1 / 2), -aux_column_width, ctps_mid_height_bottom],
      [r_center, -(1 / 2), inv_filling_height],
      [half_r_center, -(1 / 2), inv_filling_height],
      [(1 / 2), -(1 / 2), inv_filling_height],
      [r_center, -half_r_center, inv_filling_height],
      [half_r_center, -half_r_center, inv_filling_height],
      [(1 / 2), -half_r_center, inv_filling_height],
      [r_center, -r_center, inv_filling_height],
      [half_r_center, -r_center, inv_filling_height],
      [(1 / 2), -r_center, inv_filling_height]])
  let branch_x_min_y_max_ctps : List (List K) := (shift [(1 / 2), (1 / 2), 0] [
      [-(1 / 2), aux_column_width, 0],
      [-seperator_distance, aux_column_width, 0],
      [-branch_thickness, branch_thickness, 0],
      [-(1 / 2), seperator_distance, 0],
      [-seperator_distance, seperator_distance, 0],
      [-aux_column_width, seperator_distance, 0],
      [-(1 / 2), (1 / 2), 0],
      [-seperator_distance, (1 / 2), 0],
      [-aux_column_width, (1 / 2), 0],
      [-(1 / 2), aux_column_width, ctps_mid_height_bottom],
      [-seperator_distance, aux_column_width, ctps_mid_height_bottom],
      [-branch_thickness, branch_thickness, ctps_mid_height_bottom],
      [-(1 / 2), seperator_distance, ctps_mid_height_bottom],
      [-seperator_distance, seperator_distance, ctps_mid_height_bottom],
      [-aux_column_width, seperator_distance, ctps_mid_height_bottom],
      [-(1 / 2), (1 / 2), ctps_mid_height_bottom],
      [-seperator_distance, (1 / 2), ctps_mid_height_bottom],
      [-aux_column_width, (1 / 2), ctps_mid_height_bottom],
      [-(1 / 2), r_center, inv_filling_height],
      [-half_r_center, r_center, inv_filling_height],
      [-r_center, r_center, inv_filling_height],
      [-(1 / 2), half_r_center, inv_filling_height],
      [-half_r_center, half_r_center, inv_filling_height],
      [-r_center, half_r_center, inv_filling_height],
      [-(1 / 2), (1 / 2), inv_filling_height],
      [-half_r_center, (1 / 2), inv_filling_height],
      [-r_center, (1 / 2), inv_filling_height]])
  [ ⟨[2, 1, 2], branch_neighbor_x_min_ctps⟩,
    ⟨[2, 1, 2], branch_neighbor_x_max_ctps⟩,
    ⟨[1, 2, 2], branch_neighbor_y_min_ctps⟩,
    ⟨[1, 2, 2], branch_neighbor_y_max_ctps⟩,
    ⟨[2, 2, 2], branch_x_min_y_min_ctps⟩,
    ⟨[2, 2, 2], branch_x_max_y_max_ctps⟩,
    ⟨[2, 2, 2], branch_x_max_y_min_ctps⟩,
    ⟨[2, 2, 2], branch_x_min_y_max_ctps⟩ ]

/-- `Armadillo.create_tile`. `splinepy/microstructure/tiles/armadillo.py` 5114-5984. -/
def armadillo (v_zero v_one_half v_one v_wall_thickness v_half_contact_length v_inner_half_contact_length : K) : List (Patch K) :=
  let right : List (List K) := [
      [v_wall_thickness + v_one_half, (-v_inner_half_contact_length) + v_one_half, v_one_half + v_inner_half_contact_length],
      [v_one, (-v_half_contact_length) + v_one_half, v_one_half + v_half_contact_length],
      [v_wall_thickness + v_one_half, (-v_inner_half_contact_length) + v_one_half, v_one_half - v_inner_half_contact_length],
      [v_one, (-v_half_contact_length) + v_one_half, v_one_half - v_half_contact_length],
      [v_wall_thickness + v_one_half, v_inner_half_contact_length + v_one_half, v_one_half + v_inner_half_contact_length],
      [v_one, v_half_contact_length + v_one_half, v_one_half + v_half_contact_length],
      [v_wall_thickness + v_one_half, v_inner_half_contact_length + v_one_half, v_one_half - v_inner_half_contact_length],
      [v_one, v_half_contact_length + v_one_half, v_one_half - v_half_contact_length]]
  let connection_front_right : List (List K) := [
      [v_wall_thickness + v_one_half, v_inner_half_contact_length + v_one_half, v_one_half + v_inner_half_contact_length],
      [v_one, v_half_contact_length + v_one_half, v_one_half + v_half_contact_length],
      [v_wall_thickness + v_one_half, v_inner_half_contact_length + v_one_half, v_one_half - v_inner_half_contact_length],
      [v_one, v_half_contact_length + v_one_half, v_one_half - v_half_contact_length],
      [v_inner_half_contact_length + v_one_half, v_wall_thickness + v_one_half, v_one_half + v_inner_half_contact_length],
      [v_half_contact_length + v_one_half, v_one, v_one_half + v_half_contact_length],
      [v_inner_half_contact_length + v_one_half, v_wall_thickness + v_one_half, v_one_half - v_inner_half_contact_length],
      [v_half_contact_length + v_one_half, v_one, v_one_half - v_half_contact_length]]
  let front : List (List K) := [
      [v_inner_half_contact_length + v_one_half, v_wall_thickness + v_one_half, v_one_half + v_inner_half_contact_length],
      [v_half_contact_length + v_one_half, v_one, v_one_half + v_half_contact_length],
      [v_inner_half_contact_length + v_one_half, v_wall_thickness + v_one_half, v_one_half - v_inner_half_contact_length],
      [v_half_contact_length + v_one_half, v_one, v_one_half - v_half_contact_length],
      [(-v_inner_half_contact_length) + v_one_half, v_wall_thickness + v_one_half, v_one_half + v_inner_half_contact_length],
      [(-v_half_contact_length) + v_one_half, v_one, v_one_half + v_half_contact_length],
      [(-v_inner_half_contact_length) + v_one_half, v_wall_thickness + v_one_half, v_one_half - v_inner_half_contact_length],
      [(-v_half_contact_length) + v_one_half, v_one, v_one_half - v_half_contact_length]]
  let connection_back_left : List (List K) := [
      [(-v_wall_thickness) + v_one_half, (-v_inner_half_contact_length) + v_one_half, v_one_half + v_inner_half_contact_length],
      [v_zero, (-v_half_contact_length) + v_one_half, v_one_half + v_half_contact_length],
      [(-v_wall_thickness) + v_one_half, (-v_inner_half_contact_length) + v_one_half, v_one_half - v_inner_half_contact_length],
      [v_zero, (-v_half_contact_length) + v_one_half, v_one_half - v_half_contact_length],
      [(-v_inner_half_contact_length) + v_one_half, (-v_wall_thickness) + v_one_half, v_one_half + v_inner_half_contact_length],
      [(-v_half_contact_length) + v_one_half, v_zero, v_one_half + v_half_contact_length],
      [(-v_inner_half_contact_length) + v_one_half, (-v_wall_thickness) + v_one_half, v_one_half - v_inner_half_contact_length],
      [(-v_half_contact_length) + v_one_half, v_zero, v_one_half - v_half_contact_length]]
  let left : List (List K) := [
      [v_zero, (-v_half_contact_length) + v_one_half, v_one_half + v_half_contact_length],
      [(-v_wall_thickness) + v_one_half, (-v_inner_half_contact_length) + v_one_half, v_one_half + v_inner_half_contact_length],
      [v_zero, (-v_half_contact_length) + v_one_half, v_one_half - v_half_contact_length],
      [(-v_wall_thickness) + v_one_half, (-v_inner_half_contact_length) + v_one_half, v_one_half - v_inner_half_contact_length],
      [v_zero, v_half_contact_length + v_one_half, v_one_half + v_half_contact_length],
      [(-v_wall_thickness) + v_one_half, v_inner_half_contact_length + v_one_half, v_one_half + v_inner_half_contact_length],
      [v_zero, v_half_contact_length + v_one_half, v_one_half - v_half_contact_length],
      [(-v_wall_thickness) + v_one_half, v_inner_half_contact_length + v_one_half, v_one_half - v_inner_half_contact_length]]
  let connection_front_left : List (List K) := [
      [v_zero, v_half_contact_length + v_one_half, v_one_half + v_half_contact_length],
      [(-v_wall_thickness) + v_one_half, v_inner_half_contact_length + v_one_half, v_one_half + v_inner_half_contact_length],
      [v_zero, v_half_contact_length + v_one_half, v_one_half - v_half_contact_length],
      [(-v_wall_thickness) + v_one_half, v_inner_half_contact_length + v_one_half, v_one_half - v_inner_half_contact_length],
      [(-v_half_contact_length) + v_one_half, v_one, v_one_half + v_half_contact_length],
      [(-v_inner_half_contact_length) + v_one_half, v_wall_thickness + v_one_half, v_one_half + v_inner_half_contact_length],
      [(-v_half_contact_length) + v_one_half, v_one, v_one_half - v_half_contact_length],
      [(-v_inner_half_contact_length) + v_one_half, v_wall_thickness + v_one_half, v_one_half - v_inner_half_contact_length]]
  let back : List (List K) := [
      [v_half_contact_length + v_one_half, v_zero, v_one_half + v_half_contact_length],
      [v_inner_half_contact_length + v_one_half, (-v_wall_thickness) + v_one_half, v_one_half + v_inner_half_contact_length],
      [v_half_contact_length + v_one_half, v_zero, v_one_half - v_half_contact_length],
      [v_inner_half_contact_length + v_one_half, (-v_wall_thickness) + v_one_half, v_one_half - v_inner_half_contact_length],
      [(-v_half_contact_length) + v_one_half, v_zero, v_one_half + v_half_contact_length],
      [(-v_inner_half_contact_length) + v_one_half, (-v_wall_thickness) + v_one_half, v_one_half + v_inner_half_contact_length],
      [(-v_half_contact_length) + v_one_half, v_zero, v_one_half - v_half_contact_length],
      [(-v_inner_half_contact_length) + v_one_half, (-v_wall_thickness) + v_one_half, v_one_half - v_inner_half_contact_length]]
  let connection_back_right : List (List K) := [
      [v_inner_half_contact_length + v_one_half, (-v_wall_thickness) + v_one_half, v_one_half + v_inner_half_contact_length],
      [v_half_contact_length + v_one_half, v_zero, v_one_half + v_half_contact_length],
      [v_inner_half_contact_length + v_one_half, (-v_wall_thickness) + v_one_half, v_one_half - v_inner_half_contact_length],
      [v_half_contact_length + v_one_half, v_zero, v_one_half - v_half_contact_length],
      [v_wall_thickness + v_one_half, (-v_inner_half_contact_length) + v_one_half, v_one_half + v_inner_half_contact_length],
      [v_one, (-v_half_contact_length) + v_one_half, v_one_half + v_half_contact_length],
      [v_wall_thickness + v_one_half, (-v_inner_half_contact_length) + v_one_half, v_one_half - v_inner_half_contact_length],
      [v_one, (-v_half_contact_length) + v_one_half, v_one_half - v_half_contact_length]]
  let bottom : List (List K) := [
      [v_one_half + v_half_contact_length, v_one_half + v_half_contact_length, v_zero],
      [v_one_half - v_half_contact_length, v_one_half + v_half_contact_length, v_zero],
      [v_one_half + v_half_contact_length, v_one_half - v_half_contact_length, v_zero],
      [v_one_half - v_half_contact_length, v_one_half - v_half_contact_length, v_zero],
      [v_one_half + v_inner_half_contact_length, v_one_half + v_inner_half_contact_length, v_one_half - v_wall_thickness],
      [v_one_half - v_inner_half_contact_length, v_one_half + v_inner_half_contact_length, v_one_half - v_wall_thickness],
      [v_one_half + v_inner_half_contact_length, v_one_half - v_inner_half_contact_length, v_one_half - v_wall_thickness],
      [v_one_half - v_inner_half_contact_length, v_one_half - v_inner_half_contact_length, v_one_half - v_wall_thickness]]
  let top : List (List K) := [
      [v_one_half + v_inner_half_contact_length, v_one_half + v_inner_half_contact_length, v_one_half + v_wall_thickness],
      [v_one_half - v_inner_half_contact_length, v_one_half + v_inner_half_contact_length, v_one_half + v_wall_thickness],
      [v_one_half + v_inner_half_contact_length, v_one_half - v_inner_half_contact_length, v_one_half + v_wall_thickness],
      [v_one_half - v_inner_half_contact_length, v_one_half - v_inner_half_contact_length, v_one_half + v_wall_thickness],
      [v_one_half + v_half_contact_length, v_one_half + v_half_contact_length, v_one],
      [v_one_half - v_half_contact_length, v_one_half + v_half_contact_length, v_one],
      [v_one_half + v_half_contact_length, v_one_half - v_half_contact_length, v_one],
      [v_one_half - v_half_contact_length, v_one_half - v_half_contact_length, v_one]]
  let connection_front_bottom : List (List K) := [
      [v_half_contact_length + v_one_half, v_one, v_one_half - v_half_contact_length],
      [(-v_half_contact_length) + v_one_half, v_one, v_one_half - v_half_contact_length],
      [v_one_half + v_half_contact_length, v_one_half + v_half_contact_length, v_zero],
      [v_one_half - v_half_contact_length, v_one_half + v_half_contact_length, v_zero],
      [v_inner_half_contact_length + v_one_half, v_one_half + v_wall_thickness, v_one_half - v_inner_half_contact_length],
      [(-v_inner_half_contact_length) + v_one_half, v_one_half + v_wall_thickness, v_one_half - v_inner_half_contact_length],
      [v_one_half + v_inner_half_contact_length, v_one_half + v_inner_half_contact_length, v_one_half - v_wall_thickness],
      [v_one_half - v_inner_half_contact_length, v_one_half + v_inner_half_contact_length, v_one_half - v_wall_thickness]]
  let connection_front_top : List (List K) := [
      [v_half_contact_length + v_one_half, v_one, v_one_half + v_half_contact_length],
      [(-v_half_contact_length) + v_one_half, v_one, v_one_half + v_half_contact_length],
      [v_inner_half_contact_length + v_one_half, v_one_half + v_wall_thickness, v_one_half + v_inner_half_contact_length],
      [(-v_inner_half_contact_length) + v_one_half, v_one_half + v_wall_thickness, v_one_half + v_inner_half_contact_length],
      [v_one_half + v_half_contact_length, v_one_half + v_half_contact_length, v_one],
      [v_one_half - v_half_contact_length, v_one_half + v_half_contact_length, v_one],
      [v_one_half + v_inner_half_contact_length, v_one_half + v_inner_half_contact_length, v_one_half + v_wall_thickness],
      [v_one_half - v_inner_half_contact_length, v_one_half + v_inner_half_contact_length, v_one_half + v_wall_thickness]]
  let connection_back_bottom : List (List K) := [
      [v_one_half + v_half_contact_length, v_one_half - v_half_contact_length, v_zero],
      [v_one_half - v_half_contact_length, v_one_half - v_half_contact_length, v_zero],
      [v_one_half + v_half_contact_length, v_zero, v_one_half - v_half_contact_length],
      [v_one_half - v_half_contact_length, v_zero, v_one_half - v_half_contact_length],
      [v_one_half + v_inner_half_contact_length, v_one_half - v_inner_half_contact_length, v_one_half - v_wall_thickness],
      [v_one_half - v_inner_half_contact_length, v_one_half - v_inner_half_contact_length, v_one_half - v_wall_thickness],
      [v_inner_half_contact_length + v_one_half, v_one_half - v_wall_thickness, v_one_half - v_inner_half_contact_length],
      [(-v_inner_half_contact_length) + v_one_half, v_one_half - v_wall_thickness, v_one_half - v_inner_half_contact_length]]
  let connection_back_top : List (List K) := [
      [v_one_half + v_half_contact_length, v_one_half - v_half_contact_length, v_one],
      [v_one_half - v_half_contact_length, v_one_half - v_half_contact_length, v_one],
      [v_one_half + v_inner_half_contact_length, v_one_half - v_inner_half_contact_length, v_one_half + v_wall_thickness],
      [v_one_half - v_inner_half_contact_length, v_one_half - v_inner_half_contact_length, v_one_half + v_wall_thickness],
      [v_half_contact_length + v_one_half, v_zero, v_one_half + v_half_contact_length],
      [(-v_half_contact_length) + v_one_half, v_zero, v_one_half + v_half_contact_length],
      [v_inner_half_contact_length + v_one_half, v_one_half - v_wall_thickness, v_one_half + v_inner_half_contact_length],
      [(-v_inner_half_contact_length) + v_one_half, v_one_half - v_wall_thickness, v_one_half + v_inner_half_contact_length]]
  let connection_top_right : List (List K) := [
      [v_one_half + v_half_contact_length, v_one_half + v_half_contact_length, v_one],
      [v_one_half + v_half_contact_length, v_one_half - v_half_contact_length, v_one],
      [v_one_half + v_inner_half_contact_length, v_one_half + v_inner_half_contact_length, v_one_half + v_wall_thickness],
      [v_one_half + v_inner_half_contact_length, v_one_half - v_inner_half_contact_length, v_one_half + v_wall_thickness],
      [v_one, v_one_half + v_half_contact_length, v_one_half + v_half_contact_length],
      [v_one, v_one_half - v_half_contact_length, v_one_half + v_half_contact_length],
      [v_one_half + v_wall_thickness, v_one_half + v_inner_half_contact_length, v_one_half + v_inner_half_contact_length],
      [v_one_half + v_wall_thickness, v_one_half - v_inner_half_contact_length, v_one_half + v_inner_half_contact_length]]
  let connection_top_left : List (List K) := [
      [v_one_half - v_half_contact_length, v_one_half + v_half_contact_length, v_one],
      [v_one_half - v_half_contact_length, v_one_half - v_half_contact_length, v_one],
      [v_zero, v_one_half + v_half_contact_length, v_one_half + v_half_contact_length],
      [v_zero, v_one_half - v_half_contact_length, v_one_half + v_half_contact_length],
      [v_one_half - v_inner_half_contact_length, v_one_half + v_inner_half_contact_length, v_one_half + v_wall_thickness],
      [v_one_half - v_inner_half_contact_length, v_one_half - v_inner_half_contact_length, v_one_half + v_wall_thickness],
      [v_one_half - v_wall_thickness, v_one_half + v_inner_half_contact_length, v_one_half + v_inner_half_contact_length],
      [v_one_half - v_wall_thickness, v_one_half - v_inner_half_contact_length, v_one_half + v_inner_half_contact_length]]
  let connection_bottom_left : List (List K) := [
      [v_zero, v_one_half + v_half_contact_length, v_one_half - v_half_contact_length],
      [v_zero, v_one_half - v_half_contact_length, v_one_half - v_half_contact_length],
      [v_one_half - v_half_contact_length, v_one_half + v_half_contact_length, v_zero],
      [v_one_half - v_half_contact_length, v_one_half - v_half_contact_length, v_zero],
      [v_one_half - v_wall_thickness, v_one_half + v_inner_half_contact_length, v_one_half - v_inner_half_contact_length],
      [v_one_half - v_wall_thickness, v_one_half - v_inner_half_contact_length, v_one_half - v_inner_half_contact_length],
      [v_one_half - v_inner_half_contact_length, v_one_half + v_inner_half_contact_length, v_one_half - v_wall_thickness],
      [v_one_half - v_inner_half_contact_length, v_one_half - v_inner_half_contact_length, v_one_half - v_wall_thickness]]
  let connection_bottom_right : List (List K) := [
      [v_one, v_half_contact_length + v_one_half, v_one_half - v_half_contact_length],
      [v_one, (-v_half_contact_length) + v_one_half, v_one_half - v_half_contact_length],
      [v_wall_thickness + v_one_half, v_inner_half_contact_length + v_one_half, v_one_half - v_inner_half_contact_length],
      [v_wall_thickness + v_one_half, (-v_inner_half_contact_length) + v_one_half, v_one_half - v_inner_half_contact_length],
      [v_one_half + v_half_contact_length, v_one_half + v_half_contact_length, v_zero],
      [v_one_half + v_half_contact_length, v_one_half - v_half_contact_length, v_zero],
      [v_one_half + v_inner_half_contact_length, v_one_half + v_inner_half_contact_length, v_one_half - v_wall_thickness],
      [v_one_half + v_inner_half_contact_length, v_one_half - v_inner_half_contact_length, v_one_half - v_wall_thickness]]
  [ ⟨[1, 1, 1], right⟩,
    ⟨[1, 1, 1], connection_front_right⟩,
    ⟨[1, 1, 1], back⟩,
    ⟨[1, 1, 1], connection_back_left⟩,
    ⟨[1, 1, 1], left⟩,
    ⟨[1, 1, 1], connection_front_left⟩,
    ⟨[1, 1, 1], front⟩,
    ⟨[1, 1, 1], connection_back_right⟩,
    ⟨[1, 1, 1], bottom⟩,
    ⟨[1, 1, 1], top⟩,
    ⟨[1, 1, 1], connection_front_top⟩,
    ⟨[1, 1, 1], connection_front_bottom⟩,
    ⟨[1, 1, 1], connection_back_bottom⟩,
    ⟨[1, 1, 1], connection_back_top⟩,
    ⟨[1, 1, 1], connection_top_right⟩,
    ⟨[1, 1, 1], connection_top_left⟩,
    ⟨[1, 1, 1], connection_bottom_left⟩,
    ⟨[1, 1, 1], connection_bottom_right⟩ ]

/-- `Armadillo._closing_tile`. `splinepy/microstructure/tiles/armadillo.py` 97-907, 4970-5029. -/
def armadilloCloseXMin (v_zero v_one_half v_one v_wall_thickness v_half_contact_length v_inner_half_contact_length : K) : List (Patch K) :=
  let right : List (List K) := [
      [v_wall_thickness + v_one_half, (-v_inner_half_contact_length) + v_one_half, v_one_half + v_inner_half_contact_length],
      [v_one, (-v_half_contact_length) + v_one_half, v_one_half + v_half_contact_length],
      [v_wall_thickness + v_one_half, (-v_inner_half_contact_length) + v_one_half, v_one_half - v_inner_half_contact_length],
      [v_one, (-v_half_contact_length) + v_one_half, v_one_half - v_half_contact_length],
      [v_wall_thickness + v_one_half, v_inner_half_contact_length + v_one_half, v_one_half + v_inner_half_contact_length],
      [v_one, v_half_contact_length + v_one_half, v_one_half + v_half_contact_length],
      [v_wall_thickness + v_one_half, v_inner_half_contact_length + v_one_half, v_one_half - v_inner_half_contact_length],
      [v_one, v_half_contact_length + v_one_half, v_one_half - v_half_contact_length]]
  let connection_front_right : List (List K) := [
      [v_wall_thickness + v_one_half, v_inner_half_contact_length + v_one_half, v_one_half + v_inner_half_contact_length],
      [v_one, v_half_contact_length + v_one_half, v_one_half + v_half_contact_length],
      [v_wall_thickness + v_one_half, v_inner_half_contact_length + v_one_half, v_one_half - v_inner_half_contact_length],
      [v_one, v_half_contact_length + v_one_half, v_one_half - v_half_contact_length],
      [v_inner_half_contact_length + v_one_half, v_wall_thickness + v_one_half, v_one_half + v_inner_half_contact_length],
      [v_half_contact_length + v_one_half, v_one, v_one_half + v_half_contact_length],
      [v_inner_half_contact_length + v_one_half, v_wall_thickness + v_one_half, v_one_half - v_inner_half_contact_length],
      [v_half_contact_length + v_one_half, v_one, v_one_half - v_half_contact_length]]
  let front : List (List K) := [
      [v_inner_half_contact_length + v_one_half, v_wall_thickness + v_one_half, v_one_half + v_inner_half_contact_length],
      [v_half_contact_length + v_one_half, v_one, v_one_half + v_half_contact_length],
      [v_inner_half_contact_length + v_one_half, v_wall_thickness + v_one_half, v_one_half - v_inner_half_contact_length],
      [v_half_contact_length + v_one_half, v_one, v_one_half - v_half_contact_length],
      [(-v_inner_half_contact_length) + v_one_half, v_wall_thickness + v_one_half, v_one_half + v_inner_half_contact_length],
      [(-v_half_contact_length) + v_one_half, v_one, v_one_half + v_half_contact_length],
      [(-v_inner_half_contact_length) + v_one_half, v_wall_thickness + v_one_half, v_one_half - v_inner_half_contact_length],
      [(-v_half_contact_length) + v_one_half, v_one, v_one_half - v_half_contact_length]]
  let connection_back_left : List (List K) := [
      [(-v_wall_thickness) + v_one_half, (-v_inner_half_contact_length) + v_one_half, v_one_half + v_inner_half_contact_length],
      [v_zero, v_zero, v_one],
      [(-v_wall_thickness) + v_one_half, (-v_inner_half_contact_length) + v_one_half, v_one_half - v_inner_half_contact_length],
      [v_zero, v_zero, v_zero],
      [(-v_inner_half_contact_length) + v_one_half, (-v_wall_thickness) + v_one_half, v_one_half + v_inner_half_contact_length],
      [(-v_half_contact_length) + v_one_half, v_zero, v_one_half + v_half_contact_length],
      [(-v_inner_half_contact_length) + v_one_half, (-v_wall_thickness) + v_one_half, v_one_half - v_inner_half_contact_length],
      [(-v_half_contact_length) + v_one_half, v_zero, v_one_half - v_half_contact_length]]
  let left : List (List K) := [
      [v_zero, v_one, v_one],
      [(-v_wall_thickness) + v_one_half, (-v_inner_half_contact_length) + v_one_half, v_one_half + v_inner_half_contact_length],
      [v_zero, v_zero, v_one],
      [(-v_wall_thickness) + v_one_half, (-v_inner_half_contact_length) + v_one_half, v_one_half - v_inner_half_contact_length],
      [v_zero, v_one, v_zero],
      [(-v_wall_thickness) + v_one_half, v_inner_half_contact_length + v_one_half, v_one_half + v_inner_half_contact_length],
      [v_zero, v_zero, v_zero],
      [(-v_wall_thickness) + v_one_half, v_inner_half_contact_length + v_one_half, v_one_half - v_inner_half_contact_length]]
  let connection_front_left : List (List K) := [
      [v_zero, v_one, v_one],
      [(-v_wall_thickness) + v_one_half, v_inner_half_contact_length + v_one_half, v_one_half + v_inner_half_contact_length],
      [v_zero, v_one, v_zero],
      [(-v_wall_thickness) + v_one_half, v_inner_half_contact_length + v_one_half, v_one_half - v_inner_half_contact_length],
      [(-v_half_contact_length) + v_one_half, v_one, v_one_half + v_half_contact_length],
      [(-v_inner_half_contact_length) + v_one_half, v_wall_thickness + v_one_half, v_one_half + v_inner_half_contact_length],
      [(-v_half_contact_length) + v_one_half, v_one, v_one_half - v_half_contact_length],
      [(-v_inner_half_contact_length) + v_one_half, v_wall_thickness + v_one_half, v_one_half - v_inner_half_contact_length]]
  let back : List (List K) := [
      [v_half_contact_length + v_one_half, v_zero, v_one_half + v_half_contact_length],
      [v_inner_half_contact_length + v_one_half, (-v_wall_thickness) + v_one_half, v_one_half + v_inner_half_contact_length],
      [v_half_contact_length + v_one_half, v_zero, v_one_half - v_half_contact_length],
      [v_inner_half_contact_length + v_one_half, (-v_wall_thickness) + v_one_half, v_one_half - v_inner_half_contact_length],
      [(-v_half_contact_length) + v_one_half, v_zero, v_one_half + v_half_contact_length],
      [(-v_inner_half_contact_length) + v_one_half, (-v_wall_thickness) + v_one_half, v_one_half + v_inner_half_contact_length],
      [(-v_half_contact_length) + v_one_half, v_zero, v_one_half - v_half_contact_length],
      [(-v_inner_half_contact_length) + v_one_half, (-v_wall_thickness) + v_one_half, v_one_half - v_inner_half_contact_length]]
  let connection_back_right : List (List K) := [
      [v_inner_half_contact_length + v_one_half, (-v_wall_thickness) + v_one_half, v_one_half + v_inner_half_contact_length],
      [v_half_contact_length + v_one_half, v_zero, v_one_half + v_half_contact_length],
      [v_inner_half_contact_length + v_one_half, (-v_wall_thickness) + v_one_half, v_one_half - v_inner_half_contact_length],
      [v_half_contact_length + v_one_half, v_zero, v_one_half - v_half_contact_length],
      [v_wall_thickness + v_one_half, (-v_inner_half_contact_length) + v_one_half, v_one_half + v_inner_half_contact_length],
      [v_one, (-v_half_contact_length) + v_one_half, v_one_half + v_half_contact_length],
      [v_wall_thickness + v_one_half, (-v_inner_half_contact_length) + v_one_half, v_one_half - v_inner_half_contact_length],
      [v_one, (-v_half_contact_length) + v_one_half, v_one_half - v_half_contact_length]]
  let bottom : List (List K) := [
      [v_one_half + v_half_contact_length, v_one_half + v_half_contact_length, v_zero],
      [v_one_half - v_half_contact_length, v_one_half + v_half_contact_length, v_zero],
      [v_one_half + v_half_contact_length, v_one_half - v_half_contact_length, v_zero],
      [v_one_half - v_half_contact_length, v_one_half - v_half_contact_length, v_zero],
      [v_one_half + v_inner_half_contact_length, v_one_half + v_inner_half_contact_length, v_one_half - v_wall_thickness],
      [v_one_half - v_inner_half_contact_length, v_one_half + v_inner_half_contact_length, v_one_half - v_wall_thickness],
      [v_one_half + v_inner_half_contact_length, v_one_half - v_inner_half_contact_length, v_one_half - v_wall_thickness],
      [v_one_half - v_inner_half_contact_length, v_one_half - v_inner_half_contact_length, v_one_half - v_wall_thickness]]
  let top : List (List K) := [
      [v_one_half + v_inner_half_contact_length, v_one_half + v_inner_half_contact_length, v_one_half + v_wall_thickness],
      [v_one_half - v_inner_half_contact_length, v_one_half + v_inner_half_contact_length, v_one_half + v_wall_thickness],
      [v_one_half + v_inner_half_contact_length, v_one_half - v_inner_half_contact_length, v_one_half + v_wall_thickness],
      [v_one_half - v_inner_half_contact_length, v_one_half - v_inner_half_contact_length, v_one_half + v_wall_thickness],
      [v_one_half + v_half_contact_length, v_one_half + v_half_contact_length, v_one],
      [v_one_half - v_half_contact_length, v_one_half + v_half_contact_length, v_one],
      [v_one_half + v_half_contact_length, v_one_half - v_half_contact_length, v_one],
      [v_one_half - v_half_contact_length, v_one_half - v_half_contact_length, v_one]]
  let connection_front_bottom : List (List K) := [
      [v_half_contact_length + v_one_half, v_one, v_one_half - v_half_contact_length],
      [(-v_half_contact_length) + v_one_half, v_one, v_one_half - v_half_contact_length],
      [v_one_half + v_half_contact_length, v_one_half + v_half_contact_length, v_zero],
      [v_one_half - v_half_contact_length, v_one_half + v_half_contact_length, v_zero],
      [v_inner_half_contact_length + v_one_half, v_one_half + v_wall_thickness, v_one_half - v_inner_half_contact_length],
      [(-v_inner_half_contact_length) + v_one_half, v_one_half + v_wall_thickness, v_one_half - v_inner_half_contact_length],
      [v_one_half + v_inner_half_contact_length, v_one_half + v_inner_half_contact_length, v_one_half - v_wall_thickness],
      [v_one_half - v_inner_half_contact_length, v_one_half + v_inner_half_contact_length, v_one_half - v_wall_thickness]]
  let connection_front_top : List (List K) := [
      [v_half_contact_length + v_one_half, v_one, v_one_half + v_half_contact_length],
      [(-v_half_contact_length) + v_one_half, v_one, v_one_half + v_half_contact_length],
      [v_inner_half_contact_length + v_one_half, v_one_half + v_wall_thickness, v_one_half + v_inner_half_contact_length],
      [(-v_inner_half_contact_length) + v_one_half, v_one_half + v_wall_thickness, v_one_half + v_inner_half_contact_length],
      [v_one_half + v_half_contact_length, v_one_half + v_half_contact_length, v_one],
      [v_one_half - v_half_contact_length, v_one_half + v_half_contact_length, v_one],
      [v_one_half + v_inner_half_contact_length, v_one_half + v_inner_half_contact_length, v_one_half + v_wall_thickness],
      [v_one_half - v_inner_half_contact_length, v_one_half + v_inner_half_contact_length, v_one_half + v_wall_thickness]]
  let connection_back_bottom : List (List K) := [
      [v_one_half + v_half_contact_length, v_one_half - v_half_contact_length, v_zero],
      [v_one_half - v_half_contact_length, v_one_half - v_half_contact_length, v_zero],
      [v_one_half + v_half_contact_length, v_zero, v_one_half - v_half_contact_length],
      [v_one_half - v_half_contact_length, v_zero, v_one_half - v_half_contact_length],
      [v_one_half + v_inner_half_contact_length, v_one_half - v_inner_half_contact_length, v_one_half - v_wall_thickness],
      [v_one_half - v_inner_half_contact_length, v_one_half - v_inner_half_contact_length, v_one_half - v_wall_thickness],
      [v_inner_half_contact_length + v_one_half, v_one_half - v_wall_thickness, v_one_half - v_inner_half_contact_length],
      [(-v_inner_half_contact_length) + v_one_half, v_one_half - v_wall_thickness, v_one_half - v_inner_half_contact_length]]
  let connection_back_top : List (List K) := [
      [v_one_half + v_half_contact_length, v_one_half - v_half_contact_length, v_one],
      [v_one_half - v_half_contact_length, v_one_half - v_half_contact_length, v_one],
      [v_one_half + v_inner_half_contact_length, v_one_half - v_inner_half_contact_length, v_one_half + v_wall_thickness],
      [v_one_half - v_inner_half_contact_length, v_one_half - v_inner_half_contact_length, v_one_half + v_wall_thickness],
      [v_half_contact_length + v_one_half, v_zero, v_one_half + v_half_contact_length],
      [(-v_half_contact_length) + v_one_half, v_zero, v_one_half + v_half_contact_length],
      [v_inner_half_contact_length + v_one_half, v_one_half - v_wall_thickness, v_one_half + v_inner_half_contact_length],
      [(-v_inner_half_contact_length) + v_one_half, v_one_half - v_wall_thickness, v_one_half + v_inner_half_contact_length]]
  let connection_top_right : List (List K) := [
      [v_one_half + v_half_contact_length, v_one_half + v_half_contact_length, v_one],
      [v_one_half + v_half_contact_length, v_one_half - v_half_contact_length, v_one],
      [v_one_half + v_inner_half_contact_length, v_one_half + v_inner_half_contact_length, v_one_half + v_wall_thickness],
      [v_one_half + v_inner_half_contact_length, v_one_half - v_inner_half_contact_length, v_one_half + v_wall_thickness],
      [v_one, v_one_half + v_half_contact_length, v_one_half + v_half_contact_length],
      [v_one, v_one_half - v_half_contact_length, v_one_half + v_half_contact_length],
      [v_one_half + v_wall_thickness, v_one_half + v_inner_half_contact_length, v_one_half + v_inner_half_contact_length],
      [v_one_half + v_wall_thickness, v_one_half - v_inner_half_contact_length, v_one_half + v_inner_half_contact_length]]
  let connection_top_left : List (List K) := [
      [v_one_half - v_half_contact_length, v_one_half + v_half_contact_length, v_one],
      [v_one_half - v_half_contact_length, v_one_half - v_half_contact_length, v_one],
      [v_zero, v_one, v_one],
      [v_zero, v_zero, v_one],
      [v_one_half - v_inner_half_contact_length, v_one_half + v_inner_half_contact_length, v_one_half + v_wall_thickness],
      [v_one_half - v_inner_half_contact_length, v_one_half - v_inner_half_contact_length, v_one_half + v_wall_thickness],
      [v_one_half - v_wall_thickness, v_one_half + v_inner_half_contact_length, v_one_half + v_inner_half_contact_length],
      [v_one_half - v_wall_thickness, v_one_half - v_inner_half_contact_length, v_one_half + v_inner_half_contact_length]]
  let connection_bottom_left : List (List K) := [
      [v_zero, v_one, v_zero],
      [v_zero, v_zero, v_zero],
      [v_one_half - v_half_contact_length, v_one_half + v_half_contact_length, v_zero],
      [v_one_half - v_half_contact_length, v_one_half - v_half_contact_length, v_zero],
      [v_one_half - v_wall_thickness, v_one_half + v_inner_half_contact_length, v_one_half - v_inner_half_contact_length],
      [v_one_half - v_wall_thickness, v_one_half - v_inner_half_contact_length, v_one_half - v_inner_half_contact_length],
      [v_one_half - v_inner_half_contact_length, v_one_half + v_inner_half_contact_length, v_one_half - v_wall_thickness],
      [v_one_half - v_inner_half_contact_length, v_one_half - v_inner_half_contact_length, v_one_half - v_wall_thickness]]
  let connection_bottom_right : List (List K) := [
      [v_one, v_half_contact_length + v_one_half, v_one_half - v_half_contact_length],
      [v_one, (-v_half_contact_length) + v_one_half, v_one_half - v_half_contact_length],
      [v_wall_thickness + v_one_half, v_inner_half_contact_length + v_one_half, v_one_half - v_inner_half_contact_length],
      [v_wall_thickness + v_one_half, (-v_inner_half_contact_length) + v_one_half, v_one_half - v_inner_half_contact_length],
      [v_one_half + v_half_contact_length, v_one_half + v_half_contact_length, v_zero],
      [v_one_half + v_half_contact_length, v_one_half - v_half_contact_length, v_zero],
      [v_one_half + v_inner_half_contact_length, v_one_half + v_inner_half_contact_length, v_one_half - v_wall_thickness],
      [v_one_half + v_inner_half_contact_length, v_one_half - v_inner_half_contact_length, v_one_half - v_wall_thickness]]
  [ ⟨[1, 1, 1], connection_bottom_left⟩,
    ⟨[1, 1, 1], connection_bottom_right⟩,
    ⟨[1, 1, 1], connection_back_bottom⟩,
    ⟨[1, 1, 1], connection_front_bottom⟩,
    ⟨[1, 1, 1], connection_front_top⟩,
    ⟨[1, 1, 1], connection_back_top⟩,
    ⟨[1, 1, 1], connection_top_right⟩,
    ⟨[1, 1, 1], connection_front_left⟩,
    ⟨[1, 1, 1], right⟩,
    ⟨[1, 1, 1], connection_front_right⟩,
    ⟨[1, 1, 1], back⟩,
    ⟨[1, 1, 1], connection_back_left⟩,
    ⟨[1, 1, 1], left⟩,
    ⟨[1, 1, 1], connection_top_left⟩,
    ⟨[1, 1, 1], front⟩,
    ⟨[1, 1, 1], connection_back_right⟩,
    ⟨[1, 1, 1], bottom⟩,
    ⟨[1, 1, 1], top⟩ ]

/-- `Armadillo._closing_tile`. `splinepy/microstructure/tiles/armadillo.py` 909-1719, 4970-5029. -/
def armadilloCloseXMax (v_zero v_one_half v_one v_wall_thickness v_half_contact_length v_inner_half_contact_length : K) : List (Patch K) :=
  let right : List (List K) := [
      [v_wall_thickness + v_one_half, (-v_inner_half_contact_length) + v_one_half, v_one_half + v_inner_half_contact_length],
      [v_one, v_zero, v_one],
      [v_wall_thickness + v_one_half, (-v_inner_half_contact_length) + v_one_half, v_one_half - v_inner_half_contact_length],
      [v_one, v_zero, v_zero],
      [v_wall_thickness + v_one_half, v_inner_half_contact_length + v_one_half, v_one_half + v_inner_half_contact_length],
      [v_one, v_one, v_one],
      [v_wall_thickness + v_one_half, v_inner_half_contact_length + v_one_half, v_one_half - v_inner_half_contact_length],
      [v_one, v_one, v_zero]]
  let connection_front_right : List (List K) := [
      [v_wall_thickness + v_one_half, v_inner_half_contact_length + v_one_half, v_one_half + v_inner_half_contact_length],
      [v_one, v_one, v_one],
      [v_wall_thickness + v_one_half, v_inner_half_contact_length + v_one_half, v_one_half - v_inner_half_contact_length],
      [v_one, v_one, v_zero],
      [v_inner_half_contact_length + v_one_half, v_wall_thickness + v_one_half, v_one_half + v_inner_half_contact_length],
      [v_half_contact_length + v_one_half, v_one, v_one_half + v_half_contact_length],
      [v_inner_half_contact_length + v_one_half, v_wall_thickness + v_one_half, v_one_half - v_inner_half_contact_length],
      [v_half_contact_length + v_one_half, v_one, v_one_half - v_half_contact_length]]
  let front : List (List K) := [
      [v_inner_half_contact_length + v_one_half, v_wall_thickness + v_one_half, v_one_half + v_inner_half_contact_length],
      [v_half_contact_length + v_one_half, v_one, v_one_half + v_half_contact_length],
      [v_inner_half_contact_length + v_one_half, v_wall_thickness + v_one_half, v_one_half - v_inner_half_contact_length],
      [v_half_contact_length + v_one_half, v_one, v_one_half - v_half_contact_length],
      [(-v_inner_half_contact_length) + v_one_half, v_wall_thickness + v_one_half, v_one_half + v_inner_half_contact_length],
      [(-v_half_contact_length) + v_one_half, v_one, v_one_half + v_half_contact_length],
      [(-v_inner_half_contact_length) + v_one_half, v_wall_thickness + v_one_half, v_one_half - v_inner_half_contact_length],
      [(-v_half_contact_length) + v_one_half, v_one, v_one_half - v_half_contact_length]]
  let connection_back_left : List (List K) := [
      [(-v_wall_thickness) + v_one_half, (-v_inner_half_contact_length) + v_one_half, v_one_half + v_inner_half_contact_length],
      [v_zero, (-v_half_contact_length) + v_one_half, v_one_half + v_half_contact_length],
      [(-v_wall_thickness) + v_one_half, (-v_inner_half_contact_length) + v_one_half, v_one_half - v_inner_half_contact_length],
      [v_zero, (-v_half_contact_length) + v_one_half, v_one_half - v_half_contact_length],
      [(-v_inner_half_contact_length) + v_one_half, (-v_wall_thickness) + v_one_half, v_one_half + v_inner_half_contact_length],
      [(-v_half_contact_length) + v_one_half, v_zero, v_one_half + v_half_contact_length],
      [(-v_inner_half_contact_length) + v_one_half, (-v_wall_thickness) + v_one_half, v_one_half - v_inner_half_contact_length],
      [(-v_half_contact_length) + v_one_half, v_zero, v_one_half - v_half_contact_length]]
  let left : List (List K) := [
      [v_zero, (-v_half_contact_length) + v_one_half, v_one_half + v_half_contact_length],
      [(-v_wall_thickness) + v_one_half, (-v_inner_half_contact_length) + v_one_half, v_one_half + v_inner_half_contact_length],
      [v_zero, (-v_half_contact_length) + v_one_half, v_one_half - v_half_contact_length],
      [(-v_wall_thickness) + v_one_half, (-v_inner_half_contact_length) + v_one_half, v_one_half - v_inner_half_contact_length],
      [v_zero, v_half_contact_length + v_one_half, v_one_half + v_half_contact_length],
      [(-v_wall_thickness) + v_one_half, v_inner_half_contact_length + v_one_half, v_one_half + v_inner_half_contact_length],
      [v_zero, v_half_contact_length + v_one_half, v_one_half - v_half_contact_length],
      [(-v_wall_thickness) + v_one_half, v_inner_half_contact_length + v_one_half, v_one_half - v_inner_half_contact_length]]
  let connection_front_left : List (List K) := [
      [v_zero, v_half_contact_length + v_one_half, v_one_half + v_half_contact_length],
      [(-v_wall_thickness) + v_one_half, v_inner_half_contact_length + v_one_half, v_one_half + v_inner_half_contact_length],
      [v_zero, v_half_contact_length + v_one_half, v_one_half - v_half_contact_length],
      [(-v_wall_thickness) + v_one_half, v_inner_half_contact_length + v_one_half, v_one_half - v_inner_half_contact_length],
      [(-v_half_contact_length) + v_one_half, v_one, v_one_half + v_half_contact_length],
      [(-v_inner_half_contact_length) + v_one_half, v_wall_thickness + v_one_half, v_one_half + v_inner_half_contact_length],
      [(-v_half_contact_length) + v_one_half, v_one, v_one_half - v_half_contact_length],
      [(-v_inner_half_contact_length) + v_one_half, v_wall_thickness + v_one_half, v_one_half - v_inner_half_contact_length]]
  let back : List (List K) := [
      [v_half_contact_length + v_one_half, v_zero, v_one_half + v_half_contact_length],
      [v_inner_half_contact_length + v_one_half, (-v_wall_thickness) + v_one_half, v_one_half + v_inner_half_contact_length],
      [v_half_contact_length + v_one_half, v_zero, v_one_half - v_half_contact_length],
      [v_inner_half_contact_length + v_one_half, (-v_wall_thickness) + v_one_half, v_one_half - v_inner_half_contact_length],
      [(-v_half_contact_length) + v_one_half, v_zero, v_one_half + v_half_contact_length],
      [(-v_inner_half_contact_length) + v_one_half, (-v_wall_thickness) + v_one_half, v_one_half + v_inner_half_contact_length],
      [(-v_half_contact_length) + v_one_half, v_zero, v_one_half - v_half_contact_length],
      [(-v_inner_half_contact_length) + v_one_half, (-v_wall_thickness) + v_one_half, v_one_half - v_inner_half_contact_length]]
  let connection_back_right : List (List K) := [
      [v_inner_half_contact_length + v_one_half, (-v_wall_thickness) + v_one_half, v_one_half + v_inner_half_contact_length],
      [v_half_contact_length + v_one_half, v_zero, v_one_half + v_half_contact_length],
      [v_inner_half_contact_length + v_one_half, (-v_wall_thickness) + v_one_half, v_one_half - v_inner_half_contact_length],
      [v_half_contact_length + v_one_half, v_zero, v_one_half - v_half_contact_length],
      [v_wall_thickness + v_one_half, (-v_inner_half_contact_length) + v_one_half, v_one_half + v_inner_half_contact_length],
      [v_one, v_zero, v_one],
      [v_wall_thickness + v_one_half, (-v_inner_half_contact_length) + v_one_half, v_one_half - v_inner_half_contact_length],
      [v_one, v_zero, v_zero]]
  let bottom : List (List K) := [
      [v_one_half + v_half_contact_length, v_one_half + v_half_contact_length, v_zero],
      [v_one_half - v_half_contact_length, v_one_half + v_half_contact_length, v_zero],
      [v_one_half + v_half_contact_length, v_one_half - v_half_contact_length, v_zero],
      [v_one_half - v_half_contact_length, v_one_half - v_half_contact_length, v_zero],
      [v_one_half + v_inner_half_contact_length, v_one_half + v_inner_half_contact_length, v_one_half - v_wall_thickness],
      [v_one_half - v_inner_half_contact_length, v_one_half + v_inner_half_contact_length, v_one_half - v_wall_thickness],
      [v_one_half + v_inner_half_contact_length, v_one_half - v_inner_half_contact_length, v_one_half - v_wall_thickness],
      [v_one_half - v_inner_half_contact_length, v_one_half - v_inner_half_contact_length, v_one_half - v_wall_thickness]]
  let top : List (List K) := [
      [v_one_half + v_inner_half_contact_length, v_one_half + v_inner_half_contact_length, v_one_half + v_wall_thickness],
      [v_one_half - v_inner_half_contact_length, v_one_half + v_inner_half_contact_length, v_one_half + v_wall_thickness],
      [v_one_half + v_inner_half_contact_length, v_one_half - v_inner_half_contact_length, v_one_half + v_wall_thickness],
      [v_one_half - v_inner_half_contact_length, v_one_half - v_inner_half_contact_length, v_one_half + v_wall_thickness],
      [v_one_half + v_half_contact_length, v_one_half + v_half_contact_length, v_one],
      [v_one_half - v_half_contact_length, v_one_half + v_half_contact_length, v_one],
      [v_one_half + v_half_contact_length, v_one_half - v_half_contact_length, v_one],
      [v_one_half - v_half_contact_length, v_one_half - v_half_contact_length, v_one]]
  let connection_front_bottom : List (List K) := [
      [v_half_contact_length + v_one_half, v_one, v_one_half - v_half_contact_length],
      [(-v_half_contact_length) + v_one_half, v_one, v_one_half - v_half_contact_length],
      [v_one_half + v_half_contact_length, v_one_half + v_half_contact_length, v_zero],
      [v_one_half - v_half_contact_length, v_one_half + v_half_contact_length, v_zero],
      [v_inner_half_contact_length + v_one_half, v_one_half + v_wall_thickness, v_one_half - v_inner_half_contact_length],
      [(-v_inner_half_contact_length) + v_one_half, v_one_half + v_wall_thickness, v_one_half - v_inner_half_contact_length],
      [v_one_half + v_inner_half_contact_length, v_one_half + v_inner_half_contact_length, v_one_half - v_wall_thickness],
      [v_one_half - v_inner_half_contact_length, v_one_half + v_inner_half_contact_length, v_one_half - v_wall_thickness]]
  let connection_front_top : List (List K) := [
      [v_half_contact_length + v_one_half, v_one, v_one_half + v_half_contact_length],
      [(-v_half_contact_length) + v_one_half, v_one, v_one_half + v_half_contact_length],
      [v_inner_half_contact_length + v_one_half, v_one_half + v_wall_thickness, v_one_half + v_inner_half_contact_length],
      [(-v_inner_half_contact_length) + v_one_half, v_one_half + v_wall_thickness, v_one_half + v_inner_half_contact_length],
      [v_one_half + v_half_contact_length, v_one_half + v_half_contact_length, v_one],
      [v_one_half - v_half_contact_length, v_one_half + v_half_contact_length, v_one],
      [v_one_half + v_inner_half_contact_length, v_one_half + v_inner_half_contact_length, v_one_half + v_wall_thickness],
      [v_one_half - v_inner_half_contact_length, v_one_half + v_inner_half_contact_length, v_one_half + v_wall_thickness]]
  let connection_back_bottom : List (List K) := [
      [v_one_half + v_half_contact_length, v_one_half - v_half_contact_length, v_zero],
      [v_one_half - v_half_contact_length, v_one_half - v_half_contact_length, v_zero],
      [v_one_half + v_half_contact_length, v_zero, v_one_half - v_half_contact_length],
      [v_one_half - v_half_contact_length, v_zero, v_one_half - v_half_contact_length],
      [v_one_half + v_inner_half_contact_length, v_one_half - v_inner_half_contact_length, v_one_half - v_wall_thickness],
      [v_one_half - v_inner_half_contact_length, v_one_half - v_inner_half_contact_length, v_one_half - v_wall_thickness],
      [v_inner_half_contact_length + v_one_half, v_one_half - v_wall_thickness, v_one_half - v_inner_half_contact_length],
      [(-v_inner_half_contact_length) + v_one_half, v_one_half - v_wall_thickness, v_one_half - v_inner_half_contact_length]]
  let connection_back_top : List (List K) := [
      [v_one_half + v_half_contact_length, v_one_half - v_half_contact_length, v_one],
      [v_one_half - v_half_contact_length, v_one_half - v_half_contact_length, v_one],
      [v_one_half + v_inner_half_contact_length, v_one_half - v_inner_half_contact_length, v_one_half + v_wall_thickness],
      [v_one_half - v_inner_half_contact_length, v_one_half - v_inner_half_contact_length, v_one_half + v_wall_thickness],
      [v_half_contact_length + v_one_half, v_zero, v_one_half + v_half_contact_length],
      [(-v_half_contact_length) + v_one_half, v_zero, v_one_half + v_half_contact_length],
      [v_inner_half_contact_length + v_one_half, v_one_half - v_wall_thickness, v_one_half + v_inner_half_contact_length],
      [(-v_inner_half_contact_length) + v_one_half, v_one_half - v_wall_thickness, v_one_half + v_inner_half_contact_length]]
  let connection_top_right : List (List K) := [
      [v_one_half + v_half_contact_length, v_one_half + v_half_contact_length, v_one],
      [v_one_half + v_half_contact_length, v_one_half - v_half_contact_length, v_one],
      [v_one_half + v_inner_half_contact_length, v_one_half + v_inner_half_contact_length, v_one_half + v_wall_thickness],
      [v_one_half + v_inner_half_contact_length, v_one_half - v_inner_half_contact_length, v_one_half + v_wall_thickness],
      [v_one, v_one, v_one],
      [v_one, v_zero, v_one],
      [v_one_half + v_wall_thickness, v_one_half + v_inner_half_contact_length, v_one_half + v_inner_half_contact_length],
      [v_one_half + v_wall_thickness, v_one_half - v_inner_half_contact_length, v_one_half + v_inner_half_contact_length]]
  let connection_top_left : List (List K) := [
      [v_one_half - v_half_contact_length, v_one_half + v_half_contact_length, v_one],
      [v_one_half - v_half_contact_length, v_one_half - v_half_contact_length, v_one],
      [v_zero, v_one_half + v_half_contact_length, v_one_half + v_half_contact_length],
      [v_zero, v_one_half - v_half_contact_length, v_one_half + v_half_contact_length],
      [v_one_half - v_inner_half_contact_length, v_one_half + v_inner_half_contact_length, v_one_half + v_wall_thickness],
      [v_one_half - v_inner_half_contact_length, v_one_half - v_inner_half_contact_length, v_one_half + v_wall_thickness],
      [v_one_half - v_wall_thickness, v_one_half + v_inner_half_contact_length, v_one_half + v_inner_half_contact_length],
      [v_one_half - v_wall_thickness, v_one_half - v_inner_half_contact_length, v_one_half + v_inner_half_contact_length]]
  let connection_bottom_left : List (List K) := [
      [v_zero, v_one_half + v_half_contact_length, v_one_half - v_half_contact_length],
      [v_zero, v_one_half - v_half_contact_length, v_one_half - v_half_contact_length],
      [v_one_half - v_half_contact_length, v_one_half + v_half_contact_length, v_zero],
      [v_one_half - v_half_contact_length, v_one_half - v_half_contact_length, v_zero],
      [v_one_half - v_wall_thickness, v_one_half + v_inner_half_contact_length, v_one_half - v_inner_half_contact_length],
      [v_one_half - v_wall_thickness, v_one_half - v_inner_half_contact_length, v_one_half - v_inner_half_contact_length],
      [v_one_half - v_inner_half_contact_length, v_one_half + v_inner_half_contact_length, v_one_half - v_wall_thickness],
      [v_one_half - v_inner_half_contact_length, v_one_half - v_inner_half_contact_length, v_one_half - v_wall_thickness]]
  let connection_bottom_right : List (List K) := [
      [v_one, v_one, v_zero],
      [v_one, v_zero, v_zero],
      [v_wall_thickness + v_one_half, v_inner_half_contact_length + v_one_half, v_one_half - v_inner_half_contact_length],
      [v_wall_thickness + v_one_half, (-v_inner_half_contact_length) + v_one_half, v_one_half - v_inner_half_contact_length],
      [v_one_half + v_half_contact_length, v_one_half + v_half_contact_length, v_zero],
      [v_one_half + v_half_contact_length, v_one_half - v_half_contact_length, v_zero],
      [v_one_half + v_inner_half_contact_length, v_one_half + v_inner_half_contact_length, v_one_half - v_wall_thickness],
      [v_one_half + v_inner_half_contact_length, v_one_half - v_inner_half_contact_length, v_one_half - v_wall_thickness]]
  [ ⟨[1, 1, 1], connection_bottom_left⟩,
    ⟨[1, 1, 1], connection_bottom_right⟩,
    ⟨[1, 1, 1], connection_back_bottom⟩,
    ⟨[1, 1, 1], connection_front_bottom⟩,
    ⟨[1, 1, 1], connection_front_top⟩,
    ⟨[1, 1, 1], connection_back_top⟩,
    ⟨[1, 1, 1], connection_top_right⟩,
    ⟨[1, 1, 1], connection_front_left⟩,
    ⟨[1, 1, 1], right⟩,
    ⟨[1, 1, 1], connection_front_right⟩,
    ⟨[1, 1, 1], back⟩,
    ⟨[1, 1, 1], connection_back_left⟩,
    ⟨[1, 1, 1], left⟩,
    ⟨[1, 1, 1], connection_top_left⟩,
    ⟨[1, 1, 1], front⟩,
    ⟨[1, 1, 1], connection_back_right⟩,
    ⟨[1, 1, 1], bottom⟩,
    ⟨[1, 1, 1], top⟩ ]

/-- `Armadillo._closing_tile`. `splinepy/microstructure/tiles/armadillo.py` 1721-2531, 4970-5029. -/
def armadilloCloseYMin (v_zero v_one_half v_one v_wall_thickness v_half_contact_length v_inner_half_contact_length : K) : List (Patch K) :=
  let right : List (List K) := [
      [v_wall_thickness + v_one_half, (-v_inner_half_contact_length) + v_one_half, v_one_half + v_inner_half_contact_length],
      [v_one, (-v_half_contact_length) + v_one_half, v_one_half + v_half_contact_length],
      [v_wall_thickness + v_one_half, (-v_inner_half_contact_length) + v_one_half, v_one_half - v_inner_half_contact_length],
      [v_one, (-v_half_contact_length) + v_one_half, v_one_half - v_half_contact_length],
      [v_wall_thickness + v_one_half, v_inner_half_contact_length + v_one_half, v_one_half + v_inner_half_contact_length],
      [v_one, v_half_contact_length + v_one_half, v_one_half + v_half_contact_length],
      [v_wall_thickness + v_one_half, v_inner_half_contact_length + v_one_half, v_one_half - v_inner_half_contact_length],
      [v_one, v_half_contact_length + v_one_half, v_one_half - v_half_contact_length]]
  let connection_front_right : List (List K) := [
      [v_wall_thickness + v_one_half, v_inner_half_contact_length + v_one_half, v_one_half + v_inner_half_contact_length],
      [v_one, v_half_contact_length + v_one_half, v_one_half + v_half_contact_length],
      [v_wall_thickness + v_one_half, v_inner_half_contact_length + v_one_half, v_one_half - v_inner_half_contact_length],
      [v_one, v_half_contact_length + v_one_half, v_one_half - v_half_contact_length],
      [v_inner_half_contact_length + v_one_half, v_wall_thickness + v_one_half, v_one_half + v_inner_half_contact_length],
      [v_half_contact_length + v_one_half, v_one, v_one_half + v_half_contact_length],
      [v_inner_half_contact_length + v_one_half, v_wall_thickness + v_one_half, v_one_half - v_inner_half_contact_length],
      [v_half_contact_length + v_one_half, v_one, v_one_half - v_half_contact_length]]
  let front : List (List K) := [
      [v_inner_half_contact_length + v_one_half, v_wall_thickness + v_one_half, v_one_half + v_inner_half_contact_length],
      [v_half_contact_length + v_one_half, v_one, v_one_half + v_half_contact_length],
      [v_inner_half_contact_length + v_one_half, v_wall_thickness + v_one_half, v_one_half - v_inner_half_contact_length],
      [v_half_contact_length + v_one_half, v_one, v_one_half - v_half_contact_length],
      [(-v_inner_half_contact_length) + v_one_half, v_wall_thickness + v_one_half, v_one_half + v_inner_half_contact_length],
      [(-v_half_contact_length) + v_one_half, v_one, v_one_half + v_half_contact_length],
      [(-v_inner_half_contact_length) + v_one_half, v_wall_thickness + v_one_half, v_one_half - v_inner_half_contact_length],
      [(-v_half_contact_length) + v_one_half, v_one, v_one_half - v_half_contact_length]]
  let connection_back_left : List (List K) := [
      [(-v_wall_thickness) + v_one_half, (-v_inner_half_contact_length) + v_one_half, v_one_half + v_inner_half_contact_length],
      [v_zero, (-v_half_contact_length) + v_one_half, v_one_half + v_half_contact_length],
      [(-v_wall_thickness) + v_one_half, (-v_inner_half_contact_length) + v_one_half, v_one_half - v_inner_half_contact_length],
      [v_zero, (-v_half_contact_length) + v_one_half, v_one_half - v_half_contact_length],
      [(-v_inner_half_contact_length) + v_one_half, (-v_wall_thickness) + v_one_half, v_one_half + v_inner_half_contact_length],
      [v_zero, v_zero, v_one],
      [(-v_inner_half_contact_length) + v_one_half, (-v_wall_thickness) + v_one_half, v_one_half - v_inner_half_contact_length],
      [v_zero, v_zero, v_zero]]
  let left : List (List K) := [
      [v_zero, (-v_half_contact_length) + v_one_half, v_one_half + v_half_contact_length],
      [(-v_wall_thickness) + v_one_half, (-v_inner_half_contact_length) + v_one_half, v_one_half + v_inner_half_contact_length],
      [v_zero, (-v_half_contact_length) + v_one_half, v_one_half - v_half_contact_length],
      [(-v_wall_thickness) + v_one_half, (-v_inner_half_contact_length) + v_one_half, v_one_half - v_inner_half_contact_length],
      [v_zero, v_half_contact_length + v_one_half, v_one_half + v_half_contact_length],
      [(-v_wall_thickness) + v_one_half, v_inner_half_contact_length + v_one_half, v_one_half + v_inner_half_contact_length],
      [v_zero, v_half_contact_length + v_one_half, v_one_half - v_half_contact_length],
      [(-v_wall_thickness) + v_one_half, v_inner_half_contact_length + v_one_half, v_one_half - v_inner_half_contact_length]]
  let connection_front_left : List (List K) := [
      [v_zero, v_half_contact_length + v_one_half, v_one_half + v_half_contact_length],
      [(-v_wall_thickness) + v_one_half, v_inner_half_contact_length + v_one_half, v_one_half + v_inner_half_contact_length],
      [v_zero, v_half_contact_length + v_one_half, v_one_half - v_half_contact_length],
      [(-v_wall_thickness) + v_one_half, v_inner_half_contact_length + v_one_half, v_one_half - v_inner_half_contact_length],
      [(-v_half_contact_length) + v_one_half, v_one, v_one_half + v_half_contact_length],
      [(-v_inner_half_contact_length) + v_one_half, v_wall_thickness + v_one_half, v_one_half + v_inner_half_contact_length],
      [(-v_half_contact_length) + v_one_half, v_one, v_one_half - v_half_contact_length],
      [(-v_inner_half_contact_length) + v_one_half, v_wall_thickness + v_one_half, v_one_half - v_inner_half_contact_length]]
  let back : List (List K) := [
      [v_one, v_zero, v_one],
      [v_inner_half_contact_length + v_one_half, (-v_wall_thickness) + v_one_half, v_one_half + v_inner_half_contact_length],
      [v_one, v_zero, v_zero],
      [v_inner_half_contact_length + v_one_half, (-v_wall_thickness) + v_one_half, v_one_half - v_inner_half_contact_length],
      [v_zero, v_zero, v_one],
      [(-v_inner_half_contact_length) + v_one_half, (-v_wall_thickness) + v_one_half, v_one_half + v_inner_half_contact_length],
      [v_zero, v_zero, v_zero],
      [(-v_inner_half_contact_length) + v_one_half, (-v_wall_thickness) + v_one_half, v_one_half - v_inner_half_contact_length]]
  let connection_back_right : List (List K) := [
      [v_inner_half_contact_length + v_one_half, (-v_wall_thickness) + v_one_half, v_one_half + v_inner_half_contact_length],
      [v_one, v_zero, v_one],
      [v_inner_half_contact_length + v_one_half, (-v_wall_thickness) + v_one_half, v_one_half - v_inner_half_contact_length],
      [v_one, v_zero, v_zero],
      [v_wall_thickness + v_one_half, (-v_inner_half_contact_length) + v_one_half, v_one_half + v_inner_half_contact_length],
      [v_one, (-v_half_contact_length) + v_one_half, v_one_half + v_half_contact_length],
      [v_wall_thickness + v_one_half, (-v_inner_half_contact_length) + v_one_half, v_one_half - v_inner_half_contact_length],
      [v_one, (-v_half_contact_length) + v_one_half, v_one_half - v_half_contact_length]]
  let bottom : List (List K) := [
      [v_one_half + v_half_contact_length, v_one_half + v_half_contact_length, v_zero],
      [v_one_half - v_half_contact_length, v_one_half + v_half_contact_length, v_zero],
      [v_one_half + v_half_contact_length, v_one_half - v_half_contact_length, v_zero],
      [v_one_half - v_half_contact_length, v_one_half - v_half_contact_length, v_zero],
      [v_one_half + v_inner_half_contact_length, v_one_half + v_inner_half_contact_length, v_one_half - v_wall_thickness],
      [v_one_half - v_inner_half_contact_length, v_one_half + v_inner_half_contact_length, v_one_half - v_wall_thickness],
      [v_one_half + v_inner_half_contact_length, v_one_half - v_inner_half_contact_length, v_one_half - v_wall_thickness],
      [v_one_half - v_inner_half_contact_length, v_one_half - v_inner_half_contact_length, v_one_half - v_wall_thickness]]
  let top : List (List K) := [
      [v_one_half + v_inner_half_contact_length, v_one_half + v_inner_half_contact_length, v_one_half + v_wall_thickness],
      [v_one_half - v_inner_half_contact_length, v_one_half + v_inner_half_contact_length, v_one_half + v_wall_thickness],
      [v_one_half + v_inner_half_contact_length, v_one_half - v_inner_half_contact_length, v_one_half + v_wall_thickness],
      [v_one_half - v_inner_half_contact_length, v_one_half - v_inner_half_contact_length, v_one_half + v_wall_thickness],
      [v_one_half + v_half_contact_length, v_one_half + v_half_contact_length, v_one],
      [v_one_half - v_half_contact_length, v_one_half + v_half_contact_length, v_one],
      [v_one_half + v_half_contact_length, v_one_half - v_half_contact_length, v_one],
      [v_one_half - v_half_contact_length, v_one_half - v_half_contact_length, v_one]]
  let connection_front_bottom : List (List K) := [
      [v_half_contact_length + v_one_half, v_one, v_one_half - v_half_contact_length],
      [(-v_half_contact_length) + v_one_half, v_one, v_one_half - v_half_contact_length],
      [v_one_half + v_half_contact_length, v_one_half + v_half_contact_length, v_zero],
      [v_one_half - v_half_contact_length, v_one_half + v_half_contact_length, v_zero],
      [v_inner_half_contact_length + v_one_half, v_one_half + v_wall_thickness, v_one_half - v_inner_half_contact_length],
      [(-v_inner_half_contact_length) + v_one_half, v_one_half + v_wall_thickness, v_one_half - v_inner_half_contact_length],
      [v_one_half + v_inner_half_contact_length, v_one_half + v_inner_half_contact_length, v_one_half - v_wall_thickness],
      [v_one_half - v_inner_half_contact_length, v_one_half + v_inner_half_contact_length, v_one_half - v_wall_thickness]]
  let connection_front_top : List (List K) := [
      [v_half_contact_length + v_one_half, v_one, v_one_half + v_half_contact_length],
      [(-v_half_contact_length) + v_one_half, v_one, v_one_half + v_half_contact_length],
      [v_inner_half_contact_length + v_one_half, v_one_half + v_wall_thickness, v_one_half + v_inner_half_contact_length],
      [(-v_inner_half_contact_length) + v_one_half, v_one_half + v_wall_thickness, v_one_half + v_inner_half_contact_length],
      [v_one_half + v_half_contact_length, v_one_half + v_half_contact_length, v_one],
      [v_one_half - v_half_contact_length, v_one_half + v_half_contact_length, v_one],
      [v_one_half + v_inner_half_contact_length, v_one_half + v_inner_half_contact_length, v_one_half + v_wall_thickness],
      [v_one_half - v_inner_half_contact_length, v_one_half + v_inner_half_contact_length, v_one_half + v_wall_thickness]]
  let connection_back_bottom : List (List K) := [
      [v_one_half + v_half_contact_length, v_one_half - v_half_contact_length, v_zero],
      [v_one_half - v_half_contact_length, v_one_half - v_half_contact_length, v_zero],
      [v_one, v_zero, v_zero],
      [v_zero, v_zero, v_zero],
      [v_one_half + v_inner_half_contact_length, v_one_half - v_inner_half_contact_length, v_one_half - v_wall_thickness],
      [v_one_half - v_inner_half_contact_length, v_one_half - v_inner_half_contact_length, v_one_half - v_wall_thickness],
      [v_inner_half_contact_length + v_one_half, v_one_half - v_wall_thickness, v_one_half - v_inner_half_contact_length],
      [(-v_inner_half_contact_length) + v_one_half, v_one_half - v_wall_thickness, v_one_half - v_inner_half_contact_length]]
  let connection_back_top : List (List K) := [
      [v_one_half + v_half_contact_length, v_one_half - v_half_contact_length, v_one],
      [v_one_half - v_half_contact_length, v_one_half - v_half_contact_length, v_one],
      [v_one_half + v_inner_half_contact_length, v_one_half - v_inner_half_contact_length, v_one_half + v_wall_thickness],
      [v_one_half - v_inner_half_contact_length, v_one_half - v_inner_half_contact_length, v_one_half + v_wall_thickness],
      [v_one, v_zero, v_one],
      [v_zero, v_zero, v_one],
      [v_inner_half_contact_length + v_one_half, v_one_half - v_wall_thickness, v_one_half + v_inner_half_contact_length],
      [(-v_inner_half_contact_length) + v_one_half, v_one_half - v_wall_thickness, v_one_half + v_inner_half_contact_length]]
  let connection_top_right : List (List K) := [
      [v_one_half + v_half_contact_length, v_one_half + v_half_contact_length, v_one],
      [v_one_half + v_half_contact_length, v_one_half - v_half_contact_length, v_one],
      [v_one_half + v_inner_half_contact_length, v_one_half + v_inner_half_contact_length, v_one_half + v_wall_thickness],
      [v_one_half + v_inner_half_contact_length, v_one_half - v_inner_half_contact_length, v_one_half + v_wall_thickness],
      [v_one, v_one_half + v_half_contact_length, v_one_half + v_half_contact_length],
      [v_one, v_one_half - v_half_contact_length, v_one_half + v_half_contact_length],
      [v_one_half + v_wall_thickness, v_one_half + v_inner_half_contact_length, v_one_half + v_inner_half_contact_length],
      [v_one_half + v_wall_thickness, v_one_half - v_inner_half_contact_length, v_one_half + v_inner_half_contact_length]]
  let connection_top_left : List (List K) := [
      [v_one_half - v_half_contact_length, v_one_half + v_half_contact_length, v_one],
      [v_one_half - v_half_contact_length, v_one_half - v_half_contact_length, v_one],
      [v_zero, v_one_half + v_half_contact_length, v_one_half + v_half_contact_length],
      [v_zero, v_one_half - v_half_contact_length, v_one_half + v_half_contact_length],
      [v_one_half - v_inner_half_contact_length, v_one_half + v_inner_half_contact_length, v_one_half + v_wall_thickness],
      [v_one_half - v_inner_half_contact_length, v_one_half - v_inner_half_contact_length, v_one_half + v_wall_thickness],
      [v_one_half - v_wall_thickness, v_one_half + v_inner_half_contact_length, v_one_half + v_inner_half_contact_length],
      [v_one_half - v_wall_thickness, v_one_half - v_inner_half_contact_length, v_one_half + v_inner_half_contact_length]]
  let connection_bottom_left : List (List K) := [
      [v_zero, v_one_half + v_half_contact_length, v_one_half - v_half_contact_length],
      [v_zero, v_one_half - v_half_contact_length, v_one_half - v_half_contact_length],
      [v_one_half - v_half_contact_length, v_one_half + v_half_contact_length, v_zero],
      [v_one_half - v_half_contact_length, v_one_half - v_half_contact_length, v_zero],
      [v_one_half - v_wall_thickness, v_one_half + v_inner_half_contact_length, v_one_half - v_inner_half_contact_length],
      [v_one_half - v_wall_thickness, v_one_half - v_inner_half_contact_length, v_one_half - v_inner_half_contact_length],
      [v_one_half - v_inner_half_contact_length, v_one_half + v_inner_half_contact_length, v_one_half - v_wall_thickness],
      [v_one_half - v_inner_half_contact_length, v_one_half - v_inner_half_contact_length, v_one_half - v_wall_thickness]]
  let connection_bottom_right : List (List K) := [
      [v_one, v_half_contact_length + v_one_half, v_one_half - v_half_contact_length],
      [v_one, (-v_half_contact_length) + v_one_half, v_one_half - v_half_contact_length],
      [v_wall_thickness + v_one_half, v_inner_half_contact_length + v_one_half, v_one_half - v_inner_half_contact_length],
      [v_wall_thickness + v_one_half, (-v_inner_half_contact_length) + v_one_half, v_one_half - v_inner_half_contact_length],
      [v_one_half + v_half_contact_length, v_one_half + v_half_contact_length, v_zero],
      [v_one_half + v_half_contact_length, v_one_half - v_half_contact_length, v_zero],
      [v_one_half + v_inner_half_contact_length, v_one_half + v_inner_half_contact_length, v_one_half - v_wall_thickness],
      [v_one_half + v_inner_half_contact_length, v_one_half - v_inner_half_contact_length, v_one_half - v_wall_thickness]]
  [ ⟨[1, 1, 1], connection_bottom_left⟩,
    ⟨[1, 1, 1], connection_bottom_right⟩,
    ⟨[1, 1, 1], connection_back_bottom⟩,
    ⟨[1, 1, 1], connection_front_bottom⟩,
    ⟨[1, 1, 1], connection_front_top⟩,
    ⟨[1, 1, 1], connection_back_top⟩,
    ⟨[1, 1, 1], connection_top_right⟩,
    ⟨[1, 1, 1], connection_front_left⟩,
    ⟨[1, 1, 1], right⟩,
    ⟨[1, 1, 1], connection_front_right⟩,
    ⟨[1, 1, 1], back⟩,
    ⟨[1, 1, 1], connection_back_left⟩,
    ⟨[1, 1, 1], left⟩,
    ⟨[1, 1, 1], connection_top_left⟩,
    ⟨[1, 1, 1], front⟩,
    ⟨[1, 1, 1], connection_back_right⟩,
    ⟨[1, 1, 1], bottom⟩,
    ⟨[1, 1, 1], top⟩ ]

/-- `Armadillo._closing_tile`. `splinepy/microstructure/tiles/armadillo.py` 2533-3344, 4970-5029. -/
def armadilloCloseYMax (v_zero v_one_half v_one v_wall_thickness v_half_contact_length v_inner_half_contact_length : K) : List (Patch K) :=
  let right : List (List K) := [
      [v_wall_thickness + v_one_half, (-v_inner_half_contact_length) + v_one_half, v_one_half + v_inner_half_contact_length],
      [v_one, (-v_half_contact_length) + v_one_half, v_one_half + v_half_contact_length],
      [v_wall_thickness + v_one_half, (-v_inner_half_contact_length) + v_one_half, v_one_half - v_inner_half_contact_length],
      [v_one, (-v_half_contact_length) + v_one_half, v_one_half - v_half_contact_length],
      [v_wall_thickness + v_one_half, v_inner_half_contact_length + v_one_half, v_one_half + v_inner_half_contact_length],
      [v_one, v_half_contact_length + v_one_half, v_one_half + v_half_contact_length],
      [v_wall_thickness + v_one_half, v_inner_half_contact_length + v_one_half, v_one_half - v_inner_half_contact_length],
      [v_one, v_half_contact_length + v_one_half, v_one_half - v_half_contact_length]]
  let connection_front_right : List (List K) := [
      [v_wall_thickness + v_one_half, v_inner_half_contact_length + v_one_half, v_one_half + v_inner_half_contact_length],
      [v_one, v_half_contact_length + v_one_half, v_one_half + v_half_contact_length],
      [v_wall_thickness + v_one_half, v_inner_half_contact_length + v_one_half, v_one_half - v_inner_half_contact_length],
      [v_one, v_half_contact_length + v_one_half, v_one_half - v_half_contact_length],
      [v_inner_half_contact_length + v_one_half, v_wall_thickness + v_one_half, v_one_half + v_inner_half_contact_length],
      [v_one, v_one, v_one],
      [v_inner_half_contact_length + v_one_half, v_wall_thickness + v_one_half, v_one_half - v_inner_half_contact_length],
      [v_one, v_one, v_zero]]
  let front : List (List K) := [
      [v_inner_half_contact_length + v_one_half, v_wall_thickness + v_one_half, v_one_half + v_inner_half_contact_length],
      [v_one, v_one, v_one],
      [v_inner_half_contact_length + v_one_half, v_wall_thickness + v_one_half, v_one_half - v_inner_half_contact_length],
      [v_one, v_one, v_zero],
      [(-v_inner_half_contact_length) + v_one_half, v_wall_thickness + v_one_half, v_one_half + v_inner_half_contact_length],
      [v_zero, v_one, v_one],
      [(-v_inner_half_contact_length) + v_one_half, v_wall_thickness + v_one_half, v_one_half - v_inner_half_contact_length],
      [v_zero, v_one, v_zero]]
  let connection_back_left : List (List K) := [
      [(-v_wall_thickness) + v_one_half, (-v_inner_half_contact_length) + v_one_half, v_one_half + v_inner_half_contact_length],
      [v_zero, (-v_half_contact_length) + v_one_half, v_one_half + v_half_contact_length],
      [(-v_wall_thickness) + v_one_half, (-v_inner_half_contact_length) + v_one_half, v_one_half - v_inner_half_contact_length],
      [v_zero, (-v_half_contact_length) + v_one_half, v_one_half - v_half_contact_length],
      [(-v_inner_half_contact_length) + v_one_half, (-v_wall_thickness) + v_one_half, v_one_half + v_inner_half_contact_length],
      [(-v_half_contact_length) + v_one_half, v_zero, v_one_half + v_half_contact_length],
      [(-v_inner_half_contact_length) + v_one_half, (-v_wall_thickness) + v_one_half, v_one_half - v_inner_half_contact_length],
      [(-v_half_contact_length) + v_one_half, v_zero, v_one_half - v_half_contact_length]]
  let left : List (List K) := [
      [v_zero, (-v_half_contact_length) + v_one_half, v_one_half + v_half_contact_length],
      [(-v_wall_thickness) + v_one_half, (-v_inner_half_contact_length) + v_one_half, v_one_half + v_inner_half_contact_length],
      [v_zero, (-v_half_contact_length) + v_one_half, v_one_half - v_half_contact_length],
      [(-v_wall_thickness) + v_one_half, (-v_inner_half_contact_length) + v_one_half, v_one_half - v_inner_half_contact_length],
      [v_zero, v_half_contact_length + v_one_half, v_one_half + v_half_contact_length],
      [(-v_wall_thickness) + v_one_half, v_inner_half_contact_length + v_one_half, v_one_half + v_inner_half_contact_length],
      [v_zero, v_half_contact_length + v_one_half, v_one_half - v_half_contact_length],
      [(-v_wall_thickness) + v_one_half, v_inner_half_contact_length + v_one_half, v_one_half - v_inner_half_contact_length]]
  let connection_top_left : List (List K) := [
      [v_zero, v_half_contact_length + v_one_half, v_one_half + v_half_contact_length],
      [(-v_wall_thickness) + v_one_half, v_inner_half_contact_length + v_one_half, v_one_half + v_inner_half_contact_length],
      [v_zero, v_half_contact_length + v_one_half, v_one_half - v_half_contact_length],
      [(-v_wall_thickness) + v_one_half, v_inner_half_contact_length + v_one_half, v_one_half - v_inner_half_contact_length],
      [v_zero, v_one, v_one],
      [(-v_inner_half_contact_length) + v_one_half, v_wall_thickness + v_one_half, v_one_half + v_inner_half_contact_length],
      [v_zero, v_one, v_zero],
      [(-v_inner_half_contact_length) + v_one_half, v_wall_thickness + v_one_half, v_one_half - v_inner_half_contact_length]]
  let back : List (List K) := [
      [v_half_contact_length + v_one_half, v_zero, v_one_half + v_half_contact_length],
      [v_inner_half_contact_length + v_one_half, (-v_wall_thickness) + v_one_half, v_one_half + v_inner_half_contact_length],
      [v_half_contact_length + v_one_half, v_zero, v_one_half - v_half_contact_length],
      [v_inner_half_contact_length + v_one_half, (-v_wall_thickness) + v_one_half, v_one_half - v_inner_half_contact_length],
      [(-v_half_contact_length) + v_one_half, v_zero, v_one_half + v_half_contact_length],
      [(-v_inner_half_contact_length) + v_one_half, (-v_wall_thickness) + v_one_half, v_one_half + v_inner_half_contact_length],
      [(-v_half_contact_length) + v_one_half, v_zero, v_one_half - v_half_contact_length],
      [(-v_inner_half_contact_length) + v_one_half, (-v_wall_thickness) + v_one_half, v_one_half - v_inner_half_contact_length]]
  let connection_back_right : List (List K) := [
      [v_inner_half_contact_length + v_one_half, (-v_wall_thickness) + v_one_half, v_one_half + v_inner_half_contact_length],
      [v_half_contact_length + v_one_half, v_zero, v_one_half + v_half_contact_length],
      [v_inner_half_contact_length + v_one_half, (-v_wall_thickness) + v_one_half, v_one_half - v_inner_half_contact_length],
      [v_half_contact_length + v_one_half, v_zero, v_one_half - v_half_contact_length],
      [v_wall_thickness + v_one_half, (-v_inner_half_contact_length) + v_one_half, v_one_half + v_inner_half_contact_length],
      [v_one, (-v_half_contact_length) + v_one_half, v_one_half + v_half_contact_length],
      [v_wall_thickness + v_one_half, (-v_inner_half_contact_length) + v_one_half, v_one_half - v_inner_half_contact_length],
      [v_one, (-v_half_contact_length) + v_one_half, v_one_half - v_half_contact_length]]
  let bottom : List (List K) := [
      [v_one_half + v_half_contact_length, v_one_half + v_half_contact_length, v_zero],
      [v_one_half - v_half_contact_length, v_one_half + v_half_contact_length, v_zero],
      [v_one_half + v_half_contact_length, v_one_half - v_half_contact_length, v_zero],
      [v_one_half - v_half_contact_length, v_one_half - v_half_contact_length, v_zero],
      [v_one_half + v_inner_half_contact_length, v_one_half + v_inner_half_contact_length, v_one_half - v_wall_thickness],
      [v_one_half - v_inner_half_contact_length, v_one_half + v_inner_half_contact_length, v_one_half - v_wall_thickness],
      [v_one_half + v_inner_half_contact_length, v_one_half - v_inner_half_contact_length, v_one_half - v_wall_thickness],
      [v_one_half - v_inner_half_contact_length, v_one_half - v_inner_half_contact_length, v_one_half - v_wall_thickness]]
  let top : List (List K) := [
      [v_one_half + v_inner_half_contact_length, v_one_half + v_inner_half_contact_length, v_one_half + v_wall_thickness],
      [v_one_half - v_inner_half_contact_length, v_one_half + v_inner_half_contact_length, v_one_half + v_wall_thickness],
      [v_one_half + v_inner_half_contact_length, v_one_half - v_inner_half_contact_length, v_one_half + v_wall_thickness],
      [v_one_half - v_inner_half_contact_length, v_one_half - v_inner_half_contact_length, v_one_half + v_wall_thickness],
      [v_one_half + v_half_contact_length, v_one_half + v_half_contact_length, v_one],
      [v_one_half - v_half_contact_length, v_one_half + v_half_contact_length, v_one],
      [v_one_half + v_half_contact_length, v_one_half - v_half_contact_length, v_one],
      [v_one_half - v_half_contact_length, v_one_half - v_half_contact_length, v_one]]
  let connection_front_bottom : List (List K) := [
      [v_one, v_one, v_zero],
      [v_zero, v_one, v_zero],
      [v_one_half + v_half_contact_length, v_one_half + v_half_contact_length, v_zero],
      [v_one_half - v_half_contact_length, v_one_half + v_half_contact_length, v_zero],
      [v_inner_half_contact_length + v_one_half, v_one_half + v_wall_thickness, v_one_half - v_inner_half_contact_length],
      [(-v_inner_half_contact_length) + v_one_half, v_one_half + v_wall_thickness, v_one_half - v_inner_half_contact_length],
      [v_one_half + v_inner_half_contact_length, v_one_half + v_inner_half_contact_length, v_one_half - v_wall_thickness],
      [v_one_half - v_inner_half_contact_length, v_one_half + v_inner_half_contact_length, v_one_half - v_wall_thickness]]
  let connection_front_top : List (List K) := [
      [v_one, v_one, v_one],
      [v_zero, v_one, v_one],
      [v_inner_half_contact_length + v_one_half, v_one_half + v_wall_thickness, v_one_half + v_inner_half_contact_length],
      [(-v_inner_half_contact_length) + v_one_half, v_one_half + v_wall_thickness, v_one_half + v_inner_half_contact_length],
      [v_one_half + v_half_contact_length, v_one_half + v_half_contact_length, v_one],
      [v_one_half - v_half_contact_length, v_one_half + v_half_contact_length, v_one],
      [v_one_half + v_inner_half_contact_length, v_one_half + v_inner_half_contact_length, v_one_half + v_wall_thickness],
      [v_one_half - v_inner_half_contact_length, v_one_half + v_inner_half_contact_length, v_one_half + v_wall_thickness]]
  let connection_back_bottom : List (List K) := [
      [v_one_half + v_half_contact_length, v_one_half - v_half_contact_length, v_zero],
      [v_one_half - v_half_contact_length, v_one_half - v_half_contact_length, v_zero],
      [v_one_half + v_half_contact_length, v_zero, v_one_half - v_half_contact_length],
      [v_one_half - v_half_contact_length, v_zero, v_one_half - v_half_contact_length],
      [v_one_half + v_inner_half_contact_length, v_one_half - v_inner_half_contact_length, v_one_half - v_wall_thickness],
      [v_one_half - v_inner_half_contact_length, v_one_half - v_inner_half_contact_length, v_one_half - v_wall_thickness],
      [v_inner_half_contact_length + v_one_half, v_one_half - v_wall_thickness, v_one_half - v_inner_half_contact_length],
      [(-v_inner_half_contact_length) + v_one_half, v_one_half - v_wall_thickness, v_one_half - v_inner_half_contact_length]]
  let connection_back_top : List (List K) := [
      [v_one_half + v_half_contact_length, v_one_half - v_half_contact_length, v_one],
      [v_one_half - v_half_contact_length, v_one_half - v_half_contact_length, v_one],
      [v_one_half + v_inner_half_contact_length, v_one_half - v_inner_half_contact_length, v_one_half + v_wall_thickness],
      [v_one_half - v_inner_half_contact_length, v_one_half - v_inner_half_contact_length, v_one_half + v_wall_thickness],
      [v_half_contact_length + v_one_half, v_zero, v_one_half + v_half_contact_length],
      [(-v_half_contact_length) + v_one_half, v_zero, v_one_half + v_half_contact_length],
      [v_inner_half_contact_length + v_one_half, v_one_half - v_wall_thickness, v_one_half + v_inner_half_contact_length],
      [(-v_inner_half_contact_length) + v_one_half, v_one_half - v_wall_thickness, v_one_half + v_inner_half_contact_length]]
  let connection_top_right : List (List K) := [
      [v_one_half + v_half_contact_length, v_one_half + v_half_contact_length, v_one],
      [v_one_half + v_half_contact_length, v_one_half - v_half_contact_length, v_one],
      [v_one_half + v_inner_half_contact_length, v_one_half + v_inner_half_contact_length, v_one_half + v_wall_thickness],
      [v_one_half + v_inner_half_contact_length, v_one_half - v_inner_half_contact_length, v_one_half + v_wall_thickness],
      [v_one, v_one_half + v_half_contact_length, v_one_half + v_half_contact_length],
      [v_one, v_one_half - v_half_contact_length, v_one_half + v_half_contact_length],
      [v_one_half + v_wall_thickness, v_one_half + v_inner_half_contact_length, v_one_half + v_inner_half_contact_length],
      [v_one_half + v_wall_thickness, v_one_half - v_inner_half_contact_length, v_one_half + v_inner_half_contact_length]]
  let connection_front_left : List (List K) := [
      [v_one_half - v_half_contact_length, v_one_half + v_half_contact_length, v_one],
      [v_one_half - v_half_contact_length, v_one_half - v_half_contact_length, v_one],
      [v_zero, v_one_half + v_half_contact_length, v_one_half + v_half_contact_length],
      [v_zero, v_one_half - v_half_contact_length, v_one_half + v_half_contact_length],
      [v_one_half - v_inner_half_contact_length, v_one_half + v_inner_half_contact_length, v_one_half + v_wall_thickness],
      [v_one_half - v_inner_half_contact_length, v_one_half - v_inner_half_contact_length, v_one_half + v_wall_thickness],
      [v_one_half - v_wall_thickness, v_one_half + v_inner_half_contact_length, v_one_half + v_inner_half_contact_length],
      [v_one_half - v_wall_thickness, v_one_half - v_inner_half_contact_length, v_one_half + v_inner_half_contact_length]]
  let connection_bottom_left : List (List K) := [
      [v_zero, v_one_half + v_half_contact_length, v_one_half - v_half_contact_length],
      [v_zero, v_one_half - v_half_contact_length, v_one_half - v_half_contact_length],
      [v_one_half - v_half_contact_length, v_one_half + v_half_contact_length, v_zero],
      [v_one_half - v_half_contact_length, v_one_half - v_half_contact_length, v_zero],
      [v_one_half - v_wall_thickness, v_one_half + v_inner_half_contact_length, v_one_half - v_inner_half_contact_length],
      [v_one_half - v_wall_thickness, v_one_half - v_inner_half_contact_length, v_one_half - v_inner_half_contact_length],
      [v_one_half - v_inner_half_contact_length, v_one_half + v_inner_half_contact_length, v_one_half - v_wall_thickness],
      [v_one_half - v_inner_half_contact_length, v_one_half - v_inner_half_contact_length, v_one_half - v_wall_thickness]]
  let connection_bottom_right : List (List K) := [
      [v_one, v_half_contact_length + v_one_half, v_one_half - v_half_contact_length],
      [v_one, (-v_half_contact_length) + v_one_half, v_one_half - v_half_contact_length],
      [v_wall_thickness + v_one_half, v_inner_half_contact_length + v_one_half, v_one_half - v_inner_half_contact_length],
      [v_wall_thickness + v_one_half, (-v_inner_half_contact_length) + v_one_half, v_one_half - v_inner_half_contact_length],
      [v_one_half + v_half_contact_length, v_one_half + v_half_contact_length, v_zero],
      [v_one_half + v_half_contact_length, v_one_half - v_half_contact_length, v_zero],
      [v_one_half + v_inner_half_contact_length, v_one_half + v_inner_half_contact_length, v_one_half - v_wall_thickness],
      [v_one_half + v_inner_half_contact_length, v_one_half - v_inner_half_contact_length, v_one_half - v_wall_thickness]]
  [ ⟨[1, 1, 1], connection_bottom_left⟩,
    ⟨[1, 1, 1], connection_bottom_right⟩,
    ⟨[1, 1, 1], connection_back_bottom⟩,
    ⟨[1, 1, 1], connection_front_bottom⟩,
    ⟨[1, 1, 1], connection_front_top⟩,
    ⟨[1, 1, 1], connection_back_top⟩,
    ⟨[1, 1, 1], connection_top_right⟩,
    ⟨[1, 1, 1], connection_front_left⟩,
    ⟨[1, 1, 1], right⟩,
    ⟨[1, 1, 1], connection_front_right⟩,
    ⟨[1, 1, 1], back⟩,
    ⟨[1, 1, 1], connection_back_left⟩,
    ⟨[1, 1, 1], left⟩,
    ⟨[1, 1, 1], connection_top_left⟩,
    ⟨[1, 1, 1], front⟩,
    ⟨[1, 1, 1], connection_back_right⟩,
    ⟨[1, 1, 1], bottom⟩,
    ⟨[1, 1, 1], top⟩ ]

/-- `Armadillo._closing_tile`. `splinepy/microstructure/tiles/armadillo.py` 3346-4156, 4970-5029. -/
def armadilloCloseZMax (v_zero v_one_half v_one v_wall_thickness v_half_contact_length v_inner_half_contact_length : K) : List (Patch K) :=
  let right : List (List K) := [
      [v_wall_thickness + v_one_half, (-v_inner_half_contact_length) + v_one_half, v_one_half + v_inner_half_contact_length],
      [v_one, (-v_half_contact_length) + v_one_half, v_one_half + v_half_contact_length],
      [v_wall_thickness + v_one_half, (-v_inner_half_contact_length) + v_one_half, v_one_half - v_inner_half_contact_length],
      [v_one, (-v_half_contact_length) + v_one_half, v_one_half - v_half_contact_length],
      [v_wall_thickness + v_one_half, v_inner_half_contact_length + v_one_half, v_one_half + v_inner_half_contact_length],
      [v_one, v_half_contact_length + v_one_half, v_one_half + v_half_contact_length],
      [v_wall_thickness + v_one_half, v_inner_half_contact_length + v_one_half, v_one_half - v_inner_half_contact_length],
      [v_one, v_half_contact_length + v_one_half, v_one_half - v_half_contact_length]]
  let connection_front_right : List (List K) := [
      [v_wall_thickness + v_one_half, v_inner_half_contact_length + v_one_half, v_one_half + v_inner_half_contact_length],
      [v_one, v_half_contact_length + v_one_half, v_one_half + v_half_contact_length],
      [v_wall_thickness + v_one_half, v_inner_half_contact_length + v_one_half, v_one_half - v_inner_half_contact_length],
      [v_one, v_half_contact_length + v_one_half, v_one_half - v_half_contact_length],
      [v_inner_half_contact_length + v_one_half, v_wall_thickness + v_one_half, v_one_half + v_inner_half_contact_length],
      [v_half_contact_length + v_one_half, v_one, v_one_half + v_half_contact_length],
      [v_inner_half_contact_length + v_one_half, v_wall_thickness + v_one_half, v_one_half - v_inner_half_contact_length],
      [v_half_contact_length + v_one_half, v_one, v_one_half - v_half_contact_length]]
  let front : List (List K) := [
      [v_inner_half_contact_length + v_one_half, v_wall_thickness + v_one_half, v_one_half + v_inner_half_contact_length],
      [v_half_contact_length + v_one_half, v_one, v_one_half + v_half_contact_length],
      [v_inner_half_contact_length + v_one_half, v_wall_thickness + v_one_half, v_one_half - v_inner_half_contact_length],
      [v_half_contact_length + v_one_half, v_one, v_one_half - v_half_contact_length],
      [(-v_inner_half_contact_length) + v_one_half, v_wall_thickness + v_one_half, v_one_half + v_inner_half_contact_length],
      [(-v_half_contact_length) + v_one_half, v_one, v_one_half + v_half_contact_length],
      [(-v_inner_half_contact_length) + v_one_half, v_wall_thickness + v_one_half, v_one_half - v_inner_half_contact_length],
      [(-v_half_contact_length) + v_one_half, v_one, v_one_half - v_half_contact_length]]
  let connection_back_left : List (List K) := [
      [(-v_wall_thickness) + v_one_half, (-v_inner_half_contact_length) + v_one_half, v_one_half + v_inner_half_contact_length],
      [v_zero, (-v_half_contact_length) + v_one_half, v_one_half + v_half_contact_length],
      [(-v_wall_thickness) + v_one_half, (-v_inner_half_contact_length) + v_one_half, v_one_half - v_inner_half_contact_length],
      [v_zero, (-v_half_contact_length) + v_one_half, v_one_half - v_half_contact_length],
      [(-v_inner_half_contact_length) + v_one_half, (-v_wall_thickness) + v_one_half, v_one_half + v_inner_half_contact_length],
      [(-v_half_contact_length) + v_one_half, v_zero, v_one_half + v_half_contact_length],
      [(-v_inner_half_contact_length) + v_one_half, (-v_wall_thickness) + v_one_half, v_one_half - v_inner_half_contact_length],
      [(-v_half_contact_length) + v_one_half, v_zero, v_one_half - v_half_contact_length]]
  let left : List (List K) := [
      [v_zero, (-v_half_contact_length) + v_one_half, v_one_half + v_half_contact_length],
      [(-v_wall_thickness) + v_one_half, (-v_inner_half_contact_length) + v_one_half, v_one_half + v_inner_half_contact_length],
      [v_zero, (-v_half_contact_length) + v_one_half, v_one_half - v_half_contact_length],
      [(-v_wall_thickness) + v_one_half, (-v_inner_half_contact_length) + v_one_half, v_one_half - v_inner_half_contact_length],
      [v_zero, v_half_contact_length + v_one_half, v_one_half + v_half_contact_length],
      [(-v_wall_thickness) + v_one_half, v_inner_half_contact_length + v_one_half, v_one_half + v_inner_half_contact_length],
      [v_zero, v_half_contact_length + v_one_half, v_one_half - v_half_contact_length],
      [(-v_wall_thickness) + v_one_half, v_inner_half_contact_length + v_one_half, v_one_half - v_inner_half_contact_length]]
  let connection_front_left : List (List K) := [
      [v_zero, v_half_contact_length + v_one_half, v_one_half + v_half_contact_length],
      [(-v_wall_thickness) + v_one_half, v_inner_half_contact_length + v_one_half, v_one_half + v_inner_half_contact_length],
      [v_zero, v_half_contact_length + v_one_half, v_one_half - v_half_contact_length],
      [(-v_wall_thickness) + v_one_half, v_inner_half_contact_length + v_one_half, v_one_half - v_inner_half_contact_length],
      [(-v_half_contact_length) + v_one_half, v_one, v_one_half + v_half_contact_length],
      [(-v_inner_half_contact_length) + v_one_half, v_wall_thickness + v_one_half, v_one_half + v_inner_half_contact_length],
      [(-v_half_contact_length) + v_one_half, v_one, v_one_half - v_half_contact_length],
      [(-v_inner_half_contact_length) + v_one_half, v_wall_thickness + v_one_half, v_one_half - v_inner_half_contact_length]]
  let back : List (List K) := [
      [v_half_contact_length + v_one_half, v_zero, v_one_half + v_half_contact_length],
      [v_inner_half_contact_length + v_one_half, (-v_wall_thickness) + v_one_half, v_one_half + v_inner_half_contact_length],
      [v_half_contact_length + v_one_half, v_zero, v_one_half - v_half_contact_length],
      [v_inner_half_contact_length + v_one_half, (-v_wall_thickness) + v_one_half, v_one_half - v_inner_half_contact_length],
      [(-v_half_contact_length) + v_one_half, v_zero, v_one_half + v_half_contact_length],
      [(-v_inner_half_contact_length) + v_one_half, (-v_wall_thickness) + v_one_half, v_one_half + v_inner_half_contact_length],
      [(-v_half_contact_length) + v_one_half, v_zero, v_one_half - v_half_contact_length],
      [(-v_inner_half_contact_length) + v_one_half, (-v_wall_thickness) + v_one_half, v_one_half - v_inner_half_contact_length]]
  let connection_back_right : List (List K) := [
      [v_inner_half_contact_length + v_one_half, (-v_wall_thickness) + v_one_half, v_one_half + v_inner_half_contact_length],
      [v_half_contact_length + v_one_half, v_zero, v_one_half + v_half_contact_length],
      [v_inner_half_contact_length + v_one_half, (-v_wall_thickness) + v_one_half, v_one_half - v_inner_half_contact_length],
      [v_half_contact_length + v_one_half, v_zero, v_one_half - v_half_contact_length],
      [v_wall_thickness + v_one_half, (-v_inner_half_contact_length) + v_one_half, v_one_half + v_inner_half_contact_length],
      [v_one, (-v_half_contact_length) + v_one_half, v_one_half + v_half_contact_length],
      [v_wall_thickness + v_one_half, (-v_inner_half_contact_length) + v_one_half, v_one_half - v_inner_half_contact_length],
      [v_one, (-v_half_contact_length) + v_one_half, v_one_half - v_half_contact_length]]
  let bottom : List (List K) := [
      [v_one_half + v_half_contact_length, v_one_half + v_half_contact_length, v_zero],
      [v_one_half - v_half_contact_length, v_one_half + v_half_contact_length, v_zero],
      [v_one_half + v_half_contact_length, v_one_half - v_half_contact_length, v_zero],
      [v_one_half - v_half_contact_length, v_one_half - v_half_contact_length, v_zero],
      [v_one_half + v_inner_half_contact_length, v_one_half + v_inner_half_contact_length, v_one_half - v_wall_thickness],
      [v_one_half - v_inner_half_contact_length, v_one_half + v_inner_half_contact_length, v_one_half - v_wall_thickness],
      [v_one_half + v_inner_half_contact_length, v_one_half - v_inner_half_contact_length, v_one_half - v_wall_thickness],
      [v_one_half - v_inner_half_contact_length, v_one_half - v_inner_half_contact_length, v_one_half - v_wall_thickness]]
  let top : List (List K) := [
      [v_one_half + v_inner_half_contact_length, v_one_half + v_inner_half_contact_length, v_one_half + v_wall_thickness],
      [v_one_half - v_inner_half_contact_length, v_one_half + v_inner_half_contact_length, v_one_half + v_wall_thickness],
      [v_one_half + v_inner_half_contact_length, v_one_half - v_inner_half_contact_length, v_one_half + v_wall_thickness],
      [v_one_half - v_inner_half_contact_length, v_one_half - v_inner_half_contact_length, v_one_half + v_wall_thickness],
      [v_one, v_one, v_one],
      [v_zero, v_one, v_one],
      [v_one, v_zero, v_one],
      [v_zero, v_zero, v_one]]
  let connection_front_bottom : List (List K) := [
      [v_half_contact_length + v_one_half, v_one, v_one_half - v_half_contact_length],
      [(-v_half_contact_length) + v_one_half, v_one, v_one_half - v_half_contact_length],
      [v_one_half + v_half_contact_length, v_one_half + v_half_contact_length, v_zero],
      [v_one_half - v_half_contact_length, v_one_half + v_half_contact_length, v_zero],
      [v_inner_half_contact_length + v_one_half, v_one_half + v_wall_thickness, v_one_half - v_inner_half_contact_length],
      [(-v_inner_half_contact_length) + v_one_half, v_one_half + v_wall_thickness, v_one_half - v_inner_half_contact_length],
      [v_one_half + v_inner_half_contact_length, v_one_half + v_inner_half_contact_length, v_one_half - v_wall_thickness],
      [v_one_half - v_inner_half_contact_length, v_one_half + v_inner_half_contact_length, v_one_half - v_wall_thickness]]
  let connection_front_top : List (List K) := [
      [v_half_contact_length + v_one_half, v_one, v_one_half + v_half_contact_length],
      [(-v_half_contact_length) + v_one_half, v_one, v_one_half + v_half_contact_length],
      [v_inner_half_contact_length + v_one_half, v_one_half + v_wall_thickness, v_one_half + v_inner_half_contact_length],
      [(-v_inner_half_contact_length) + v_one_half, v_one_half + v_wall_thickness, v_one_half + v_inner_half_contact_length],
      [v_one, v_one, v_one],
      [v_zero, v_one, v_one],
      [v_one_half + v_inner_half_contact_length, v_one_half + v_inner_half_contact_length, v_one_half + v_wall_thickness],
      [v_one_half - v_inner_half_contact_length, v_one_half + v_inner_half_contact_length, v_one_half + v_wall_thickness]]
  let connection_back_bottom : List (List K) := [
      [v_one_half + v_half_contact_length, v_one_half - v_half_contact_length, v_zero],
      [v_one_half - v_half_contact_length, v_one_half - v_half_contact_length, v_zero],
      [v_one_half + v_half_contact_length, v_zero, v_one_half - v_half_contact_length],
      [v_one_half - v_half_contact_length, v_zero, v_one_half - v_half_contact_length],
      [v_one_half + v_inner_half_contact_length, v_one_half - v_inner_half_contact_length, v_one_half - v_wall_thickness],
      [v_one_half - v_inner_half_contact_length, v_one_half - v_inner_half_contact_length, v_one_half - v_wall_thickness],
      [v_inner_half_contact_length + v_one_half, v_one_half - v_wall_thickness, v_one_half - v_inner_half_contact_length],
      [(-v_inner_half_contact_length) + v_one_half, v_one_half - v_wall_thickness, v_one_half - v_inner_half_contact_length]]
  let connection_back_top : List (List K) := [
      [v_one, v_zero, v_one],
      [v_zero, v_zero, v_one],
      [v_one_half + v_inner_half_contact_length, v_one_half - v_inner_half_contact_length, v_one_half + v_wall_thickness],
      [v_one_half - v_inner_half_contact_length, v_one_half - v_inner_half_contact_length, v_one_half + v_wall_thickness],
      [v_half_contact_length + v_one_half, v_zero, v_one_half + v_half_contact_length],
      [(-v_half_contact_length) + v_one_half, v_zero, v_one_half + v_half_contact_length],
      [v_inner_half_contact_length + v_one_half, v_one_half - v_wall_thickness, v_one_half + v_inner_half_contact_length],
      [(-v_inner_half_contact_length) + v_one_half, v_one_half - v_wall_thickness, v_one_half + v_inner_half_contact_length]]
  let connection_top_right : List (List K) := [
      [v_one, v_one, v_one],
      [v_one, v_zero, v_one],
      [v_one_half + v_inner_half_contact_length, v_one_half + v_inner_half_contact_length, v_one_half + v_wall_thickness],
      [v_one_half + v_inner_half_contact_length, v_one_half - v_inner_half_contact_length, v_one_half + v_wall_thickness],
      [v_one, v_one_half + v_half_contact_length, v_one_half + v_half_contact_length],
      [v_one, v_one_half - v_half_contact_length, v_one_half + v_half_contact_length],
      [v_one_half + v_wall_thickness, v_one_half + v_inner_half_contact_length, v_one_half + v_inner_half_contact_length],
      [v_one_half + v_wall_thickness, v_one_half - v_inner_half_contact_length, v_one_half + v_inner_half_contact_length]]
  let connection_top_left : List (List K) := [
      [v_zero, v_one, v_one],
      [v_zero, v_zero, v_one],
      [v_zero, v_one_half + v_half_contact_length, v_one_half + v_half_contact_length],
      [v_zero, v_one_half - v_half_contact_length, v_one_half + v_half_contact_length],
      [v_one_half - v_inner_half_contact_length, v_one_half + v_inner_half_contact_length, v_one_half + v_wall_thickness],
      [v_one_half - v_inner_half_contact_length, v_one_half - v_inner_half_contact_length, v_one_half + v_wall_thickness],
      [v_one_half - v_wall_thickness, v_one_half + v_inner_half_contact_length, v_one_half + v_inner_half_contact_length],
      [v_one_half - v_wall_thickness, v_one_half - v_inner_half_contact_length, v_one_half + v_inner_half_contact_length]]
  let connection_bottom_left : List (List K) := [
      [v_zero, v_one_half + v_half_contact_length, v_one_half - v_half_contact_length],
      [v_zero, v_one_half - v_half_contact_length, v_one_half - v_half_contact_length],
      [v_one_half - v_half_contact_length, v_one_half + v_half_contact_length, v_zero],
      [v_one_half - v_half_contact_length, v_one_half - v_half_contact_length, v_zero],
      [v_one_half - v_wall_thickness, v_one_half + v_inner_half_contact_length, v_one_half - v_inner_half_contact_length],
      [v_one_half - v_wall_thickness, v_one_half - v_inner_half_contact_length, v_one_half - v_inner_half_contact_length],
      [v_one_half - v_inner_half_contact_length, v_one_half + v_inner_half_contact_length, v_one_half - v_wall_thickness],
      [v_one_half - v_inner_half_contact_length, v_one_half - v_inner_half_contact_length, v_one_half - v_wall_thickness]]
  let connection_bottom_right : List (List K) := [
      [v_one, v_half_contact_length + v_one_half, v_one_half - v_half_contact_length],
      [v_one, (-v_half_contact_length) + v_one_half, v_one_half - v_half_contact_length],
      [v_wall_thickness + v_one_half, v_inner_half_contact_length + v_one_half, v_one_half - v_inner_half_contact_length],
      [v_wall_thickness + v_one_half, (-v_inner_half_contact_length) + v_one_half, v_one_half - v_inner_half_contact_length],
      [v_one_half + v_half_contact_length, v_one_half + v_half_contact_length, v_zero],
      [v_one_half + v_half_contact_length, v_one_half - v_half_contact_length, v_zero],
      [v_one_half + v_inner_half_contact_length, v_one_half + v_inner_half_contact_length, v_one_half - v_wall_thickness],
      [v_one_half + v_inner_half_contact_length, v_one_half - v_inner_half_contact_length, v_one_half - v_wall_thickness]]
  [ ⟨[1, 1, 1], connection_bottom_left⟩,
    ⟨[1, 1, 1], connection_bottom_right⟩,
    ⟨[1, 1, 1], connection_back_bottom⟩,
    ⟨[1, 1, 1], connection_front_bottom⟩,
    ⟨[1, 1, 1], connection_front_top⟩,
    ⟨[1, 1, 1], connection_back_top⟩,
    ⟨[1, 1, 1], connection_top_right⟩,
    ⟨[1, 1, 1], connection_front_left⟩,
    ⟨[1, 1, 1], right⟩,
    ⟨[1, 1, 1], connection_front_right⟩,
    ⟨[1, 1, 1], back⟩,
    ⟨[1, 1, 1], connection_back_left⟩,
    ⟨[1, 1, 1], left⟩,
    ⟨[1, 1, 1], connection_top_left⟩,
    ⟨[1, 1, 1], front⟩,
    ⟨[1, 1, 1], connection_back_right⟩,
    ⟨[1, 1, 1], bottom⟩,
    ⟨[1, 1, 1], top⟩ ]

/-- `Armadillo._closing_tile`. `splinepy/microstructure/tiles/armadillo.py` 4158-4968, 4970-5029. -/
def armadilloCloseZMin (v_zero v_one_half v_one v_wall_thickness v_half_contact_length v_inner_half_contact_length : K) : List (Patch K) :=
  let right : List (List K) := [
      [v_wall_thickness + v_one_half, (-v_inner_half_contact_length) + v_one_half, v_one_half + v_inner_half_contact_length],
      [v_one, (-v_half_contact_length) + v_one_half, v_one_half + v_half_contact_length],
      [v_wall_thickness + v_one_half, (-v_inner_half_contact_length) + v_one_half, v_one_half - v_inner_half_contact_length],
      [v_one, (-v_half_contact_length) + v_one_half, v_one_half - v_half_contact_length],
      [v_wall_thickness + v_one_half, v_inner_half_contact_length + v_one_half, v_one_half + v_inner_half_contact_length],
      [v_one, v_half_contact_length + v_one_half, v_one_half + v_half_contact_length],
      [v_wall_thickness + v_one_half, v_inner_half_contact_length + v_one_half, v_one_half - v_inner_half_contact_length],
      [v_one, v_half_contact_length + v_one_half, v_one_half - v_half_contact_length]]
  let connection_front_right : List (List K) := [
      [v_wall_thickness + v_one_half, v_inner_half_contact_length + v_one_half, v_one_half + v_inner_half_contact_length],
      [v_one, v_half_contact_length + v_one_half, v_one_half + v_half_contact_length],
      [v_wall_thickness + v_one_half, v_inner_half_contact_length + v_one_half, v_one_half - v_inner_half_contact_length],
      [v_one, v_half_contact_length + v_one_half, v_one_half - v_half_contact_length],
      [v_inner_half_contact_length + v_one_half, v_wall_thickness + v_one_half, v_one_half + v_inner_half_contact_length],
      [v_half_contact_length + v_one_half, v_one, v_one_half + v_half_contact_length],
      [v_inner_half_contact_length + v_one_half, v_wall_thickness + v_one_half, v_one_half - v_inner_half_contact_length],
      [v_half_contact_length + v_one_half, v_one, v_one_half - v_half_contact_length]]
  let front : List (List K) := [
      [v_inner_half_contact_length + v_one_half, v_wall_thickness + v_one_half, v_one_half + v_inner_half_contact_length],
      [v_half_contact_length + v_one_half, v_one, v_one_half + v_half_contact_length],
      [v_inner_half_contact_length + v_one_half, v_wall_thickness + v_one_half, v_one_half - v_inner_half_contact_length],
      [v_half_contact_length + v_one_half, v_one, v_one_half - v_half_contact_length],
      [(-v_inner_half_contact_length) + v_one_half, v_wall_thickness + v_one_half, v_one_half + v_inner_half_contact_length],
      [(-v_half_contact_length) + v_one_half, v_one, v_one_half + v_half_contact_length],
      [(-v_inner_half_contact_length) + v_one_half, v_wall_thickness + v_one_half, v_one_half - v_inner_half_contact_length],
      [(-v_half_contact_length) + v_one_half, v_one, v_one_half - v_half_contact_length]]
  let connection_back_left : List (List K) := [
      [(-v_wall_thickness) + v_one_half, (-v_inner_half_contact_length) + v_one_half, v_one_half + v_inner_half_contact_length],
      [v_zero, (-v_half_contact_length) + v_one_half, v_one_half + v_half_contact_length],
      [(-v_wall_thickness) + v_one_half, (-v_inner_half_contact_length) + v_one_half, v_one_half - v_inner_half_contact_length],
      [v_zero, (-v_half_contact_length) + v_one_half, v_one_half - v_half_contact_length],
      [(-v_inner_half_contact_length) + v_one_half, (-v_wall_thickness) + v_one_half, v_one_half + v_inner_half_contact_length],
      [(-v_half_contact_length) + v_one_half, v_zero, v_one_half + v_half_contact_length],
      [(-v_inner_half_contact_length) + v_one_half, (-v_wall_thickness) + v_one_half, v_one_half - v_inner_half_contact_length],
      [(-v_half_contact_length) + v_one_half, v_zero, v_one_half - v_half_contact_length]]
  let left : List (List K) := [
      [v_zero, (-v_half_contact_length) + v_one_half, v_one_half + v_half_contact_length],
      [(-v_wall_thickness) + v_one_half, (-v_inner_half_contact_length) + v_one_half, v_one_half + v_inner_half_contact_length],
      [v_zero, (-v_half_contact_length) + v_one_half, v_one_half - v_half_contact_length],
      [(-v_wall_thickness) + v_one_half, (-v_inner_half_contact_length) + v_one_half, v_one_half - v_inner_half_contact_length],
      [v_zero, v_half_contact_length + v_one_half, v_one_half + v_half_contact_length],
      [(-v_wall_thickness) + v_one_half, v_inner_half_contact_length + v_one_half, v_one_half + v_inner_half_contact_length],
      [v_zero, v_half_contact_length + v_one_half, v_one_half - v_half_contact_length],
      [(-v_wall_thickness) + v_one_half, v_inner_half_contact_length + v_one_half, v_one_half - v_inner_half_contact_length]]
  let connection_front_left : List (List K) := [
      [v_zero, v_half_contact_length + v_one_half, v_one_half + v_half_contact_length],
      [(-v_wall_thickness) + v_one_half, v_inner_half_contact_length + v_one_half, v_one_half + v_inner_half_contact_length],
      [v_zero, v_half_contact_length + v_one_half, v_one_half - v_half_contact_length],
      [(-v_wall_thickness) + v_one_half, v_inner_half_contact_length + v_one_half, v_one_half - v_inner_half_contact_length],
      [(-v_half_contact_length) + v_one_half, v_one, v_one_half + v_half_contact_length],
      [(-v_inner_half_contact_length) + v_one_half, v_wall_thickness + v_one_half, v_one_half + v_inner_half_contact_length],
      [(-v_half_contact_length) + v_one_half, v_one, v_one_half - v_half_contact_length],
      [(-v_inner_half_contact_length) + v_one_half, v_wall_thickness + v_one_half, v_one_half - v_inner_half_contact_length]]
  let back : List (List K) := [
      [v_half_contact_length + v_one_half, v_zero, v_one_half + v_half_contact_length],
      [v_inner_half_contact_length + v_one_half, (-v_wall_thickness) + v_one_half, v_one_half + v_inner_half_contact_length],
      [v_half_contact_length + v_one_half, v_zero, v_one_half - v_half_contact_length],
      [v_inner_half_contact_length + v_one_half, (-v_wall_thickness) + v_one_half, v_one_half - v_inner_half_contact_length],
      [(-v_half_contact_length) + v_one_half, v_zero, v_one_half + v_half_contact_length],
      [(-v_inner_half_contact_length) + v_one_half, (-v_wall_thickness) + v_one_half, v_one_half + v_inner_half_contact_length],
      [(-v_half_contact_length) + v_one_half, v_zero, v_one_half - v_half_contact_length],
      [(-v_inner_half_contact_length) + v_one_half, (-v_wall_thickness) + v_one_half, v_one_half - v_inner_half_contact_length]]
  let connection_back_right : List (List K) := [
      [v_inner_half_contact_length + v_one_half, (-v_wall_thickness) + v_one_half, v_one_half + v_inner_half_contact_length],
      [v_half_contact_length + v_one_half, v_zero, v_one_half + v_half_contact_length],
      [v_inner_half_contact_length + v_one_half, (-v_wall_thickness) + v_one_half, v_one_half - v_inner_half_contact_length],
      [v_half_contact_length + v_one_half, v_zero, v_one_half - v_half_contact_length],
      [v_wall_thickness + v_one_half, (-v_inner_half_contact_length) + v_one_half, v_one_half + v_inner_half_contact_length],
      [v_one, (-v_half_contact_length) + v_one_half, v_one_half + v_half_contact_length],
      [v_wall_thickness + v_one_half, (-v_inner_half_contact_length) + v_one_half, v_one_half - v_inner_half_contact_length],
      [v_one, (-v_half_contact_length) + v_one_half, v_one_half - v_half_contact_length]]
  let bottom : List (List K) := [
      [v_one, v_one, v_zero],
      [v_zero, v_one, v_zero],
      [v_one, v_zero, v_zero],
      [v_zero, v_zero, v_zero],
      [v_one_half + v_inner_half_contact_length, v_one_half + v_inner_half_contact_length, v_one_half - v_wall_thickness],
      [v_one_half - v_inner_half_contact_length, v_one_half + v_inner_half_contact_length, v_one_half - v_wall_thickness],
      [v_one_half + v_inner_half_contact_length, v_one_half - v_inner_half_contact_length, v_one_half - v_wall_thickness],
      [v_one_half - v_inner_half_contact_length, v_one_half - v_inner_half_contact_length, v_one_half - v_wall_thickness]]
  let top : List (List K) := [
      [v_one_half + v_inner_half_contact_length, v_one_half + v_inner_half_contact_length, v_one_half + v_wall_thickness],
      [v_one_half - v_inner_half_contact_length, v_one_half + v_inner_half_contact_length, v_one_half + v_wall_thickness],
      [v_one_half + v_inner_half_contact_length, v_one_half - v_inner_half_contact_length, v_one_half + v_wall_thickness],
      [v_one_half - v_inner_half_contact_length, v_one_half - v_inner_half_contact_length, v_one_half + v_wall_thickness],
      [v_one_half + v_half_contact_length, v_one_half + v_half_contact_length, v_one],
      [v_one_half - v_half_contact_length, v_one_half + v_half_contact_length, v_one],
      [v_one_half + v_half_contact_length, v_one_half - v_half_contact_length, v_one],
      [v_one_half - v_half_contact_length, v_one_half - v_half_contact_length, v_one]]
  let connection_front_bottom : List (List K) := [
      [v_half_contact_length + v_one_half, v_one, v_one_half - v_half_contact_length],
      [(-v_half_contact_length) + v_one_half, v_one, v_one_half - v_half_contact_length],
      [v_one, v_one, v_zero],
      [v_zero, v_one, v_zero],
      [v_inner_half_contact_length + v_one_half, v_one_half + v_wall_thickness, v_one_half - v_inner_half_contact_length],
      [(-v_inner_half_contact_length) + v_one_half, v_one_half + v_wall_thickness, v_one_half - v_inner_half_contact_length],
      [v_one_half + v_inner_half_contact_length, v_one_half + v_inner_half_contact_length, v_one_half - v_wall_thickness],
      [v_one_half - v_inner_half_contact_length, v_one_half + v_inner_half_contact_length, v_one_half - v_wall_thickness]]
  let connection_front_top : List (List K) := [
      [v_half_contact_length + v_one_half, v_one, v_one_half + v_half_contact_length],
      [(-v_half_contact_length) + v_one_half, v_one, v_one_half + v_half_contact_length],
      [v_inner_half_contact_length + v_one_half, v_one_half + v_wall_thickness, v_one_half + v_inner_half_contact_length],
      [(-v_inner_half_contact_length) + v_one_half, v_one_half + v_wall_thickness, v_one_half + v_inner_half_contact_length],
      [v_one_half + v_half_contact_length, v_one_half + v_half_contact_length, v_one],
      [v_one_half - v_half_contact_length, v_one_half + v_half_contact_length, v_one],
      [v_one_half + v_inner_half_contact_length, v_one_half + v_inner_half_contact_length, v_one_half + v_wall_thickness],
      [v_one_half - v_inner_half_contact_length, v_one_half + v_inner_half_contact_length, v_one_half + v_wall_thickness]]
  let connection_back_bottom : List (List K) := [
      [v_one, v_zero, v_zero],
      [v_zero, v_zero, v_zero],
      [v_one_half + v_half_contact_length, v_zero, v_one_half - v_half_contact_length],
      [v_one_half - v_half_contact_length, v_zero, v_one_half - v_half_contact_length],
      [v_one_half + v_inner_half_contact_length, v_one_half - v_inner_half_contact_length, v_one_half - v_wall_thickness],
      [v_one_half - v_inner_half_contact_length, v_one_half - v_inner_half_contact_length, v_one_half - v_wall_thickness],
      [v_inner_half_contact_length + v_one_half, v_one_half - v_wall_thickness, v_one_half - v_inner_half_contact_length],
      [(-v_inner_half_contact_length) + v_one_half, v_one_half - v_wall_thickness, v_one_half - v_inner_half_contact_length]]
  let connection_back_top : List (List K) := [
      [v_one_half + v_half_contact_length, v_one_half - v_half_contact_length, v_one],
      [v_one_half - v_half_contact_length, v_one_half - v_half_contact_length, v_one],
      [v_one_half + v_inner_half_contact_length, v_one_half - v_inner_half_contact_length, v_one_half + v_wall_thickness],
      [v_one_half - v_inner_half_contact_length, v_one_half - v_inner_half_contact_length, v_one_half + v_wall_thickness],
      [v_half_contact_length + v_one_half, v_zero, v_one_half + v_half_contact_length],
      [(-v_half_contact_length) + v_one_half, v_zero, v_one_half + v_half_contact_length],
      [v_inner_half_contact_length + v_one_half, v_one_half - v_wall_thickness, v_one_half + v_inner_half_contact_length],
      [(-v_inner_half_contact_length) + v_one_half, v_one_half - v_wall_thickness, v_one_half + v_inner_half_contact_length]]
  let connection_top_right : List (List K) := [
      [v_one_half + v_half_contact_length, v_one_half + v_half_contact_length, v_one],
      [v_one_half + v_half_contact_length, v_one_half - v_half_contact_length, v_one],
      [v_one_half + v_inner_half_contact_length, v_one_half + v_inner_half_contact_length, v_one_half + v_wall_thickness],
      [v_one_half + v_inner_half_contact_length, v_one_half - v_inner_half_contact_length, v_one_half + v_wall_thickness],
      [v_one, v_one_half + v_half_contact_length, v_one_half + v_half_contact_length],
      [v_one, v_one_half - v_half_contact_length, v_one_half + v_half_contact_length],
      [v_one_half + v_wall_thickness, v_one_half + v_inner_half_contact_length, v_one_half + v_inner_half_contact_length],
      [v_one_half + v_wall_thickness, v_one_half - v_inner_half_contact_length, v_one_half + v_inner_half_contact_length]]
  let connection_top_left : List (List K) := [
      [v_one_half - v_half_contact_length, v_one_half + v_half_contact_length, v_one],
      [v_one_half - v_half_contact_length, v_one_half - v_half_contact_length, v_one],
      [v_zero, v_one_half + v_half_contact_length, v_one_half + v_half_contact_length],
      [v_zero, v_one_half - v_half_contact_length, v_one_half + v_half_contact_length],
      [v_one_half - v_inner_half_contact_length, v_one_half + v_inner_half_contact_length, v_one_half + v_wall_thickness],
      [v_one_half - v_inner_half_contact_length, v_one_half - v_inner_half_contact_length, v_one_half + v_wall_thickness],
      [v_one_half - v_wall_thickness, v_one_half + v_inner_half_contact_length, v_one_half + v_inner_half_contact_length],
      [v_one_half - v_wall_thickness, v_one_half - v_inner_half_contact_length, v_one_half + v_inner_half_contact_length]]
  let connection_bottom_left : List (List K) := [
      [v_zero, v_one_half + v_half_contact_length, v_one_half - v_half_contact_length],
      [v_zero, v_one_half - v_half_contact_length, v_one_half - v_half_contact_length],
      [v_zero, v_one, v_zero],
      [v_zero, v_zero, v_zero],
      [v_one_half - v_wall_thickness, v_one_half + v_inner_half_contact_length, v_one_half - v_inner_half_contact_length],
      [v_one_half - v_wall_thickness, v_one_half - v_inner_half_contact_length, v_one_half - v_inner_half_contact_length],
      [v_one_half - v_inner_half_contact_length, v_one_half + v_inner_half_contact_length, v_one_half - v_wall_thickness],
      [v_one_half - v_inner_half_contact_length, v_one_half - v_inner_half_contact_length, v_one_half - v_wall_thickness]]
  let connection_bottom_right : List (List K) := [
      [v_one, v_half_contact_length + v_one_half, v_one_half - v_half_contact_length],
      [v_one, (-v_half_contact_length) + v_one_half, v_one_half - v_half_contact_length],
      [v_wall_thickness + v_one_half, v_inner_half_contact_length + v_one_half, v_one_half - v_inner_half_contact_length],
      [v_wall_thickness + v_one_half, (-v_inner_half_contact_length) + v_one_half, v_one_half - v_inner_half_contact_length],
      [v_one, v_one, v_zero],
      [v_one, v_zero, v_zero],
      [v_one_half + v_inner_half_contact_length, v_one_half + v_inner_half_contact_length, v_one_half - v_wall_thickness],
      [v_one_half + v_inner_half_contact_length, v_one_half - v_inner_half_contact_length, v_one_half - v_wall_thickness]]
  [ ⟨[1, 1, 1], connection_bottom_left⟩,
    ⟨[1, 1, 1], connection_bottom_right⟩,
    ⟨[1, 1, 1], connection_back_bottom⟩,
    ⟨[1, 1, 1], connection_front_bottom⟩,
    ⟨[1, 1, 1], connection_front_top⟩,
    ⟨[1, 1, 1], connection_back_top⟩,
    ⟨[1, 1, 1], connection_top_right⟩,
    ⟨[1, 1, 1], connection_front_left⟩,
    ⟨[1, 1, 1], right⟩,
    ⟨[1, 1, 1], connection_front_right⟩,
    ⟨[1, 1, 1], back⟩,
    ⟨[1, 1, 1], connection_back_left⟩,
    ⟨[1, 1, 1], left⟩,
    ⟨[1, 1, 1], connection_top_left⟩,
    ⟨[1, 1, 1], front⟩,
    ⟨[1, 1, 1], connection_back_right⟩,
    ⟨[1, 1, 1], bottom⟩,
    ⟨[1, 1, 1], top⟩ ]

end

end Splinepy.Tiles
