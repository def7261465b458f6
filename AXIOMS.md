# Axioms of the theorems named in MANIFEST.json

Output of `#print axioms`, grouped.

## depends on axioms: [propext, Classical.choice, Quot.sound]

* `Splinepy.KnotInsertion.knot_insertion_preserves_curve`
* `Splinepy.KnotInsertion.knot_insertion_preserves_end`
* `Splinepy.KnotInsertion.basis_refined`
* `Splinepy.KnotInsertion.global_insertion_preserves_tensor`
* `Splinepy.KnotInsertion.degree_zero_violates`
* `Splinepy.KnotInsertion.unclamped_violates`
* `Splinepy.KnotInsertion.knot_insertion_rows_convex`
* `Splinepy.KnotInsertion.merged_knots_partial`
* `Splinepy.KnotInsertion.merge_behind_violates`
* `Splinepy.KnotInsertion.extraction_knots_partial`
* `Splinepy.KnotInsertion.bezier_extraction_exact`
* `Splinepy.KnotInsertion.extraction_degree_zero_violates`
* `Splinepy.KnotInsertion.extraction_unclamped_violates`
* `Splinepy.BezierPatches.bezier_patch_ids`
* `Splinepy.BezierPatches.bezier_patch_ids_nodup`
* `Splinepy.KnotInsertion.uniform_refine_spec`
* `Splinepy.KnotInsertion.uniform_refine_sorted`
* `Splinepy.KnotInsertion.uniform_value`
* `Splinepy.Grid.sample_point_correct`
* `Splinepy.Grid.coord_endpoints`
* `Splinepy.Grid.coord_mem_strictMono`
* `Splinepy.Grid.sample_indices_bijective`
* `Splinepy.Grid.fill_eq_samples`
* `Splinepy.Grid.boundary_point_coordinates`
* `Splinepy.Grid.boundary_points_exact`
* `Splinepy.Grid.boundary_slice_control_points`
* `Splinepy.Grid.boundaryFromAxis_spec`
* `Splinepy.Threads.chunks_eq_range`
* `Splinepy.Threads.each_query_once_partial`
* `Splinepy.Threads.in_range_iff`
* `Splinepy.Threads.in_range_of_dvd`
* `Splinepy.Threads.evaluate_schedule_independent`
* `Splinepy.Threads.strided_each_item_once_partial`
* `Splinepy.Threads.multipatch_evaluate_correct_partial`
* `Splinepy.Threads.extractAllBoundarySplines_partial`
* `Splinepy.Interfaces.interfaces_exact_partial`
* `Splinepy.Interfaces.interfaces_mutual_partial`
* `Splinepy.Interfaces.interfaces_triple_rejected`
* `Splinepy.Interfaces.interfaces_sound`
* `Splinepy.Interfaces.interfaces_mutual_violates`
* `Splinepy.BoundaryLabels.boundary_labels_components_partial`
* `Splinepy.BoundaryLabels.areG1_iff`
* `Splinepy.BoundaryLabels.areG1_scale`
* `Splinepy.BoundaryLabels.areG1_parallel`
* `Splinepy.Multipatch.boundary_bookkeeping_partial`
* `Splinepy.Multipatch.set_boundary_spec`
* `Splinepy.MultipatchCache.caches_coherent_partial`
* `Splinepy.Multipatch.boundary_patch_ids_exact`
* `Splinepy.Multipatch.boundary_patch_ids_boundary_partial`
* `Splinepy.Multipatch.control_point_offsets_prefix`
* `Splinepy.Multipatch.control_point_ranges_partition`
* `Splinepy.Multipatch.control_points_concat`
* `Splinepy.Mismatch.raise_mismatch_exact`
* `Splinepy.Mismatch.raise_mismatch_never_crashes`
* `Splinepy.Mismatch.raise_mismatch2_exact`
* `Splinepy.Mismatch.set_patches_accepts_iff`
* `Splinepy.Mismatch.add_fields_all_or_nothing`
* `Splinepy.Mismatch.add_fields_accepts_iff`
* `Splinepy.SplineCore.construction_accepts_partial`
* `Splinepy.SplineCore.knots_below_violates`
* `Splinepy.SplineCore.construction_kind`
* `Splinepy.SplineCore.reads_latest_partial`
* `Splinepy.SplineCore.rejected_assignment_violates`
* `Splinepy.SplineCore.lost_assignment_violates`
* `Splinepy.SplineCore.multi_index_fresh_partial`
* `Splinepy.SplineCore.stale_multi_index_violates`
* `Splinepy.Pointers.writes_like_record`
* `Splinepy.Pointers.zero_weight_violates`
* `Splinepy.ArraySet.setitem_reaches_core_partial`
* `Splinepy.ArraySet.setitem_weights_partial`
* `Splinepy.Pointers.negative_ids_partial`
* `Splinepy.Pointers.negative_ids_weights_violates`
* `Splinepy.ArraySet.slice_assignment`
* `Splinepy.ArraySet.assignments_partial`
* `Splinepy.Greville.greville_sorted`
* `Splinepy.Greville.greville_bounds`
* `Splinepy.Greville.greville_distinct`
* `Splinepy.Greville.greville_reproduces`
* `Splinepy.Greville.bezier_greville`
* `Splinepy.Greville.greville_unclamped_violates`
* `Splinepy.Greville.greville_overclamped_violates`
* `Splinepy.Solve.solve_solves`
* `Splinepy.Solve.solve_row_order`
* `Splinepy.Solve.trivialKernel_iff_det`
* `Splinepy.Proximity.proximity_in_bounds`
* `Splinepy.Proximity.levenberg_marquart_terminates`
* `Splinepy.Proximity.query_terminates`
* `Splinepy.Proximity.query_terminates_slsqp`
* `Splinepy.Proximity.proximity_consistent_partial`
* `Splinepy.Proximity.proximity_sample_hit`
* `Splinepy.Proximity.inconsistent_result_violates`
* `Splinepy.Proximity.worse_than_initial_violates`
* `Splinepy.Integrate.default_volume_exact`
* `Splinepy.Integrate.rule_weights_points`
* `Splinepy.Integrate.gauss2_ok`
* `Splinepy.Integrate.leggauss_exists`
* `Splinepy.Integrate.gauss_exists`
* `Splinepy.Integrate.parametric_function_partial`
* `Splinepy.Integrate.parametric_function_elements_partial`
* `Splinepy.Integrate.parametric_function_value`
* `Splinepy.Integrate.knot_spans_violates`
* `Splinepy.Fit.fit_knot_vector`
* `Splinepy.Fit.params_increasing`
* `Splinepy.Fit.fit_knots`
* `Splinepy.Fit.fit_curve_knots`
* `Splinepy.Fit.specifications_rejected_iff`
* `Splinepy.Fit.collocation_injective`
* `Splinepy.Fit.fit_solvable`
* `Splinepy.Fit.given_knot_vector_partial`
* `Splinepy.Fit.fitting_spline_honoured`
* `Splinepy.Fit.given_knot_vector_violates`
* `Splinepy.Ffd.coordinates_inside`
* `Splinepy.Ffd.coordinates_order`
* `Splinepy.Ffd.default_moves_little`
* `Splinepy.Ffd.user_spline_deforms`
* `Splinepy.Micro.tiling_per_span`
* `Splinepy.Micro.tiling_total_partial`
* `Splinepy.Micro.tiling_shift_violates`
* `Splinepy.Index.cartesian_product_reverse`
* `Splinepy.Index.cartesian_product_plain`
* `Splinepy.Index.cartesian_product_complete`
* `Splinepy.Index.uniform_query_rows`
* `Splinepy.Index.multi_index_get`
* `Splinepy.Index.multi_index_single`
* `Splinepy.Index.multi_index_bijective`
* `Splinepy.Index.multi_index_slice_exact`
* `Splinepy.Index.multi_index_all`
* `Splinepy.Index.multi_index_error_iff`
* `Splinepy.Index.permute_accepts_iff`
* `Splinepy.Index.permute_spec`
* `Splinepy.Index.permute_comp`
* `Splinepy.Index.permute_id`
* `Splinepy.Index.permute_inverse`
* `Splinepy.Index.permute_evaluates_same`
* `Splinepy.Index.flipKnots_sorted`
* `Splinepy.Index.flip_spec`
* `Splinepy.Index.flip_involutive_partial`
* `Splinepy.Index.flip_evaluates_same`
* `Splinepy.Index.flip_duplicate_axis_violates`
* `Splinepy.RationalBasis.rational_partition_of_unity`
* `Splinepy.RationalBasis.rational_nonneg`
* `Splinepy.RationalBasis.rational_evaluates`
* `Splinepy.RationalBasis.rational_equal_weights`
* `Splinepy.RationalBasis.supportOf_exists`
* `Splinepy.RationalBasis.rational_derivative`
* `Splinepy.Unique.unique_multiplicities`
* `Splinepy.Unique.unique_knots_exact`
* `Splinepy.Unique.unique_knots_tolerance`
* `Splinepy.Unique.unique_knots_repeat`
* `Splinepy.Unique.unique_knots_unclamped_violates`
* `Splinepy.Split.split_splines_partial`
* `Splinepy.Split.casteljau_halves`
* `Splinepy.Split.split_pieces_partial`
* `Splinepy.Split.pieces_meet`
* `Splinepy.Files.json_round_trip_partial`
* `Splinepy.Files.npz_round_trip_partial`
* `Splinepy.Files.npz_round_trip_typed_partial`
* `Splinepy.Files.npz_name_violates`
* `Splinepy.Files.json_spline_class_violates`
* `Splinepy.Files.json_moved_knots_violates`
* `Splinepy.Gismo.topology_round_trip_partial`
* `Splinepy.Gismo.topology_unlabeled`
* `Splinepy.Gismo.unlabeled_ids_violates`
* `Splinepy.Gismo.support_numbering`
* `Splinepy.Gismo.support_accepted_iff`
* `Splinepy.Create.extruded_rejects_iff`
* `Splinepy.Create.extruded_valid`
* `Splinepy.Create.extruded_evaluates`
* `Splinepy.Create.embedded_evaluates`
* `Splinepy.Create.box_evaluates`
* `Splinepy.Create.fromBounds_evaluates`
* `Splinepy.Create.parametricView_identity_partial`
* `Splinepy.Create.parametricView_rational_violates`
* `Splinepy.Revolve.revolved_evaluates`
* `Splinepy.Revolve.turned_distance_plane`
* `Splinepy.Revolve.turned_distance_space`
* `Splinepy.Revolve.revolved_rejects_iff`
* `Splinepy.Revolve.knotSpans_spec`
* `Splinepy.Orientation.orientation_exact`
* `Splinepy.Orientation.orientation_swap`
* `Splinepy.Orientation.orientation_rejects_iff`
* `Splinepy.Orientation.orientation_zero_tolerance_violates`
* `Splinepy.Orientation.orientation_skewed_violates`
* `Splinepy.Check.valid_queries_raises_iff`
* `Splinepy.Check.valid_queries_above_names`
* `Splinepy.Check.valid_queries_below_names_violates`
* `Splinepy.Check.clamped_iff`
* `Splinepy.Mapper.basis_physical`
* `Splinepy.Mapper.field_physical`
* `Splinepy.Mapper.basis_shape`
* `Splinepy.Mapper.field_rejects_iff`
* `Splinepy.Mapper.physical_exists`
* `Splinepy.Mapper.physical_unique`
* `Splinepy.Mapper.init_accepts_iff`
* `Splinepy.Mapper.basis_calls_physical`
* `Splinepy.Mapper.field_calls_physical`
* `Splinepy.Mapper.calls_succeed_iff`
* `Splinepy.Index.matrix_times_cps`
* `Splinepy.ExtractSpline.extract_interval`
* `Splinepy.ExtractSpline.extract_interval_bezier`
* `Splinepy.ExtractSpline.extract_section`
* `Splinepy.ExtractSpline.extract_section_bezier`
* `Splinepy.ExtractSpline.extract_jump_violates`
* `Splinepy.Unique.insert_knots_flags`
* `Splinepy.KnotInsertion.chain_preserves`
* `Splinepy.Multipatch.boundaries_exact`
* `Splinepy.Unique.elevate_degrees_counts`
* `Splinepy.Unique.reduce_degrees_sequence`
* `Splinepy.Unique.reduce_degrees_invalid_violates`
* `Splinepy.SplineCore.edit_after_construction`
* `Splinepy.SplineCore.stale_parameter_space_violates`
* `Splinepy.Fit.fit_interpolates`
* `Splinepy.Fit.fit_endpoints`
* `Splinepy.Fit.fit_minimises`
* `Splinepy.Fit.fit_curve_interpolates`
* `Splinepy.Fit.fit_curve_endpoints`
* `Splinepy.Fit.surface_control_points`
* `Splinepy.Fit.surface_interpolates`
* `Splinepy.Create.withKnotVectors_evaluates`
* `Splinepy.Create.withWeights_evaluates`
* `Splinepy.Create.line_evaluates`
* `Splinepy.Revolve.arc_evaluates`
* `Splinepy.Revolve.arc_rejects_iff`
* `Splinepy.Revolve.arc_near_half_turn_violates`
* `Splinepy.Revolve.circle_evaluates`
* `Splinepy.Revolve.disk_evaluates`
* `Splinepy.Revolve.sphere_evaluates`
* `Splinepy.Revolve.surfaceCircle_boundary`
* `Splinepy.Revolve.plate_eq`
* `Splinepy.Revolve.plate_radius_violates`
* `Splinepy.Revolve.torus_evaluates_partial`
* `Splinepy.Revolve.torus_degrees_ignored_violates`
* `Splinepy.Revolve.torus_quarter_violates`
* `Splinepy.Revolve.torus_solid_section_violates`
* `Splinepy.Ffd.normalize_evaluates`
* `Splinepy.Ffd.history_consistent`
* `Splinepy.Ffd.raise_keeps_state`
* `Splinepy.Ffd.history_usable_partial`
* `Splinepy.Ffd.setMesh_outcome`
* `Splinepy.Ffd.other_dimension_violates`
* `Splinepy.Ffd.other_dimension_always_violates`
* `Splinepy.MicroCreate.create_fields_aligned`
* `Splinepy.MicroCreate.create_macro_response_partial`
* `Splinepy.SplineCore.macro_polynomial`
* `Splinepy.MicroCreate.closing_tiles_partial`
* `Splinepy.Tiles.cross2D_derivatives`
* `Splinepy.Tiles.cross2D_closing_derivatives`
* `Splinepy.Tiles.double_lattice_derivatives`
* `Splinepy.Tiles.hollow_cube_derivatives`
* `Splinepy.Tiles.cross3D_derivatives`
* `Splinepy.Tiles.cross3D_linear_derivatives`
* `Splinepy.Tiles.cross3D_closing_derivatives`
* `Splinepy.Tiles.cross3D_linear_closing_derivatives`
* `Splinepy.Tiles.cube_void_derivatives_partial`
* `Splinepy.Tiles.cube_void_derivatives_violates`
* `Splinepy.Tiles.ellips_void_derivatives_partial`
* `Splinepy.Tiles.ellips_void_derivatives_violates`
* `Splinepy.Tiles.chi_derivatives_violates`
* `Splinepy.Tiles.cross2D_in_unit_square`
* `Splinepy.Tiles.double_lattice_in_unit_square`
* `Splinepy.Tiles.hollow_octagon_in_unit_square`
* `Splinepy.Tiles.snappy_in_unit_square_partial`
* `Splinepy.Tiles.snappy_in_unit_square_violates`
* `Splinepy.Tiles.hollow_cube_in_unit_cube`
* `Splinepy.Tiles.cross3D_in_unit_cube`
* `Splinepy.Tiles.cross3D_linear_in_unit_cube`
* `Splinepy.Tiles.chi_in_unit_square`
* `Splinepy.Tiles.cube_void_in_unit_cube_partial`
* `Splinepy.Tiles.cube_void_in_unit_cube_violates`
* `Splinepy.Tiles.ellips_void_in_unit_cube_partial`
* `Splinepy.Tiles.ellips_void_in_unit_cube_violates`
* `Splinepy.Tiles.armadillo_in_unit_cube`
* `Splinepy.Tiles.hollow_octagon_extrude_in_unit_cube`
* `Splinepy.Tiles.inverse_cross_3D_in_unit_cube_partial`
* `Splinepy.Tiles.inverse_cross_3D_in_unit_cube_violates`
* `Splinepy.Tiles.cross2D_joins`
* `Splinepy.Tiles.double_lattice_joins`
* `Splinepy.Tiles.hollow_octagon_joins`
* `Splinepy.Tiles.snappy_joins_partial`
* `Splinepy.Tiles.snappy_joins_violates`
* `Splinepy.Tiles.hollow_cube_joins`
* `Splinepy.Tiles.cross3D_joins_partial`
* `Splinepy.Tiles.cross3DLinear_joins_partial`
* `Splinepy.Tiles.cross3D_joins_violates`
* `Splinepy.Tiles.armadillo_joins`
* `Splinepy.Tiles.hollow_octagon_extrude_joins_partial`
* `Splinepy.Tiles.hollow_octagon_extrude_joins_violates`
* `Splinepy.Tiles.inverse_cross_3D_joins_partial`
* `Splinepy.Tiles.inverse_cross_3D_default_joins`
* `Splinepy.Tiles.cube_void_joins_partial`
* `Splinepy.Tiles.ellips_void_joins_partial`
* `Splinepy.Tiles.cube_void_joins_violates`
* `Splinepy.Tiles.chi_joins`
* `Splinepy.Tiles.cross2D_closes`
* `Splinepy.Tiles.hollow_octagon_closes`
* `Splinepy.Tiles.cross3D_closes_partial`
* `Splinepy.Tiles.cross3DLinear_closes_partial`
* `Splinepy.Tiles.cross3D_closes_violates`
* `Splinepy.Tiles.cross3DLinear_closes_violates`
* `Splinepy.Tiles.hollow_cube_closes_violates`
* `Splinepy.Tiles.hollow_octagon_closing_violates`
* `Splinepy.Tiles.armadillo_closes`
* `Splinepy.Tiles.hollow_octagon_extrude_closes_violates`
* `Splinepy.Mfem.dof_mapping_order`
* `Splinepy.Mfem.load_export`
* `Splinepy.Mfem.read_solution_partial`
* `Splinepy.Mfem.read_solution_violates`
* `Splinepy.Mfem.export_cartesian_topology`
* `Splinepy.Irit.irit_round_trip_partial`
* `Splinepy.Irit.irit_spline_class_violates`
* `Splinepy.Irit.irit_dim_violates`
* `Splinepy.Irit.expand_tabs_content`
* `Splinepy.Irit.expand_tabs_violates`
* `Splinepy.Irit.expand_tabs_copy_violates`
* `Splinepy.Cats.cats_round_trip_partial`
* `Splinepy.Cats.cats_round_trip_nurbs`
* `Splinepy.Cats.cats_spline_class_violates`
* `Splinepy.Gismo.gismo_round_trip`
* `Splinepy.Gismo.options_round_trip_partial`
* `Splinepy.Gismo.options_stable`
* `Splinepy.Gismo.options_tag_violates`
* `Splinepy.Gismo.options_grow_violates`
* `Splinepy.Gismo.binary_reads_partial`
* `Splinepy.Gismo.binary_reads_violates`
* `Splinepy.DetSpline.determinant_spline_evaluates_partial`
* `Splinepy.DetSpline.determinant_spline_positive_partial`
* `Splinepy.DetSpline.determinant_spline_knots_evaluates_partial`
* `Splinepy.DetSpline.determinant_spline_knots_positive_partial`
* `Splinepy.DetSpline.determinant_spline_rejects`
* `Splinepy.DetSpline.determinant_spline_linear_violates`
* `Splinepy.Boundary.boundary_restricts`
* `Splinepy.Boundary.boundaries_listed`
* `Splinepy.Boundary.unclamped_boundary_violates`
* `Splinepy.Mesh.edges_draw_knot_lines`
* `Splinepy.Mesh.edges_on_spline`
* `Splinepy.Mesh.curve_edges_draw`
* `Splinepy.Mesh.surface_faces_draw`
* `Splinepy.Mesh.patch_cells_draw`
* `Splinepy.Mesh.multipatch_faces_draw`
* `Splinepy.Mesh.volume_faces_on_boundary`
* `Splinepy.FieldData.multipatch_volume_faces_draw`
* `Splinepy.Bases.bases_graph`
* `Splinepy.Bases.bases_view`
* `Splinepy.Bases.bases_parametric`
* `Splinepy.Bases.bases_partition`
* `Splinepy.Bases.bases_rational_violates`
* `Splinepy.Png.png_round_trip`
* `Splinepy.Png.png_written_iff`
* `Splinepy.Index.flip_evaluates`
* `Splinepy.Index.flip_jump_violates`
* `Splinepy.Svg.curve_path_draws_partial`
* `Splinepy.Svg.surface_path_draws_partial`
* `Splinepy.Svg.spline_within_control_points`
* `Splinepy.Svg.drawn_in_view`
* `Splinepy.Svg.view_tight`
* `Splinepy.Svg.surface_mesh`
* `Splinepy.Svg.scalar_bar_place`
* `Splinepy.Svg.scalar_bar_below_iff`
* `Splinepy.Svg.scalar_bar_violates`
* `Splinepy.Svg.ticks_agree`
* `Splinepy.Svg.colour_round_trip`
* `Splinepy.Svg.colour_range_violates`
* `Splinepy.Svg.crop_moves_partial`
* `Splinepy.Svg.crop_some_iff`
* `Splinepy.Svg.crop_violates`
* `Splinepy.Quiver.arrows_drawn_partial`
* `Splinepy.Quiver.arrow_shape`
* `Splinepy.Quiver.arrow_tip`
* `Splinepy.Quiver.no_arrows_violates`
* `Splinepy.Quiver.arrow_outside_violates`
* `Splinepy.FieldData.spline_field_matches`
* `Splinepy.FieldData.function_field_matches_partial`
* `Splinepy.FieldData.volume_field_matches`
* `Splinepy.FieldData.volume_function_violates`
* `Splinepy.FieldData.stale_bounds_violates`
* `Splinepy.FieldData.multipatch_field_matches`
* `Splinepy.FieldData.multipatch_function_violates`
* `Splinepy.FieldData.multipatch_volume_matches_partial`
* `Splinepy.FieldData.jump_violates`
* `Splinepy.FieldData.constant_violates`
* `Splinepy.BezierAlgebra.composition_derivative_chain`
* `Splinepy.BezierAlgebra.composition_derivative_sum`
* `Splinepy.BezierAlgebra.composition_derivative_accepts_iff`
* `Splinepy.BezierAlgebra.composition_derivative_rational_violates`
* `Splinepy.BezierAlgebra.operations_exist`
* `Splinepy.BezierAlgebra.composition_derivative_sample`
* `Splinepy.BezierAlgebra.product_values_partial`
* `Splinepy.BezierAlgebra.sum_values`
* `Splinepy.BezierAlgebra.product_commutes_violates`
* `Splinepy.BezierAlgebra.times_number_partial`
* `Splinepy.BezierAlgebra.times_number_values`
* `Splinepy.Cone.pyramid_evaluates`
* `Splinepy.Cone.cone_solid_partial`
* `Splinepy.Cone.cone_surface_partial`
* `Splinepy.Cone.cone_tiny_violates`
* `Splinepy.Tiles.cross2D_oriented`
* `Splinepy.Tiles.cross2D_closing_oriented`
* `Splinepy.Tiles.double_lattice_oriented`
* `Splinepy.Tiles.hollow_octagon_oriented`
* `Splinepy.Tiles.cross3D_oriented_partial`
* `Splinepy.Tiles.cross3DLinear_oriented_partial`
* `Splinepy.Tiles.cross3D_closing_oriented`
* `Splinepy.Tiles.cross3DLinear_closing_oriented`
* `Splinepy.Tiles.snappy_oriented_partial`
* `Splinepy.Tiles.cube_void_oriented_partial`
* `Splinepy.Tiles.cross3D_oriented_violates`
* `Splinepy.Tiles.snappy_oriented_violates`
* `Splinepy.Tiles.cube_void_oriented_violates`
* `Splinepy.Tiles.hollow_cube_oriented_violates`
* `Splinepy.Tiles.hollow_cube_tangled_violates`
* `Splinepy.Tiles.hollow_octagon_extrude_oriented`
* `Splinepy.Tiles.inverse_cross_3D_oriented_violates`
* `Splinepy.Tiles.inverse_cross_3D_tangled`
* `Splinepy.Tiles.armadillo_oriented`
* `Splinepy.Tiles.ellips_void_oriented_partial`
* `Splinepy.Tiles.ellips_void_oriented_violates`
* `Splinepy.Convert.export_load`
* `Splinepy.Convert.convert_keeps_partial`
* `Splinepy.Convert.convert_round_trip`
* `Splinepy.Convert.extension_refused`
* `Splinepy.Convert.failed_export_keeps_partial`
* `Splinepy.Convert.load_svg_refused`
* `Splinepy.Convert.convert_from_xml_violates`
* `Splinepy.Convert.convert_to_mesh_violates`
* `Splinepy.Convert.failed_export_violates`
* `Splinepy.Tiles.inverse_cross_fits_cross_partial`
* `Splinepy.Tiles.inverse_cross_fits_cross_violates`
* `Splinepy.Tiles.inverse_cross_closing_fits_partial`
* `Splinepy.Tiles.inverse_cross_closing_violates`
* `Splinepy.Tiles.armadillo_connected_partial`
* `Splinepy.Tiles.armadillo_x_min_connected_violates`
* `Splinepy.Tiles.hollow_octagon_extrude_connected`
* `Splinepy.Tiles.inverse_cross_3D_connected`
* `Splinepy.Tiles.cross2D_connected`
* `Splinepy.Tiles.double_lattice_connected`
* `Splinepy.Tiles.hollow_octagon_connected`
* `Splinepy.Tiles.snappy_connected`
* `Splinepy.Tiles.cross3D_connected_partial`
* `Splinepy.Tiles.cross3DLinear_connected_partial`
* `Splinepy.Tiles.chi_connected`
* `Splinepy.Tiles.cube_void_connected`
* `Splinepy.Tiles.ellips_void_connected`
* `Splinepy.Tiles.hollow_cube_connected_violates`
* `Splinepy.Tiles.cross3D_connected_violates`
* `Splinepy.Tiles.cross3DLinear_connected_violates`
* `Splinepy.BezierSpline.beziers_points`
* `Splinepy.BezierSpline.someInsert_inserts`
* `Splinepy.BezierSpline.missing_needed`
* `Splinepy.BezierSpline.runs_multiplicities`
* `Splinepy.MicroGeometry.microstructure_span_wise`
* `Splinepy.MicroGeometry.microstructure_total_partial`
* `Splinepy.MicroGeometry.contract_exists`
* `Splinepy.MicroGeometry.composes_exists`
* `Splinepy.MicroGeometry.microstructure_sample`
* `Splinepy.Volume.volume_integral`
* `Splinepy.Volume.volume_integral_bezier`
* `Splinepy.Volume.integral_same_points`
* `Splinepy.Volume.volume_raises`
* `Splinepy.Volume.jacobians_exist`
* `Splinepy.MacroMatrix.macro_fields_span_wise`
* `Splinepy.MacroMatrix.macro_fields_total_partial`
* `Splinepy.MacroMatrix.matrices_parts`
* `Splinepy.MacroMatrix.fields_of_matrices`
* `Splinepy.MacroMatrix.basis_composes_exists`
* `Splinepy.MacroMatrix.macro_nothing_to_do_violates`
* `Splinepy.MicroSens.design_fields_span_wise`
* `Splinepy.MicroSens.design_fields_total_partial`
* `Splinepy.MicroSens.create_geometry`
* `Splinepy.MicroSens.design_fields_sample`
* `Splinepy.MicroSens.design_fields_rational_violates`
* `Splinepy.MicroSens.design_fields_rational_sample`
* `Splinepy.MicroSens.classes_exist`
* `Splinepy.MicroSens.design_nothing_to_do_violates`
* `Splinepy.MicroTile.tileAt`
* `Splinepy.MicroTile.tiles_design_fields`
* `Splinepy.MicroTile.cross2D_design_fields`
* `Splinepy.MicroTile.double_lattice_design_fields`
* `Splinepy.MicroTile.hollow_cube_design_fields`
* `Splinepy.MicroTile.cross3D_design_fields`
* `Splinepy.MicroTile.cross3D_linear_design_fields`
* `Splinepy.MicroTile.cross2D_design_fields_sample`
* `Splinepy.Watertight.watertight_prepared`
* `Splinepy.Watertight.seamless_of_fits`
* `Splinepy.Watertight.cross2D_watertight`
* `Splinepy.Watertight.double_lattice_watertight`
* `Splinepy.Watertight.hollow_octagon_watertight`
* `Splinepy.Watertight.hollow_cube_watertight`
* `Splinepy.Watertight.armadillo_watertight`
* `Splinepy.Watertight.cross3D_watertight_partial`
* `Splinepy.Watertight.cross3DLinear_watertight_partial`
* `Splinepy.Watertight.inverse_cross_3D_watertight_partial`
* `Splinepy.Watertight.hollow_octagon_extrude_watertight_partial`
* `Splinepy.Watertight.cube_void_watertight_partial`
* `Splinepy.Watertight.ellips_void_watertight_partial`
* `Splinepy.Watertight.chi_watertight`
* `Splinepy.Watertight.created`
* `Splinepy.Watertight.watertight_sample`
* `Splinepy.Lifetime.evaluable_partial`
* `Splinepy.Lifetime.calls_defined_partial`
* `Splinepy.Lifetime.bezier_evaluable`
* `Splinepy.Lifetime.write_reaches_partial`
* `Splinepy.Lifetime.write_defined_partial`
* `Splinepy.Lifetime.array_kept_over_refinement_violates`
* `Splinepy.Lifetime.bezier_array_kept_over_refinement_violates`
* `Splinepy.Lifetime.same_count_violates`
* `Splinepy.Lifetime.shared_core_violates`
* `Splinepy.Lifetime.bezier_array_kept_over_assignment_violates`
* `Splinepy.MultipatchData.read_stored_partial`
* `Splinepy.MultipatchData.field_numbers_stable`
* `Splinepy.MultipatchData.rejected_field_violates`
* `Splinepy.MultipatchData.new_patches_violates`
* `Splinepy.MultipatchData.derived_data`
* `Splinepy.MicroInterfaces.neighbours_connected_partial`
* `Splinepy.MicroInterfaces.class_connected_partial`
* `Splinepy.MicroInterfaces.connections_sound`
* `Splinepy.MicroInterfaces.centers_get`
* `Splinepy.MicroInterfaces.center_of_face`
* `Splinepy.MicroInterfaces.bezier_centers_get`
* `Splinepy.MicroInterfaces.chi_interfaces_violates`
* `Splinepy.Queries.evaluate_batch`
* `Splinepy.Queries.derivative_batch`
* `Splinepy.Queries.jacobian_batch`
* `Splinepy.Queries.support_batch`
* `Splinepy.Queries.basis_batch`
* `Splinepy.Queries.basis_and_support_batch`
* `Splinepy.Queries.basis_derivative_batch`
* `Splinepy.Queries.basis_derivative_and_support_batch`
* `Splinepy.Queries.proximities_batch_partial`
* `Splinepy.Queries.plantTree_spec`
* `Splinepy.Queries.multipatch_batch_partial`
* `Splinepy.Queries.multipatch_layout_violates`
* `Splinepy.ThreadErrors.no_error_returns`
* `Splinepy.ThreadErrors.threads_violates`
* `Splinepy.ThreadErrors.multipatch_violates`
* `Splinepy.ThreadErrors.proximities_without_tree`
* `Splinepy.ThreadErrors.proximities_refused`
* `Splinepy.ThreadErrors.field_mismatch_raises`
* `Splinepy.ThreadErrors.field_invalid_violates`
* `Splinepy.ThreadErrors.proximities_with_tree`
* `Splinepy.ThreadErrors.distinct_of_nodup`
* `Splinepy.ThreadErrors.shared_object_violates`
* `Splinepy.CallSettings.second_tolerance_ignored_violates`
* `Splinepy.Layout.careful_reads_elements`
* `Splinepy.Layout.contiguous_reads_elements_partial`
* `Splinepy.Layout.layout_independent_iff`
* `Splinepy.Layout.elements_unique`
* `Splinepy.RefineCache.refused_first`
* `Splinepy.Copies.copy_independent`
* `Splinepy.Copies.apart_undisturbed`
* `Splinepy.Copies.share_violates`
* `Splinepy.Copies.beziers_violates`
* `Splinepy.ArrayClass.index_bijective`
* `Splinepy.ArrayClass.frees_once`
* `Splinepy.ArrayClass.frees_all`
* `Splinepy.ArrayClass.write_read_partial`
* `Splinepy.ArrayClass.moved_from_violates`
* `Splinepy.Logging.printed_once`
* `Splinepy.Logging.delivered_all`
* `Splinepy.Logging.written_once_partial`
* `Splinepy.Logging.earlier_file_violates`
* `Splinepy.Slsqp.slsqp_stops`
* `Splinepy.Slsqp.slsqp_inside`
* `Splinepy.Slsqp.slsqp_descends`
* `Splinepy.Slsqp.rank_one_update`
* `Splinepy.Slsqp.bfgs_update`
* `Splinepy.Proximity.slsqp_points_inside`
* `Splinepy.Slsqp.slsqp_updates`
* `Splinepy.Slsqp.slsqp_remembers`
* `Splinepy.Pickle.history_roundtrip_partial`
* `Splinepy.Pickle.created_rebuildable`
* `Splinepy.Pickle.moved_knots_violates`
* `Splinepy.Slsqp.direction_exact`
* `Splinepy.Slsqp.attempt_exact`
* `Splinepy.Slsqp.slsqp_reports`
* `Splinepy.Slsqp.edge_ends`
* `Splinepy.Lsq.nnls_stops`
* `Splinepy.Lsq.nnls_optimal`
* `Splinepy.Lsq.nnls_defined`
* `Splinepy.Lsq.ldp_spec`
* `Splinepy.Lsq.lsi_spec`
* `Splinepy.Lsq.lsq_spec`
* `Splinepy.Catalogue.of_answer`
* `Splinepy.Catalogue.union_answer`
* `Splinepy.Catalogue.intersection_answer`
* `Splinepy.Catalogue.all_kinds_partial`
* `Splinepy.Catalogue.all_kinds_violates`
* `Splinepy.Catalogue.by_dim_answer`
* `Splinepy.Catalogue.everything_answer`
* `Splinepy.Catalogue.get_answer`
* `Splinepy.Catalogue.answers_stay`
* `Splinepy.Dispatch.create_exact`
* `Splinepy.Dispatch.null_lookup_exact`
* `Splinepy.Dispatch.null_lookup_partial`
* `Splinepy.Dispatch.null_more_violates`
* `Splinepy.Dispatch.field_evaluate`
* `Splinepy.Dispatch.field_unchecked_violates`
* `Splinepy.Dispatch.field_sub_multipatch_violates`
* `Splinepy.Dispatch.field_boundary_multipatch_violates`
* `Splinepy.KnotSharing.changes_only_shared`
* `Splinepy.KnotSharing.independent_partial`
* `Splinepy.KnotSharing.copy_unshared`
* `Splinepy.KnotSharing.boundary_refine_violates`
* `Splinepy.KnotSharing.boundary_edit_violates`
* `Splinepy.KnotSharing.assign_object_violates`
* `Splinepy.RationalArrays.arrays_reach_partial`
* `Splinepy.RationalArrays.rational_calls_defined_partial`
* `Splinepy.RationalArrays.refined_control_points_violates`
* `Splinepy.RationalArrays.refined_weights_violates`
* `Splinepy.RationalArrays.refined_back_violates`
* `Splinepy.RationalArrays.rejected_degrees_violates`
* `Splinepy.RationalArrays.weights_lost_violates`
* `Splinepy.Arrows.spline_arrows`
* `Splinepy.Arrows.sequence_arrows`
* `Splinepy.Arrows.function_arrows_partial`
* `Splinepy.Arrows.construct_iff`
* `Splinepy.Arrows.check_iff`
* `Splinepy.Arrows.type_error_violates`
* `Splinepy.Arrows.multipatch_sequence_violates`
* `Splinepy.ControlMesh.control_mesh_lines`
* `Splinepy.ControlMesh.multipatch_control_mesh_lines`
* `Splinepy.ControlMesh.control_mesh_none`
* `Splinepy.ControlMesh.control_mesh_flat_violates`
* `Splinepy.SvgApprox.approximate_bspline`
* `Splinepy.SvgApprox.approximate_ok`
* `Splinepy.SvgApprox.refine_ok`
* `Splinepy.SvgApprox.fitCubic_ok`
* `Splinepy.SvgApprox.libraries_exist`
* `Splinepy.SvgApprox.corner_violates`
* `Splinepy.SvgApprox.domain_violates`
* `Splinepy.SvgApprox.unclamped_violates`
* `Splinepy.Display.shown_partial`
* `Splinepy.Display.showable_eq`
* `Splinepy.Display.multipatch_violates`
* `Splinepy.Display.window_panels`
* `Splinepy.CliShow.shown_elements`
* `Splinepy.UniformRefineCall.uniform_refine_partial`
* `Splinepy.UniformRefineCall.uniform_refine_all`
* `Splinepy.UniformRefineCall.partly_refined_violates`
* `Splinepy.UniformRefineCall.negative_direction_violates`
* `Splinepy.ExtractPlanes.extract_planes_partial`
* `Splinepy.ExtractPlanes.extract_planes_bezier_partial`
* `Splinepy.KnotRead.slice_reads`
* `Splinepy.KnotRead.slice_reads_int`
* `Splinepy.KnotRead.item_reads`
* `Splinepy.FitCalls.curve_returns_partial`
* `Splinepy.FitCalls.curve_returns_iff`
* `Splinepy.FitCalls.surface_returns_partial`
* `Splinepy.FitCalls.one_coordinate_violates`
* `Splinepy.Tiles.extrude_closing_partial`
* `Splinepy.Tiles.extrude_closing_returns`
* `Splinepy.Tiles.extrude_closing_oriented`
* `Splinepy.Tiles.extrude_closing_dimension_violates`
* `Splinepy.Tiles.extrude_closing_contact_violates`
* `Splinepy.Sample.sample_partial`
* `Splinepy.Sample.sample_uniform`
* `Splinepy.Sample.multipatch_sample_partial`
* `Splinepy.Sample.multipatch_sample_size_violates`
* `Splinepy.Sample.sample_layout_violates`
* `Splinepy.ShowStyle.style_follows_partial`
* `Splinepy.ShowStyle.style_curve_knots`
* `Splinepy.ShowStyle.shown_knots`
* `Splinepy.ShowStyle.knot_width_violates`
* `Splinepy.ShowStyle.mesh_alpha_violates`
* `Splinepy.MicroShow.history_saved`
* `Splinepy.MicroShow.show_current`
* `Splinepy.MicroShow.show_saved_partial`
* `Splinepy.MicroShow.options_kept_partial`
* `Splinepy.MicroShow.show_options_violates`
* `Splinepy.MicroShow.show_stale_violates`
* `Splinepy.Svg.field_shown_partial`
* `Splinepy.Svg.field_white_violates`
* `Splinepy.Svg.field_column_violates`
* `Splinepy.Svg.field_row_violates`
* `Splinepy.Svg.field_channels`
* `Splinepy.Svg.field_place`
* `Splinepy.Svg.field_written_iff`
* `Splinepy.ExtractArrows.edges_partial`

## depends on axioms: [propext, Quot.sound]

* `Splinepy.Grid.setUp_rejects_iff`
* `Splinepy.Threads.out_of_range_chunk_violates`
* `Splinepy.Threads.empty_queries_violates`
* `Splinepy.Threads.strided_nonpositive_violates`
* `Splinepy.Interfaces.interfaces_incomplete_rejected`
* `Splinepy.BoundaryLabels.areG1_symm`
* `Splinepy.Multipatch.combine_positive_violates`
* `Splinepy.Multipatch.combine_positive_violates_all`
* `Splinepy.MultipatchCache.reads_coherent`
* `Splinepy.MultipatchCache.orientations_coherent_partial`
* `Splinepy.Multipatch.boundary_patch_ids_zero_violates`
* `Splinepy.Mismatch.add_fields_threads_violates`
* `Splinepy.Mismatch.add_fields_null_violates`
* `Splinepy.Pointers.polynomial_writes`
* `Splinepy.ArraySet.in_place_reaches_core`
* `Splinepy.Proximity.newton_terminates`
* `Splinepy.Micro.tiling_nothing_to_do_violates`
* `Splinepy.Index.argsort_exists`
* `Splinepy.Index.flipKnots_get`
* `Splinepy.Index.flipKnots_bounds`
* `Splinepy.Index.flipKnots_involutive`
* `Splinepy.Index.flip_rejects`
* `Splinepy.Split.split_rejects`
* `Splinepy.Split.split_repeated_end_violates`
* `Splinepy.Create.embedded_rejects_iff`
* `Splinepy.Check.valid_queries_iff`
* `Splinepy.Check.valid_queries_empty_violates`
* `Splinepy.Index.matrix_entry`
* `Splinepy.Index.matrix_zero`
* `Splinepy.Index.dense_eq_sparse`
* `Splinepy.ExtractSpline.extract_rejects_axis`
* `Splinepy.ExtractSpline.rejected_axes`
* `Splinepy.ExtractSpline.negative_axis_violates`
* `Splinepy.Unique.py_insert_knots_range`
* `Splinepy.FlagRace.flag_race_violates`
* `Splinepy.FlagRace.flags_uninterrupted_partial`
* `Splinepy.Mismatch.set_patches_not_atomic_violates`
* `Splinepy.Mismatch.set_patches_partial`
* `Splinepy.SplineCore.edit_reaches_spline_partial`
* `Splinepy.SplineCore.edit_after_refinement`
* `Splinepy.Ffd.removed_spline_violates`
* `Splinepy.SplineCore.macro_rational_violates`
* `Splinepy.Mfem.export_cartesian_patches`
* `Splinepy.Mfem.export_cartesian_rejects`
* `Splinepy.Boundary.curve_rejected`
* `Splinepy.Mesh.multipatch_resolutions_violates`
* `Splinepy.Bases.bases_ids`
* `Splinepy.Svg.cubic_path_violates`
* `Splinepy.Svg.window_exists`
* `Splinepy.Svg.curve_mesh`
* `Splinepy.ShowOptions.export_keeps_options_partial`
* `Splinepy.FieldData.argument_name_violates`
* `Splinepy.BezierAlgebra.times_number_rational_violates`
* `Splinepy.BezierSpline.beziers_of_bezier`
* `Splinepy.MicroGeometry.neighbours_meet`
* `Splinepy.MicroGeometry.microstructure_nothing_to_do_violates`
* `Splinepy.Lifetime.rejected_control_points_violates`
* `Splinepy.Lifetime.insert_nothing_violates`
* `Splinepy.Lifetime.patch_assigned_violates`
* `Splinepy.MultipatchData.rejected_adaptor_violates`
* `Splinepy.MultipatchData.negative_field`
* `Splinepy.ThreadErrors.single_thread_raises_partial`
* `Splinepy.ThreadErrors.multipatch_raises_partial`
* `Splinepy.ThreadErrors.empty_threads_violates`
* `Splinepy.ThreadErrors.counts_kept_partial`
* `Splinepy.CallSettings.determine_uses_tolerance`
* `Splinepy.CallSettings.recomputed_orientations`
* `Splinepy.Layout.strided_violates`
* `Splinepy.RefineCache.property_current_partial`
* `Splinepy.RefineCache.failed_reduction_violates`
* `Splinepy.MicroSettings.create_uses_latest_partial`
* `Splinepy.MicroSettings.order_irrelevant`
* `Splinepy.MicroSettings.assignment_reports`
* `Splinepy.MicroSettings.create_made`
* `Splinepy.MicroSettings.refused_kept_violates`
* `Splinepy.MicroSettings.integer_tiling_violates`
* `Splinepy.MicroSettings.total_changes_tiling_violates`
* `Splinepy.MicroSettings.parametrization_stays_violates`
* `Splinepy.ArrayClass.self_move_violates`
* `Splinepy.Slsqp.workspace_accepted`
* `Splinepy.Pickle.dumps_iff`
* `Splinepy.Pickle.roundtrip_partial`
* `Splinepy.Pickle.read_knots_violates`
* `Splinepy.Pickle.options_violates`
* `Splinepy.Dispatch.field_sub_multipatch_partial`
* `Splinepy.Dispatch.field_boundary_multipatch_partial`
* `Splinepy.RationalArrays.rational_evaluable`
* `Splinepy.SplineCore.left_out_violates`
* `Splinepy.SplineCore.complete_degrees_partial`
* `Splinepy.SplineCore.complete_control_points_partial`
* `Splinepy.Arrows.two_places_raise`
* `Splinepy.Arrows.multipatch_arrows`
* `Splinepy.Arrows.list_places_violates`
* `Splinepy.Arrows.argument_name_violates`
* `Splinepy.SvgPoints.plain_vertices`
* `Splinepy.SvgPoints.coloured_vertices_partial`
* `Splinepy.SvgPoints.labels_partial`
* `Splinepy.SvgPoints.ids_partial`
* `Splinepy.SvgPoints.control_parts`
* `Splinepy.SvgPoints.coloured_vertices_violates`
* `Splinepy.SvgPoints.labels_violates`
* `Splinepy.SvgPoints.ids_violates`
* `Splinepy.Display.panel_violates`
* `Splinepy.Display.ffd_gustaf_violates`
* `Splinepy.CliShow.effect`
* `Splinepy.UniformRefineCall.uniform_refine_mismatch`
* `Splinepy.UniformRefineCall.negative_count`
* `Splinepy.ExtractPlanes.extract_planes_order`
* `Splinepy.ExtractPlanes.extract_planes_forms`
* `Splinepy.KnotRead.array_reads`
* `Splinepy.KnotRead.iterate_partial`
* `Splinepy.KnotRead.refined_iteration_violates`
* `Splinepy.Tiles.extrude_closing_is_plane`
* `Splinepy.Sample.sample_rejects`
* `Splinepy.Sample.multipatch_sample_first_violates`
* `Splinepy.ExtractArrows.edges_violates`
* `Splinepy.ExtractArrows.lengths_violates`

## depends on axioms: [propext]

* `Splinepy.Threads.single_thread_eq_range`
* `Splinepy.Threads.extractAllBoundarySplines_violates`
* `Splinepy.BoundaryLabels.first_patch_open_violates`
* `Splinepy.Multipatch.set_boundary_zero_violates`
* `Splinepy.MultipatchCache.stale_boundary_ids_violates`
* `Splinepy.MultipatchCache.stale_boundary_multipatch_violates`
* `Splinepy.MultipatchCache.stale_after_set_patches_violates`
* `Splinepy.MultipatchCache.stale_after_clear_violates`
* `Splinepy.MultipatchCache.stale_orientations_violates`
* `Splinepy.ArraySet.setitem_reversed_violates`
* `Splinepy.ArraySet.setitem_long_slice_violates`
* `Splinepy.ArraySet.setitem_low_start_violates`
* `Splinepy.ArraySet.setitem_bool_violates`
* `Splinepy.ArraySet.setitem_weights_violates`
* `Splinepy.ArraySet.assignment_not_atomic_violates`
* `Splinepy.Index.uniform_query_rejects`
* `Splinepy.Index.repeated_supports_differ`
* `Splinepy.Unique.elevate_degrees_not_atomic_violates`
* `Splinepy.Unique.elevate_degrees_empty_violates`
* `Splinepy.MicroCreate.closing_tiles_violates`
* `Splinepy.Mfem.dof_mapping_rejects`
* `Splinepy.Mfem.dof_mapping_violates`
* `Splinepy.ShowOptions.show_keeps_options_partial`
* `Splinepy.ShowOptions.failed_export_violates`
* `Splinepy.Queries.resolutions_layout_violates`
* `Splinepy.CallSettings.settings_kept_partial`
* `Splinepy.CallSettings.tolerance_leaks_violates`
* `Splinepy.CallSettings.threads_leak_violates`
* `Splinepy.CallSettings.stored_interfaces_violates`
* `Splinepy.CallSettings.orientations_violates`
* `Splinepy.RefineCache.failed_elevation_violates`
* `Splinepy.SvgApprox.needsFit_iff`
* `Splinepy.Display.ffd_shown_partial`
* `Splinepy.Display.ffd_alpha_violates`
* `Splinepy.Display.ffd_message_violates`
* `Splinepy.CliShow.warning_violates`
* `Splinepy.ExtractArrows.mismatch_returned`

## does not depend on any axioms

* `Splinepy.Multipatch.null_spline_offsets_violates`
* `Splinepy.ArraySet.wrong_size_unchanged`
* `Splinepy.ShowOptions.failed_export_changes_violates`
* `Splinepy.FitCalls.verbose_violates`
* `Splinepy.FitCalls.listed_queries_violates`
