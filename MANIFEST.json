{
 "claims": [
  {
   "property": "C01",
   "status": "partial",
   "theorems": [
    "Splinepy.KnotInsertion.knot_insertion_preserves_curve",
    "Splinepy.KnotInsertion.knot_insertion_preserves_end",
    "Splinepy.KnotInsertion.basis_refined",
    "Splinepy.KnotInsertion.global_insertion_preserves_tensor",
    "Splinepy.KnotInsertion.degree_zero_violates",
    "Splinepy.KnotInsertion.unclamped_violates"
   ],
   "note": "Proved for every degree >= 1, every clamped-start knot vector, every list of inner knots and every parameter; for knot vectors that are not clamped at the start the code indexes negative columns (negation proved), hence partial. Comparisons with the tolerance are exact under the separation hypothesis."
  },
  {
   "property": "C02",
   "status": "partial",
   "theorems": [
    "Splinepy.KnotInsertion.knot_insertion_rows_convex",
    "Splinepy.KnotInsertion.unclamped_violates"
   ],
   "note": "Same hypotheses as C01."
  },
  {
   "property": "C03",
   "status": "partial",
   "theorems": [
    "Splinepy.KnotInsertion.merged_knots_partial",
    "Splinepy.KnotInsertion.merge_behind_violates",
    "Splinepy.KnotInsertion.global_insertion_preserves_tensor"
   ],
   "note": "Proved for new knots in any order which do not lie behind the last knot; a knot behind makes the code read out of bounds (violates, universal)."
  },
  {
   "property": "C04",
   "status": "partial",
   "theorems": [
    "Splinepy.KnotInsertion.extraction_knots_partial",
    "Splinepy.KnotInsertion.bezier_extraction_exact",
    "Splinepy.KnotInsertion.extraction_degree_zero_violates",
    "Splinepy.KnotInsertion.extraction_unclamped_violates"
   ],
   "note": "Violated for degree 0 with an inner knot, and for knot vectors which do not begin with a full multiplicity: the loop writes behind the arrays it allocates. Otherwise: every inner multiplicity, every degree >= 1, distinct knots at least the tolerance apart. Patch number x covers exactly the x-th combination of non-empty knot spans: second theorem."
  },
  {
   "property": "C05",
   "status": "proved",
   "theorems": [
    "Splinepy.BezierPatches.bezier_patch_ids",
    "Splinepy.BezierPatches.bezier_patch_ids_nodup"
   ],
   "note": "All dimensions, degrees and inner multiplicities of clamped splines."
  },
  {
   "property": "C06",
   "status": "proved",
   "theorems": [
    "Splinepy.KnotInsertion.uniform_refine_spec",
    "Splinepy.KnotInsertion.uniform_refine_sorted",
    "Splinepy.KnotInsertion.uniform_value"
   ],
   "note": ""
  },
  {
   "property": "C07",
   "status": "proved",
   "theorems": [
    "Splinepy.Grid.setUp_rejects_iff",
    "Splinepy.Grid.sample_point_correct",
    "Splinepy.Grid.coord_endpoints",
    "Splinepy.Grid.coord_mem_strictMono",
    "Splinepy.Grid.sample_indices_bijective",
    "Splinepy.Grid.fill_eq_samples"
   ],
   "note": "Grid of sample points for every dimension, bounds and resolutions; resolutions below 2 rejected."
  },
  {
   "property": "C08",
   "status": "proved",
   "theorems": [
    "Splinepy.Grid.boundary_point_coordinates",
    "Splinepy.Grid.boundary_points_exact",
    "Splinepy.Grid.boundary_slice_control_points",
    "Splinepy.Grid.boundaryFromAxis_spec"
   ],
   "note": "Control point ids of every boundary face for every net shape."
  },
  {
   "property": "C09",
   "status": "partial",
   "theorems": [
    "Splinepy.Threads.chunks_eq_range",
    "Splinepy.Threads.single_thread_eq_range",
    "Splinepy.Threads.each_query_once_partial",
    "Splinepy.Threads.in_range_iff",
    "Splinepy.Threads.in_range_of_dvd",
    "Splinepy.Threads.evaluate_schedule_independent",
    "Splinepy.Threads.out_of_range_chunk_violates",
    "Splinepy.Threads.empty_queries_violates"
   ],
   "note": "The code violates the property (chunk past the end when (n-1)*ceil(total/n)>total; division by zero for empty queries): negations proved, exact condition for safety proved; every existing query is handled exactly once for every thread count and schedule."
  },
  {
   "property": "C10",
   "status": "partial",
   "theorems": [
    "Splinepy.Threads.strided_each_item_once_partial",
    "Splinepy.Threads.multipatch_evaluate_correct_partial",
    "Splinepy.Threads.strided_nonpositive_violates",
    "Splinepy.Threads.extractAllBoundarySplines_violates",
    "Splinepy.Threads.extractAllBoundarySplines_partial"
   ],
   "note": "Proved for every thread count >= 1 and every schedule; negation for nthreads <= 0 (loop never ends) and for extract_all_boundary_splines."
  },
  {
   "property": "C11",
   "status": "partial",
   "theorems": [
    "Splinepy.Interfaces.interfaces_exact_partial",
    "Splinepy.Interfaces.interfaces_mutual_partial",
    "Splinepy.Interfaces.interfaces_triple_rejected",
    "Splinepy.Interfaces.interfaces_sound",
    "Splinepy.Interfaces.interfaces_incomplete_rejected",
    "Splinepy.Interfaces.interfaces_mutual_violates"
   ],
   "note": "Exact and mutual for every number of faces, every sorting direction and tolerance as long as closeness of the given centers is transitive; for non-transitive closeness (a chain of centers) mutuality fails: negation proved. Three coinciding centers are always rejected."
  },
  {
   "property": "C12",
   "status": "partial",
   "theorems": [
    "Splinepy.BoundaryLabels.boundary_labels_components_partial",
    "Splinepy.BoundaryLabels.areG1_symm",
    "Splinepy.BoundaryLabels.areG1_iff",
    "Splinepy.BoundaryLabels.areG1_scale",
    "Splinepy.BoundaryLabels.areG1_parallel",
    "Splinepy.BoundaryLabels.first_patch_open_violates"
   ],
   "note": "Same label iff connected by a chain of G1 neighbours, for every table of neighbours; the hypothesis excludes tables in which boundary patch 0 has open faces with ids below the number of faces, for which the code accesses memory out of range (negation proved)."
  },
  {
   "property": "C13",
   "status": "partial",
   "theorems": [
    "Splinepy.Multipatch.boundary_bookkeeping_partial",
    "Splinepy.Multipatch.set_boundary_spec",
    "Splinepy.Multipatch.combine_positive_violates",
    "Splinepy.Multipatch.combine_positive_violates_all",
    "Splinepy.Multipatch.set_boundary_zero_violates"
   ],
   "note": "For every sequence of calls with nonzero ids (and at least one negative id for combine_boundaries); violated by combine_boundaries with positive ids and by boundary_id=0 (negations proved)."
  },
  {
   "property": "C14",
   "status": "partial",
   "theorems": [
    "Splinepy.MultipatchCache.reads_coherent",
    "Splinepy.MultipatchCache.caches_coherent_partial",
    "Splinepy.MultipatchCache.orientations_coherent_partial",
    "Splinepy.MultipatchCache.stale_boundary_ids_violates",
    "Splinepy.MultipatchCache.stale_boundary_multipatch_violates",
    "Splinepy.MultipatchCache.stale_after_set_patches_violates",
    "Splinepy.MultipatchCache.stale_after_clear_violates",
    "Splinepy.MultipatchCache.stale_orientations_violates"
   ],
   "note": "Centers, interface table and reads for one boundary id are coherent after every history; the caches of all boundaries, the sub-multipatch and the orientations are coherent after every history without interfering changes, and stale otherwise (negations proved)."
  },
  {
   "property": "C15",
   "status": "partial",
   "theorems": [
    "Splinepy.Multipatch.boundary_patch_ids_exact",
    "Splinepy.Multipatch.boundary_patch_ids_boundary_partial",
    "Splinepy.Multipatch.boundary_patch_ids_zero_violates"
   ],
   "note": "Exact selection proved for every table and id; for bid=0 the face connected to face 0 is returned (negation proved)."
  },
  {
   "property": "C16",
   "status": "partial",
   "theorems": [
    "Splinepy.Multipatch.control_point_offsets_prefix",
    "Splinepy.Multipatch.control_point_ranges_partition",
    "Splinepy.Multipatch.control_points_concat",
    "Splinepy.Multipatch.null_spline_offsets_violates"
   ],
   "note": "Proved for every list of patches without null splines, and for every schedule of the copying threads; null splines in fields count as -1 (negation proved)."
  },
  {
   "property": "C17",
   "status": "proved",
   "theorems": [
    "Splinepy.Mismatch.raise_mismatch_exact",
    "Splinepy.Mismatch.raise_mismatch_never_crashes",
    "Splinepy.Mismatch.raise_mismatch2_exact",
    "Splinepy.Mismatch.set_patches_accepts_iff"
   ],
   "note": "Both overloads of the check, for every thread count >= 1 (non-empty list or one thread)."
  },
  {
   "property": "C18",
   "status": "partial",
   "theorems": [
    "Splinepy.Mismatch.add_fields_all_or_nothing",
    "Splinepy.Mismatch.add_fields_accepts_iff",
    "Splinepy.Mismatch.add_fields_threads_violates",
    "Splinepy.Mismatch.add_fields_null_violates"
   ],
   "note": "All-or-nothing proved for every call that returns or raises, for every thread count; acceptance criterion exact; some thread counts end the process for acceptable fields, None entries beyond the null spline table are out-of-range reads (negations proved)."
  },
  {
   "property": "C19",
   "status": "partial",
   "theorems": [
    "Splinepy.SplineCore.construction_accepts_partial",
    "Splinepy.SplineCore.knots_below_violates"
   ],
   "note": "Exact characterisation of acceptance for every class and all properties; besides consistency the code asks for knots not below -1 (negation of the property proved) and supported dimensions."
  },
  {
   "property": "C20",
   "status": "proved",
   "theorems": [
    "Splinepy.SplineCore.construction_kind"
   ],
   "note": "For every class and every set of properties it takes; constructors of the external classes are not modelled."
  },
  {
   "property": "C21",
   "status": "partial",
   "theorems": [
    "Splinepy.SplineCore.reads_latest_partial",
    "Splinepy.SplineCore.rejected_assignment_violates",
    "Splinepy.SplineCore.lost_assignment_violates"
   ],
   "note": "Proved for every history without a raising call, with refinements for polynomial classes; false for rational splines right after a refinement and after rejected assignments (negations proved)."
  },
  {
   "property": "C22",
   "status": "partial",
   "theorems": [
    "Splinepy.SplineCore.multi_index_fresh_partial",
    "Splinepy.SplineCore.stale_multi_index_violates"
   ],
   "note": "Proved for every history that does not assign degrees or knot vectors between a read of the multi index and the next reset or refinement; false otherwise (negation proved)."
  },
  {
   "property": "C23",
   "status": "partial",
   "theorems": [
    "Splinepy.Pointers.writes_like_record",
    "Splinepy.Pointers.polynomial_writes",
    "Splinepy.Pointers.zero_weight_violates"
   ],
   "note": "Proved for every history of the eight write calls with nonzero weights over any field; a zero weight loses the control point (negation proved)."
  },
  {
   "property": "C24",
   "status": "partial",
   "theorems": [
    "Splinepy.ArraySet.setitem_reaches_core_partial",
    "Splinepy.ArraySet.setitem_weights_partial",
    "Splinepy.ArraySet.in_place_reaches_core",
    "Splinepy.ArraySet.setitem_reversed_violates",
    "Splinepy.ArraySet.setitem_long_slice_violates",
    "Splinepy.ArraySet.setitem_low_start_violates",
    "Splinepy.ArraySet.setitem_bool_violates",
    "Splinepy.ArraySet.setitem_weights_violates"
   ],
   "note": "Proved for ints, id lists, masks, ellipsis, other keys, and slices with bounds in range (positive step, or negative step with both bounds given); false for the remaining slices, empty lists, booleans and negative id lists of weights (negations proved)."
  },
  {
   "property": "C25",
   "status": "partial",
   "theorems": [
    "Splinepy.Pointers.negative_ids_partial",
    "Splinepy.Pointers.negative_ids_weights_violates"
   ],
   "note": "Proved for all control point calls and for set_row/set_rows of weights; sync_rows of weights reads in front of the array for negative ids (negation proved)."
  },
  {
   "property": "C26",
   "status": "partial",
   "theorems": [
    "Splinepy.ArraySet.slice_assignment",
    "Splinepy.ArraySet.assignments_partial",
    "Splinepy.ArraySet.wrong_size_unchanged",
    "Splinepy.ArraySet.assignment_not_atomic_violates"
   ],
   "note": "Successful assignments are exact and keep the order, for every slice; rejected values are written before the check, so atomicity is false (negation proved). The check and the single knot update are external and enter by contract."
  },
  {
   "property": "C27",
   "status": "partial",
   "theorems": [
    "Splinepy.Greville.greville_sorted",
    "Splinepy.Greville.greville_bounds",
    "Splinepy.Greville.greville_distinct",
    "Splinepy.Greville.greville_reproduces",
    "Splinepy.Greville.bezier_greville",
    "Splinepy.Greville.greville_unclamped_violates",
    "Splinepy.Greville.greville_overclamped_violates"
   ],
   "note": "Order, ends, bounds, separation of all duplicates and linear precision proved for every knot vector of degree >= 1; the bounds claim needs clamped ends and separation at most p+1 copies at the ends (negations proved otherwise)."
  },
  {
   "property": "C28",
   "status": "proved",
   "theorems": [
    "Splinepy.Solve.solve_solves",
    "Splinepy.Solve.solve_row_order",
    "Splinepy.Solve.trivialKernel_iff_det"
   ],
   "note": "Exact arithmetic in any ordered field, any size, any starting row order; rounding is not modelled."
  },
  {
   "property": "C29",
   "status": "proved",
   "theorems": [
    "Splinepy.Proximity.proximity_in_bounds"
   ],
   "note": "For every spline, solver, slsqp and k-d tree behaviour in exact arithmetic with a tree planted for the current bounds; NaN is not modelled."
  },
  {
   "property": "C30",
   "status": "proved",
   "theorems": [
    "Splinepy.Proximity.newton_terminates",
    "Splinepy.Proximity.levenberg_marquart_terminates",
    "Splinepy.Proximity.query_terminates",
    "Splinepy.Proximity.query_terminates_slsqp"
   ],
   "note": "Explicit bounds max_iter and 2*max_iter+17 for every objective and solver; the whole query with 60*max_iter+18 passes per loop when the calls of slsqp are those of the modelled routine (C131), for every solution of its subproblems."
  },
  {
   "property": "C31",
   "status": "partial",
   "theorems": [
    "Splinepy.Proximity.proximity_consistent_partial",
    "Splinepy.Proximity.proximity_sample_hit",
    "Splinepy.Proximity.inconsistent_result_violates",
    "Splinepy.Proximity.worse_than_initial_violates"
   ],
   "note": "Consistency proved for every exit but the last fallback without improvement, where it is false (negation proved); the result can be farther away than the initial guess (negation proved)."
  },
  {
   "property": "C32",
   "status": "proved",
   "theorems": [
    "Splinepy.Integrate.default_volume_exact",
    "Splinepy.Integrate.rule_weights_points",
    "Splinepy.Integrate.gauss2_ok",
    "Splinepy.Integrate.leggauss_exists",
    "Splinepy.Integrate.gauss_exists"
   ],
   "note": "For every parametric dimension and degree, against the Lebesgue integral over the unit cube; exactness of leggauss enters as contract; rules that meet it exist for every order (leggauss_exists)."
  },
  {
   "property": "C33",
   "status": "partial",
   "theorems": [
    "Splinepy.Integrate.parametric_function_partial",
    "Splinepy.Integrate.parametric_function_elements_partial",
    "Splinepy.Integrate.parametric_function_value",
    "Splinepy.Integrate.knot_spans_violates"
   ],
   "note": "Proved for unit elements; the size of the knot elements is missing in the sum, so the claim is false with interior knots (negation proved)."
  },
  {
   "property": "C34",
   "status": "proved",
   "theorems": [
    "Splinepy.Fit.fit_knot_vector",
    "Splinepy.Fit.params_increasing",
    "Splinepy.Fit.fit_knots",
    "Splinepy.Fit.fit_curve_knots",
    "Splinepy.Fit.specifications_rejected_iff",
    "Splinepy.Fit.collocation_injective",
    "Splinepy.Fit.fit_solvable"
   ],
   "note": "Every degree >= 1, number of points and control points; solvability by a full proof of the Schoenberg-Whitney theorem (total positivity by knot insertion). Exact arithmetic."
  },
  {
   "property": "C35",
   "status": "partial",
   "theorems": [
    "Splinepy.Fit.given_knot_vector_partial",
    "Splinepy.Fit.fitting_spline_honoured",
    "Splinepy.Fit.given_knot_vector_violates"
   ],
   "note": "Only the length of the given knot vector is used (negation of the property proved); a fitting spline given instead is honoured."
  },
  {
   "property": "C36",
   "status": "proved",
   "theorems": [
    "Splinepy.Ffd.coordinates_inside",
    "Splinepy.Ffd.coordinates_order",
    "Splinepy.Ffd.default_moves_little",
    "Splinepy.Ffd.user_spline_deforms"
   ],
   "note": "For every mesh with at least one vertex and positive dimension, flat ones included. Bounds of the mesh are computed by gustaf, which is not in the repository, and modelled as column minima and maxima."
  },
  {
   "property": "C37",
   "status": "partial",
   "theorems": [
    "Splinepy.Micro.tiling_per_span",
    "Splinepy.Micro.tiling_total_partial",
    "Splinepy.Micro.tiling_shift_violates",
    "Splinepy.Micro.tiling_nothing_to_do_violates"
   ],
   "note": "Knot-span-wise tiling: proved in full. Total numbers: proved (with optimality of the distribution) if the directions needing new knots come first; otherwise the knots go to a wrong direction or the call raises. InsertKnot of BSplineLib enters as the contract Spec.InsertsNew."
  },
  {
   "property": "C38",
   "status": "proved",
   "theorems": [
    "Splinepy.Index.cartesian_product_reverse",
    "Splinepy.Index.cartesian_product_plain",
    "Splinepy.Index.cartesian_product_complete",
    "Splinepy.Index.uniform_query_rows",
    "Splinepy.Index.uniform_query_rejects"
   ],
   "note": "numpy views modelled as writes into an uninitialised table."
  },
  {
   "property": "C39",
   "status": "proved",
   "theorems": [
    "Splinepy.Index.multi_index_get",
    "Splinepy.Index.multi_index_single",
    "Splinepy.Index.multi_index_bijective",
    "Splinepy.Index.multi_index_slice_exact",
    "Splinepy.Index.multi_index_all",
    "Splinepy.Index.multi_index_error_iff"
   ],
   "note": "int32 overflow not modelled."
  },
  {
   "property": "C40",
   "status": "proved",
   "theorems": [
    "Splinepy.Index.permute_accepts_iff",
    "Splinepy.Index.permute_spec",
    "Splinepy.Index.permute_comp",
    "Splinepy.Index.permute_id",
    "Splinepy.Index.permute_inverse",
    "Splinepy.Index.permute_evaluates_same",
    "Splinepy.Index.argsort_exists"
   ],
   "note": "np.argsort enters as any function with the argsort contract."
  },
  {
   "property": "C41",
   "status": "partial",
   "theorems": [
    "Splinepy.Index.flipKnots_get",
    "Splinepy.Index.flipKnots_bounds",
    "Splinepy.Index.flipKnots_involutive",
    "Splinepy.Index.flipKnots_sorted",
    "Splinepy.Index.flip_spec",
    "Splinepy.Index.flip_rejects",
    "Splinepy.Index.flip_involutive_partial",
    "Splinepy.Index.flip_evaluates_same",
    "Splinepy.Index.flip_duplicate_axis_violates"
   ],
   "note": "Proved for axis lists without repetition; negation proved for repeated axes (control points reversed once, knot vector mirrored twice)."
  },
  {
   "property": "C42",
   "status": "proved",
   "theorems": [
    "Splinepy.RationalBasis.rational_partition_of_unity",
    "Splinepy.RationalBasis.rational_nonneg",
    "Splinepy.RationalBasis.rational_evaluates",
    "Splinepy.RationalBasis.rational_equal_weights",
    "Splinepy.RationalBasis.supportOf_exists"
   ],
   "note": "For every valid rational spline (any number of directions, with or without knots, positive weights) and every parameter of the closed domain. The polynomial basis values and the first non-zero basis function are external (BSplineLib) and enter by their meaning; supports exist for every parameter."
  },
  {
   "property": "C43",
   "status": "proved",
   "theorems": [
    "Splinepy.RationalBasis.rational_derivative"
   ],
   "note": "For every number of directions, every multi-order and all functions smooth around the query, over the reals: the result is the mixed partial derivative of the quotient. Polynomial derivatives are external and enter by their meaning; overflow of the integer product of binomial coefficients is not modelled."
  },
  {
   "property": "C44",
   "status": "partial",
   "theorems": [
    "Splinepy.Unique.unique_multiplicities",
    "Splinepy.Unique.unique_knots_exact",
    "Splinepy.Unique.unique_knots_tolerance",
    "Splinepy.Unique.unique_knots_repeat",
    "Splinepy.Unique.unique_knots_unclamped_violates"
   ],
   "note": "Proved for every non-decreasing knot vector and tolerance; repeating by multiplicities (external DetermineMultiplicities, entering as its specification) gives back clamped knot vectors, fails for unclamped ones (negation proved)."
  },
  {
   "property": "C45",
   "status": "partial",
   "theorems": [
    "Splinepy.Split.split_splines_partial",
    "Splinepy.Split.casteljau_halves",
    "Splinepy.Split.split_pieces_partial",
    "Splinepy.Split.pieces_meet",
    "Splinepy.Split.split_rejects",
    "Splinepy.Split.split_repeated_end_violates"
   ],
   "note": "for Bezier splines of any number of directions, rational or not, with their points as in the definition (split_splines_partial), and for any kind of object (split_pieces_partial). The bezman routine splitting at one location enters as a contract, Spec.Halves resp. Spec.SplitsExactly; subdivision by de Casteljau meets it for every direction (casteljau_halves). Everything the library does around it (range check, sorting, re-scaling, order of pieces) is modelled. Partial because a location 1 given twice divides by zero (split_repeated_end_violates)."
  },
  {
   "property": "C46",
   "status": "partial",
   "theorems": [
    "Splinepy.Files.json_round_trip_partial",
    "Splinepy.Files.npz_round_trip_partial",
    "Splinepy.Files.npz_round_trip_typed_partial",
    "Splinepy.Files.npz_name_violates",
    "Splinepy.Files.json_spline_class_violates",
    "Splinepy.Files.json_moved_knots_violates"
   ],
   "note": "Exact for every list of splines made by the constructors of the four kinds, with and without base64 (base64/frombuffer enter as decode (encode l) = l). Fails for objects of class Spline in json, for npz file names without extension, and for splines whose knots were moved below -1 after construction."
  },
  {
   "property": "C47",
   "status": "partial",
   "theorems": [
    "Splinepy.Gismo.topology_round_trip_partial",
    "Splinepy.Gismo.topology_unlabeled",
    "Splinepy.Gismo.unlabeled_ids_violates"
   ],
   "note": "Exact for every symmetric interface table and all boundary ids in the default mode. With labeled_boundaries=False all ids come back as 1 (unlabeled_ids_violates). Printing and parsing of integers is taken as the identity; the geometry part of the file is not modelled."
  },
  {
   "property": "C48",
   "status": "proved",
   "theorems": [
    "Splinepy.Gismo.support_numbering",
    "Splinepy.Gismo.support_accepted_iff"
   ],
   "note": "np.argsort(kind=stable) enters by its documented contract Spec.StableArgsort."
  },
  {
   "property": "C49",
   "status": "partial",
   "theorems": [
    "Splinepy.Create.extruded_rejects_iff",
    "Splinepy.Create.extruded_valid",
    "Splinepy.Create.extruded_evaluates",
    "Splinepy.Create.embedded_rejects_iff",
    "Splinepy.Create.embedded_evaluates",
    "Splinepy.Create.box_evaluates",
    "Splinepy.Create.fromBounds_evaluates",
    "Splinepy.Create.parametricView_identity_partial",
    "Splinepy.Create.parametricView_rational_violates"
   ],
   "note": "Extrusion, embedding, box, from_bounds are proved for all splines. parametric_view is the identity map except with conform=True on rational splines, where the copied weights change the map (violation with witness); elevate_degrees and insert_knots enter as operations that keep points."
  },
  {
   "property": "C50",
   "status": "proved",
   "theorems": [
    "Splinepy.Revolve.revolved_evaluates",
    "Splinepy.Revolve.turned_distance_plane",
    "Splinepy.Revolve.turned_distance_space",
    "Splinepy.Revolve.revolved_rejects_iff",
    "Splinepy.Revolve.knotSpans_spec"
   ],
   "note": "For every rational spline, axis, center, angle and number of knot spans, over the reals; gustaf's rotation matrix is not in the repository and is modelled by the formula of Rodrigues."
  },
  {
   "property": "C51",
   "status": "partial",
   "theorems": [
    "Splinepy.Orientation.orientation_exact",
    "Splinepy.Orientation.orientation_swap",
    "Splinepy.Orientation.orientation_rejects_iff",
    "Splinepy.Orientation.orientation_zero_tolerance_violates",
    "Splinepy.Orientation.orientation_skewed_violates"
   ],
   "note": "Exact over the reals for every dimension, every permutation and flips of the axes, if no two axes of a patch are parallel up to the tolerance; false for zero tolerance and for nearly parallel axes (negations proved). Jacobians (external evaluation) enter as inputs."
  },
  {
   "property": "C52",
   "status": "partial",
   "theorems": [
    "Splinepy.Check.valid_queries_iff",
    "Splinepy.Check.valid_queries_raises_iff",
    "Splinepy.Check.valid_queries_above_names",
    "Splinepy.Check.valid_queries_below_names_violates",
    "Splinepy.Check.valid_queries_empty_violates",
    "Splinepy.Check.clamped_iff"
   ],
   "note": "The decision is exact for every non-empty list of queries; the message for the lower bound may name a wrong dimension and an empty list raises (negations proved)."
  },
  {
   "property": "C53",
   "status": "proved",
   "theorems": [
    "Splinepy.Mapper.basis_physical",
    "Splinepy.Mapper.field_physical",
    "Splinepy.Mapper.basis_shape",
    "Splinepy.Mapper.field_rejects_iff",
    "Splinepy.Mapper.physical_exists",
    "Splinepy.Mapper.physical_unique",
    "Splinepy.Mapper.init_accepts_iff",
    "Splinepy.Mapper.basis_calls_physical",
    "Splinepy.Mapper.field_calls_physical",
    "Splinepy.Mapper.calls_succeed_iff"
   ],
   "note": "Stated with Mathlib derivatives: for every query where geometry and basis functions are twice continuously differentiable and the Jacobian is invertible. The derivatives returned by the two splines and np.linalg.inv enter as contracts (Spec.Returns, Spec.Inverts)."
  },
  {
   "property": "C54",
   "status": "proved",
   "theorems": [
    "Splinepy.Index.matrix_entry",
    "Splinepy.Index.matrix_zero",
    "Splinepy.Index.dense_eq_sparse",
    "Splinepy.Index.matrix_times_cps",
    "Splinepy.Index.repeated_supports_differ"
   ],
   "note": "scipy csr_array modelled as summing duplicates."
  },
  {
   "property": "C55",
   "status": "partial",
   "theorems": [
    "Splinepy.ExtractSpline.extract_interval",
    "Splinepy.ExtractSpline.extract_interval_bezier",
    "Splinepy.ExtractSpline.extract_section",
    "Splinepy.ExtractSpline.extract_section_bezier",
    "Splinepy.ExtractSpline.extract_rejects_axis",
    "Splinepy.ExtractSpline.rejected_axes",
    "Splinepy.ExtractSpline.negative_axis_violates",
    "Splinepy.ExtractSpline.extract_jump_violates"
   ],
   "note": "knot insertion of BSplineLib enters as the contract Spec.Inserted, required only for the splines that occur. Partial because the code violates two parts: negative axes pass the checks and reach the C++ core with a negative dimension (negative_axis_violates), and at an inner end b with more than degree repetitions the piece ends at the limit from the left, not at the point of the spline (extract_jump_violates). Everywhere else the interval is covered including both ends."
  },
  {
   "property": "C56",
   "status": "proved",
   "theorems": [
    "Splinepy.Unique.insert_knots_flags",
    "Splinepy.Unique.py_insert_knots_range"
   ],
   "note": "For every list of queries and every behaviour of the external insertion that adds at most the requested number of copies in order; distinct queries machine epsilon apart."
  },
  {
   "property": "C57",
   "status": "proved",
   "theorems": [
    "Splinepy.KnotInsertion.bezier_extraction_exact",
    "Splinepy.KnotInsertion.chain_preserves"
   ],
   "note": "Clamped knot vectors, degree >= 1, distinct knots at least the tolerance apart, parameters in the half-open span; multiplicities of the refined knot vector (external DetermineMultiplicities) enter as their specification."
  },
  {
   "property": "C58",
   "status": "partial",
   "theorems": [
    "Splinepy.FlagRace.flag_race_violates",
    "Splinepy.FlagRace.flags_uninterrupted_partial"
   ],
   "note": "Violated by the code: concurrent writes to neighbouring bits of std::vector<bool> lose updates (negation proved by an interleaving); without interference between the two halves of a bit write the flags are correct."
  },
  {
   "property": "C59",
   "status": "partial",
   "theorems": [
    "Splinepy.Mismatch.set_patches_not_atomic_violates",
    "Splinepy.Mismatch.set_patches_partial"
   ],
   "note": "Violated by the code: the rejected patches stay and fields are lost (negation proved); accepted lists are taken over completely."
  },
  {
   "property": "C60",
   "status": "proved",
   "theorems": [
    "Splinepy.Multipatch.boundaries_exact"
   ],
   "note": ""
  },
  {
   "property": "C61",
   "status": "partial",
   "theorems": [
    "Splinepy.Unique.elevate_degrees_counts",
    "Splinepy.Unique.elevate_degrees_not_atomic_violates",
    "Splinepy.Unique.elevate_degrees_empty_violates",
    "Splinepy.Unique.reduce_degrees_sequence",
    "Splinepy.Unique.reduce_degrees_invalid_violates"
   ],
   "note": "Counts proved for every list of valid directions; a list with an invalid direction may raise after elevating others, and an empty list is undefined behaviour (negations proved). The counterpart reduce_degrees applies the requests one after the other and answers in their order; it too raises after changes."
  },
  {
   "property": "C62",
   "status": "partial",
   "theorems": [
    "Splinepy.SplineCore.edit_reaches_spline_partial",
    "Splinepy.SplineCore.edit_after_construction",
    "Splinepy.SplineCore.edit_after_refinement",
    "Splinepy.SplineCore.stale_parameter_space_violates"
   ],
   "note": "Proved when the saved knot vectors do not belong to an earlier core, in particular after construction and refinement; false after assigning control points, weights or degrees (negation proved)."
  },
  {
   "property": "C63",
   "status": "proved",
   "theorems": [
    "Splinepy.Fit.fit_interpolates",
    "Splinepy.Fit.fit_endpoints",
    "Splinepy.Fit.fit_minimises",
    "Splinepy.Fit.fit_curve_interpolates",
    "Splinepy.Fit.fit_curve_endpoints"
   ],
   "note": "One coordinate at a time, under the contract that the linear solver returns a solution of the normal equations."
  },
  {
   "property": "C64",
   "status": "proved",
   "theorems": [
    "Splinepy.Fit.surface_control_points",
    "Splinepy.Fit.surface_interpolates"
   ],
   "note": "For every pair of line fits returning the right number of control points."
  },
  {
   "property": "C65",
   "status": "proved",
   "theorems": [
    "Splinepy.Create.withKnotVectors_evaluates",
    "Splinepy.Create.withWeights_evaluates"
   ],
   "note": ""
  },
  {
   "property": "C66",
   "status": "proved",
   "theorems": [
    "Splinepy.Create.line_evaluates"
   ],
   "note": ""
  },
  {
   "property": "C67",
   "status": "partial",
   "theorems": [
    "Splinepy.Revolve.arc_evaluates",
    "Splinepy.Revolve.arc_rejects_iff",
    "Splinepy.Revolve.arc_near_half_turn_violates",
    "Splinepy.Revolve.circle_evaluates",
    "Splinepy.Revolve.disk_evaluates",
    "Splinepy.Revolve.sphere_evaluates"
   ],
   "note": "All geometric statements hold; creation of an arc raises in a window of 1e-11 below half a turn, for which the negation is proved and the exact set characterised."
  },
  {
   "property": "C68",
   "status": "partial",
   "theorems": [
    "Splinepy.Revolve.surfaceCircle_boundary",
    "Splinepy.Revolve.plate_eq",
    "Splinepy.Revolve.plate_radius_violates"
   ],
   "note": "surface_circle is exact; the plate is smaller by the factor sqrt 2, which is proved as the violation."
  },
  {
   "property": "C69",
   "status": "partial",
   "theorems": [
    "Splinepy.Revolve.torus_evaluates_partial",
    "Splinepy.Revolve.torus_degrees_ignored_violates",
    "Splinepy.Revolve.torus_quarter_violates",
    "Splinepy.Revolve.torus_solid_section_violates"
   ],
   "note": "Holds for disk sections with angles in radians, both given or both omitted; violated if exactly one angle is given in degrees, and solid tori below half a turn cannot be created with the default number of knot spans."
  },
  {
   "property": "C70",
   "status": "proved",
   "theorems": [
    "Splinepy.Ffd.normalize_evaluates"
   ],
   "note": "KnotVector.scale is in BSplineLib (not in the repository) and enters by its documented meaning."
  },
  {
   "property": "C71",
   "status": "partial",
   "theorems": [
    "Splinepy.Ffd.history_consistent",
    "Splinepy.Ffd.raise_keeps_state",
    "Splinepy.Ffd.history_usable_partial",
    "Splinepy.Ffd.setMesh_outcome",
    "Splinepy.Ffd.other_dimension_violates",
    "Splinepy.Ffd.other_dimension_always_violates",
    "Splinepy.Ffd.removed_spline_violates"
   ],
   "note": "Consistency holds for every history. Usability fails after assigning a mesh of another dimension while a mesh is set (raises, and the spline is lost), and after removing the spline."
  },
  {
   "property": "C72",
   "status": "proved",
   "theorems": [
    "Splinepy.MicroCreate.create_fields_aligned"
   ],
   "note": "The tile enters as contract Spec.Creates (create_tile returns one list of derivatives per requested slice, as long as the tile); compose and composition_derivative are parameters."
  },
  {
   "property": "C73",
   "status": "partial",
   "theorems": [
    "Splinepy.MicroCreate.create_macro_response_partial",
    "Splinepy.SplineCore.macro_rational_violates",
    "Splinepy.SplineCore.macro_polynomial"
   ],
   "note": "Exact linear response for every control point and perturbation. Bezier composition (control points are linear in those of the outer patch, Spec.composed) and the knot insertion matrices enter as parameters; C114 proves what the matrices of the code give, in terms of basis functions. With a rational deformation function or tile the call always raises (macro_rational_violates): the fields are constructed without weights."
  },
  {
   "property": "C74",
   "status": "partial",
   "theorems": [
    "Splinepy.MicroCreate.closing_tiles_partial",
    "Splinepy.MicroCreate.closing_tiles_violates"
   ],
   "note": "Holds for at least two layers of elements in the closing direction; with a single layer no tile is closed at the upper end (closing_tiles_violates)."
  },
  {
   "property": "C75",
   "status": "partial",
   "theorems": [
    "Splinepy.Tiles.cross2D_derivatives",
    "Splinepy.Tiles.cross2D_closing_derivatives",
    "Splinepy.Tiles.double_lattice_derivatives",
    "Splinepy.Tiles.hollow_cube_derivatives",
    "Splinepy.Tiles.cross3D_derivatives",
    "Splinepy.Tiles.cross3D_linear_derivatives",
    "Splinepy.Tiles.cross3D_closing_derivatives",
    "Splinepy.Tiles.cross3D_linear_closing_derivatives",
    "Splinepy.Tiles.cube_void_derivatives_partial",
    "Splinepy.Tiles.cube_void_derivatives_violates",
    "Splinepy.Tiles.ellips_void_derivatives_partial",
    "Splinepy.Tiles.ellips_void_derivatives_violates",
    "Splinepy.Tiles.chi_derivatives_violates"
   ],
   "note": "Proved in full for Cross2D, DoubleLattice, HollowCube, Cross3D and Cross3DLinear with their closing tiles. CubeVoid and EllipsVoid: proved for sensitivities without rotation about y, false for all others (with r_yz nonzero); Chi: false for every sensitivity other than 1 and -1."
  },
  {
   "property": "C76",
   "status": "partial",
   "theorems": [
    "Splinepy.Tiles.cross2D_in_unit_square",
    "Splinepy.Tiles.double_lattice_in_unit_square",
    "Splinepy.Tiles.hollow_octagon_in_unit_square",
    "Splinepy.Tiles.snappy_in_unit_square_partial",
    "Splinepy.Tiles.snappy_in_unit_square_violates",
    "Splinepy.Tiles.hollow_cube_in_unit_cube",
    "Splinepy.Tiles.cross3D_in_unit_cube",
    "Splinepy.Tiles.cross3D_linear_in_unit_cube",
    "Splinepy.Tiles.chi_in_unit_square",
    "Splinepy.Tiles.cube_void_in_unit_cube_partial",
    "Splinepy.Tiles.cube_void_in_unit_cube_violates",
    "Splinepy.Tiles.ellips_void_in_unit_cube_partial",
    "Splinepy.Tiles.ellips_void_in_unit_cube_violates",
    "Splinepy.Tiles.armadillo_in_unit_cube",
    "Splinepy.Tiles.hollow_octagon_extrude_in_unit_cube",
    "Splinepy.Tiles.inverse_cross_3D_in_unit_cube_partial",
    "Splinepy.Tiles.inverse_cross_3D_in_unit_cube_violates"
   ],
   "note": "Proved for all accepted arguments of Cross2D, DoubleLattice, HollowOctagon, HollowOctagonExtrude, Chi, HollowCube, Cross3D, Cross3DLinear, Armadillo with closing tiles. InverseCross3D: true for separator distances up to 1/2, false for every accepted larger one. Snappy: true for b <= 1/2, false for an accepted b > 1/2. CubeVoid and EllipsVoid do not check their radii: true for small radii and all angles, false in general."
  },
  {
   "property": "C77",
   "status": "partial",
   "theorems": [
    "Splinepy.Tiles.cross2D_joins",
    "Splinepy.Tiles.double_lattice_joins",
    "Splinepy.Tiles.hollow_octagon_joins",
    "Splinepy.Tiles.snappy_joins_partial",
    "Splinepy.Tiles.snappy_joins_violates",
    "Splinepy.Tiles.hollow_cube_joins",
    "Splinepy.Tiles.cross3D_joins_partial",
    "Splinepy.Tiles.cross3DLinear_joins_partial",
    "Splinepy.Tiles.cross3D_joins_violates",
    "Splinepy.Tiles.armadillo_joins",
    "Splinepy.Tiles.hollow_octagon_extrude_joins_partial",
    "Splinepy.Tiles.hollow_octagon_extrude_joins_violates",
    "Splinepy.Tiles.inverse_cross_3D_joins_partial",
    "Splinepy.Tiles.inverse_cross_3D_default_joins",
    "Splinepy.Tiles.cube_void_joins_partial",
    "Splinepy.Tiles.ellips_void_joins_partial",
    "Splinepy.Tiles.cube_void_joins_violates",
    "Splinepy.Tiles.chi_joins"
   ],
   "note": "Proved for Cross2D, DoubleLattice, HollowCube with closing tiles; HollowOctagon up to the direction in which some faces of closing tiles are numbered; Cross3D and Cross3DLinear for radii below the largest accepted one (at the largest one branches collapse onto the sides, cross3D_joins_violates); Snappy except for a = 0, b = 0 and b = 1/2 (snappy_joins_violates). Armadillo, HollowOctagonExtrude and InverseCross3D: up to the numbering of the control points of the common faces; Armadillo with all closing faces; HollowOctagonExtrude has one parameter for all sides, the sides in z agree only for equal parameters (…_violates); InverseCross3D with the default separator for all accepted parameters, with other separators if separator and middle stay below 1/2. Chi for all angles; CubeVoid and EllipsVoid for voids that stay inside of the cell for every rotation, false for voids that reach a side (cube_void_joins_violates)."
  },
  {
   "property": "C78",
   "status": "partial",
   "theorems": [
    "Splinepy.Tiles.cross2D_closes",
    "Splinepy.Tiles.hollow_octagon_closes",
    "Splinepy.Tiles.cross3D_closes_partial",
    "Splinepy.Tiles.cross3DLinear_closes_partial",
    "Splinepy.Tiles.cross3D_closes_violates",
    "Splinepy.Tiles.cross3DLinear_closes_violates",
    "Splinepy.Tiles.hollow_cube_closes_violates",
    "Splinepy.Tiles.hollow_octagon_closing_violates",
    "Splinepy.Tiles.armadillo_closes",
    "Splinepy.Tiles.hollow_octagon_extrude_closes_violates"
   ],
   "note": "Full for Cross2D, HollowOctagon and Armadillo. Cross3D and Cross3DLinear: only for boundary_width <= 1/3, larger accepted widths leave a gap (…_violates). HollowCube and HollowOctagonExtrude take a closure and ignore it. The closing tiles of InverseCross3D are meant to leave the side open for the closed Cross3D tile. HollowOctagon refuses to close for contact parameters up to 0.01 for which it creates ordinary tiles. Tiles without closing tiles are otherwise not covered."
  },
  {
   "property": "C79",
   "status": "partial",
   "theorems": [
    "Splinepy.Mfem.dof_mapping_order",
    "Splinepy.Mfem.dof_mapping_rejects",
    "Splinepy.Mfem.dof_mapping_violates"
   ],
   "note": "All resolutions with at least two control points per direction; a direction with one control point (degree 0) gives repeated ids (dof_mapping_violates)."
  },
  {
   "property": "C80",
   "status": "partial",
   "theorems": [
    "Splinepy.Mfem.load_export",
    "Splinepy.Mfem.read_solution_partial",
    "Splinepy.Mfem.read_solution_violates"
   ],
   "note": "Round trip of export and load: proved in full for files as lists of tokens. read_solution: control points are right, but the weights of the reference are permuted although they are in the order of splinepy already (read_solution_violates); they are right if all weights are equal (read_solution_partial)."
  },
  {
   "property": "C81",
   "status": "proved",
   "theorems": [
    "Splinepy.Mfem.export_cartesian_topology",
    "Splinepy.Mfem.export_cartesian_patches",
    "Splinepy.Mfem.export_cartesian_rejects"
   ],
   "note": "close_rows of gustaf enters as the contract Spec.Numbers (equal numbers iff close). The text of the file is modelled as rows of numbers."
  },
  {
   "property": "C82",
   "status": "partial",
   "theorems": [
    "Splinepy.Irit.irit_round_trip_partial",
    "Splinepy.Irit.irit_spline_class_violates",
    "Splinepy.Irit.irit_dim_violates"
   ],
   "note": "Exact for every list of splines of the four kinds with at most nine components per point and weights different from zero; the text is modelled as tokens. Objects of class Spline are lost without an error (irit_spline_class_violates); files with points of ten or more components cannot be loaded (irit_dim_violates)."
  },
  {
   "property": "C83",
   "status": "partial",
   "theorems": [
    "Splinepy.Irit.expand_tabs_content",
    "Splinepy.Irit.expand_tabs_violates",
    "Splinepy.Irit.expand_tabs_copy_violates"
   ],
   "note": "The code violates the property: the result of replace is discarded, and copies are written next to the directory."
  },
  {
   "property": "C84",
   "status": "partial",
   "theorems": [
    "Splinepy.Cats.cats_round_trip_partial",
    "Splinepy.Cats.cats_round_trip_nurbs",
    "Splinepy.Cats.cats_spline_class_violates"
   ],
   "note": "Exact for every list of splines of the four kinds; text is modelled as lists of numbers. Objects of class Spline cannot be written (cats_spline_class_violates). That the converted splines are the same maps is C65."
  },
  {
   "property": "C85",
   "status": "proved",
   "theorems": [
    "Splinepy.Gismo.gismo_round_trip"
   ],
   "note": "For every list of splines of the four kinds in both encodings; bytes of float64 enter by the contract Spec.Float64, printed numbers are taken to be exact. Splines of class Spline are outside of the quantifier. That Bezier splines with knots are the same maps is C65."
  },
  {
   "property": "C86",
   "status": "partial",
   "theorems": [
    "Splinepy.Gismo.options_round_trip_partial",
    "Splinepy.Gismo.options_stable",
    "Splinepy.Gismo.options_tag_violates",
    "Splinepy.Gismo.options_grow_violates"
   ],
   "note": "Holds for trees of any depth if no top level tag starts with MultiPatch or Geometry; such options are lost (options_tag_violates). With labeled_boundaries=False the written boundary conditions come back as an additional option (options_grow_violates)."
  },
  {
   "property": "C87",
   "status": "partial",
   "theorems": [
    "Splinepy.Gismo.binary_reads_partial",
    "Splinepy.Gismo.binary_reads_violates"
   ],
   "note": "Only float64 is read correctly; the type found for the declared format is not used (binary_reads_violates)."
  },
  {
   "property": "C88",
   "status": "partial",
   "theorems": [
    "Splinepy.DetSpline.determinant_spline_evaluates_partial",
    "Splinepy.DetSpline.determinant_spline_positive_partial",
    "Splinepy.DetSpline.determinant_spline_knots_evaluates_partial",
    "Splinepy.DetSpline.determinant_spline_knots_positive_partial",
    "Splinepy.DetSpline.determinant_spline_rejects",
    "Splinepy.DetSpline.determinant_spline_linear_violates"
   ],
   "note": "Proved for Bezier splines and for splines with clamped knot vectors and continuous derivative, non-rational or with equal weights, in every dimension. Linear splines in one dimension violate the property: the determinant has degree 0 and the Greville abscissae divide by the degree (determinant_spline_linear_violates). Not covered: inner knots of multiplicity at least the degree (the Jacobian is not defined there), and distinct knots closer than the tolerances. The Jacobian enters by the derivatives of the spline (Spec.Jacobian, Spec.JacobianOn), the linear solver by the contract Spec.Solver; that both exist is proved (jacobian_exists, jacobianOn_exists, solver_exists)."
  },
  {
   "property": "C89",
   "status": "partial",
   "theorems": [
    "Splinepy.Boundary.boundary_restricts",
    "Splinepy.Boundary.boundaries_listed",
    "Splinepy.Boundary.curve_rejected",
    "Splinepy.Boundary.unclamped_boundary_violates"
   ],
   "note": "Proved for every valid spline whose knot vector is clamped at the face (end knot exactly degree + 1 times; always for Bezier splines). The code does not check this, and the boundary of an unclamped spline is not on the spline (unclamped_boundary_violates)."
  },
  {
   "property": "C90",
   "status": "proved",
   "theorems": [
    "Splinepy.Mesh.edges_draw_knot_lines",
    "Splinepy.Mesh.edges_on_spline",
    "Splinepy.Mesh.curve_edges_draw"
   ],
   "note": "range_to_edges and concat are functions of gustaf and enter by their documented results. Rounding of linspace is not modelled."
  },
  {
   "property": "C91",
   "status": "partial",
   "theorems": [
    "Splinepy.Mesh.surface_faces_draw",
    "Splinepy.Mesh.patch_cells_draw",
    "Splinepy.Mesh.multipatch_faces_draw",
    "Splinepy.Mesh.volume_faces_on_boundary",
    "Splinepy.Mesh.multipatch_resolutions_violates",
    "Splinepy.FieldData.multipatch_volume_faces_draw"
   ],
   "note": "Before merging of vertices (gustaf). make_quad_faces of gustaf enters by its documented result, make_hexa_volumes as any connectivity with numbers of the patch. For three parametric directions the knot vectors have to be clamped (see C89). A list of resolutions for a multipatch of surfaces is documented but raises, for every list (multipatch_resolutions_violates)."
  },
  {
   "property": "C92",
   "status": "partial",
   "theorems": [
    "Splinepy.Bases.bases_graph",
    "Splinepy.Bases.bases_view",
    "Splinepy.Bases.bases_parametric",
    "Splinepy.Bases.bases_partition",
    "Splinepy.Bases.bases_ids",
    "Splinepy.Bases.bases_rational_violates"
   ],
   "note": "Full for parametric_view=False, and for the parametric view of polynomial splines (bases_parametric). The conforming view of rational splines does not evaluate to its parameters, so the statement fails there (bases_rational_violates)."
  },
  {
   "property": "C93",
   "status": "proved",
   "theorems": [
    "Splinepy.Png.png_round_trip",
    "Splinepy.Png.png_written_iff"
   ],
   "note": "zlib enters by its documented results: decompress inverts compress, crc32 is the same function for reader and writer. The base64 encoding around the bytes is not modelled."
  },
  {
   "property": "C94",
   "status": "partial",
   "theorems": [
    "Splinepy.Index.flip_evaluates",
    "Splinepy.Index.flip_jump_violates"
   ],
   "note": "Proved for axes whose inner knots occur at most as often as the degree. At knots where the spline jumps the statement fails, because both splines take the value from the right (flip_jump_violates); axes listed twice: see C41."
  },
  {
   "property": "C95",
   "status": "partial",
   "theorems": [
    "Splinepy.Svg.curve_path_draws_partial",
    "Splinepy.Svg.surface_path_draws_partial",
    "Splinepy.Svg.cubic_path_violates"
   ],
   "note": "Degree elevation and Bezier extraction enter by contracts on a class of curves (example_contracts shows that the Bezier family meets them; extraction is C57). Rational curves and degrees above three go through a least-squares fit and are only approximated (see C142); for degree three the code elevates by an empty list of directions, whose result is undefined (cubic_path_violates); coordinates are printed with finitely many digits."
  },
  {
   "property": "C96",
   "status": "proved",
   "theorems": [
    "Splinepy.Svg.spline_within_control_points",
    "Splinepy.Svg.drawn_in_view",
    "Splinepy.Svg.view_tight",
    "Splinepy.Svg.window_exists"
   ],
   "note": "Positions only: line widths, radii of circles, texts and arrows can stick out by their size (arrows: see C101). The path draws the spline itself by C95."
  },
  {
   "property": "C97",
   "status": "proved",
   "theorems": [
    "Splinepy.Svg.curve_mesh",
    "Splinepy.Svg.surface_mesh"
   ],
   "note": "Positions only; decimal representation not modelled."
  },
  {
   "property": "C98",
   "status": "partial",
   "theorems": [
    "Splinepy.Svg.scalar_bar_place",
    "Splinepy.Svg.scalar_bar_below_iff",
    "Splinepy.Svg.scalar_bar_violates",
    "Splinepy.Svg.ticks_agree"
   ],
   "note": "The place of the bar and the ticks are proved; that the bar does not cover the picture is false for wide pictures (scalar_bar_violates; scalar_bar_below_iff says exactly when). The colours themselves come from vedo."
  },
  {
   "property": "C99",
   "status": "proved",
   "theorems": [
    "Splinepy.Svg.colour_round_trip",
    "Splinepy.Svg.colour_range_violates"
   ],
   "note": "For colours in the documented range; outside of it the result is no colour (colour_range_violates)."
  },
  {
   "property": "C100",
   "status": "partial",
   "theorems": [
    "Splinepy.Svg.crop_moves_partial",
    "Splinepy.Svg.crop_some_iff",
    "Splinepy.Svg.crop_violates"
   ],
   "note": "The crop starts at the right row and column but always loses the last visible row and column (crop_violates)."
  },
  {
   "property": "C101",
   "status": "partial",
   "theorems": [
    "Splinepy.Quiver.arrows_drawn_partial",
    "Splinepy.Quiver.arrow_shape",
    "Splinepy.Quiver.arrow_tip",
    "Splinepy.Quiver.no_arrows_violates",
    "Splinepy.Quiver.arrow_outside_violates"
   ],
   "note": "Full if an arrow colour is set or some vector is longer than the tolerance; otherwise the export raises (no_arrows_violates). Arrows can leave the picture (arrow_outside_violates)."
  },
  {
   "property": "C102",
   "status": "partial",
   "theorems": [
    "Splinepy.ShowOptions.export_keeps_options_partial",
    "Splinepy.ShowOptions.show_keeps_options_partial",
    "Splinepy.ShowOptions.failed_export_violates",
    "Splinepy.ShowOptions.failed_export_changes_violates"
   ],
   "note": "Holds for calls that do not raise; a call that raises leaves the options of the call (failed_export_violates)."
  },
  {
   "property": "C103",
   "status": "partial",
   "theorems": [
    "Splinepy.FieldData.spline_field_matches",
    "Splinepy.FieldData.function_field_matches_partial",
    "Splinepy.FieldData.volume_field_matches",
    "Splinepy.FieldData.volume_function_violates",
    "Splinepy.FieldData.argument_name_violates",
    "Splinepy.FieldData.stale_bounds_violates",
    "Splinepy.FieldData.multipatch_field_matches",
    "Splinepy.FieldData.multipatch_function_violates",
    "Splinepy.FieldData.multipatch_volume_matches_partial",
    "Splinepy.FieldData.jump_violates",
    "Splinepy.FieldData.constant_violates"
   ],
   "note": "Proved for spline data with the bounds of the spline (in three dimensions clamped), and for functions whose second parameter is called on, on curves and surfaces whose bounds have not changed. The other cases are false: see the violations. Multipatches of curves and surfaces: proved for a multipatch as data, false for functions, which are evaluated on the first patch only. Multipatches of volumes: proved if the data have the same outer faces as the multipatch; false otherwise, since the outer faces of the data are detected from their values (data that jump between the patches are sampled on inner faces, constant data raise). Fixed locations are in C140."
  },
  {
   "property": "C104",
   "status": "partial",
   "theorems": [
    "Splinepy.BezierAlgebra.composition_derivative_chain",
    "Splinepy.BezierAlgebra.composition_derivative_sum",
    "Splinepy.BezierAlgebra.composition_derivative_accepts_iff",
    "Splinepy.BezierAlgebra.composition_derivative_rational_violates",
    "Splinepy.BezierAlgebra.operations_exist",
    "Splinepy.BezierAlgebra.composition_derivative_sample"
   ],
   "note": "For every family of inner functions with the given derivative, what composition_derivative computes is the derivative of the composition at every parameter mapped into the unit cube (bezman's operations under a pointwise contract, which exact polynomial arithmetic meets: operations_exist). It is computed exactly under the conditions of composition_derivative_accepts_iff. Violated: for a rational outer function and a polynomial inner derivative it always raises (products need equal spline kinds)."
  },
  {
   "property": "C105",
   "status": "partial",
   "theorems": [
    "Splinepy.BezierAlgebra.product_values_partial",
    "Splinepy.BezierAlgebra.sum_values",
    "Splinepy.BezierAlgebra.product_commutes_violates",
    "Splinepy.BezierAlgebra.times_number_partial",
    "Splinepy.BezierAlgebra.times_number_values",
    "Splinepy.BezierAlgebra.times_number_rational_violates"
   ],
   "note": "Products and sums are pointwise whenever computed, with the exact conditions. Violated: scalar * vector raises while vector * scalar works; RationalBezier * float always returns an object without a spline because the weights are left out; mixed kinds raise."
  },
  {
   "property": "C106",
   "status": "partial",
   "theorems": [
    "Splinepy.Cone.pyramid_evaluates",
    "Splinepy.Cone.cone_solid_partial",
    "Splinepy.Cone.cone_surface_partial",
    "Splinepy.Cone.cone_tiny_violates"
   ],
   "note": "Pyramids: proved in full. Cones: proved for every height above the tolerance of np.isclose (about 1e-8); for smaller heights, however large the base, all control points are moved to the apex (cone_tiny_violates)."
  },
  {
   "property": "C107",
   "status": "partial",
   "theorems": [
    "Splinepy.Tiles.cross2D_oriented",
    "Splinepy.Tiles.cross2D_closing_oriented",
    "Splinepy.Tiles.double_lattice_oriented",
    "Splinepy.Tiles.hollow_octagon_oriented",
    "Splinepy.Tiles.cross3D_oriented_partial",
    "Splinepy.Tiles.cross3DLinear_oriented_partial",
    "Splinepy.Tiles.cross3D_closing_oriented",
    "Splinepy.Tiles.cross3DLinear_closing_oriented",
    "Splinepy.Tiles.snappy_oriented_partial",
    "Splinepy.Tiles.cube_void_oriented_partial",
    "Splinepy.Tiles.cross3D_oriented_violates",
    "Splinepy.Tiles.snappy_oriented_violates",
    "Splinepy.Tiles.cube_void_oriented_violates",
    "Splinepy.Tiles.hollow_cube_oriented_violates",
    "Splinepy.Tiles.hollow_cube_tangled_violates",
    "Splinepy.Tiles.hollow_octagon_extrude_oriented",
    "Splinepy.Tiles.inverse_cross_3D_oriented_violates",
    "Splinepy.Tiles.inverse_cross_3D_tangled",
    "Splinepy.Tiles.armadillo_oriented",
    "Splinepy.Tiles.ellips_void_oriented_partial",
    "Splinepy.Tiles.ellips_void_oriented_violates"
   ],
   "note": "Cross2D, DoubleLattice, HollowOctagon with all their closing faces, and the closing tiles of Cross3D and Cross3DLinear: proved for all accepted parameters. Cross3D and Cross3DLinear without closing face: proved when the middle does not fill the cell; with all radii at the accepted bound the arms have no volume (violates). Snappy: proved for positive a, b, r, which may be zero (violates). CubeVoid: proved without rotation for voids strictly inside of the cell; a rotation by pi tangles the patches (violates). HollowCube: for every accepted parameter the first patch has a negative determinant where the fifth has a positive one (violates), and a single patch may be tangled (violates). HollowOctagonExtrude and Armadillo with all closing tiles: proved for all accepted parameters (for Armadillo the determinants of the coded control nets at the extreme values of the two parameters are computed in the kernel, and every determinant is a combination of them with positive weights). InverseCross3D with the default separator: no accepted tile satisfies the property, the determinant is zero at a corner (violates) and negative if the radius is above 1/5 (inverse_cross_3D_tangled). EllipsVoid: proved without rotation for radii below 4 sqrt(3) / 7, where the void reaches the sides of the cell; above it a patch is turned inside out (violates)."
  },
  {
   "property": "C108",
   "status": "partial",
   "theorems": [
    "Splinepy.Convert.export_load",
    "Splinepy.Convert.convert_keeps_partial",
    "Splinepy.Convert.convert_round_trip",
    "Splinepy.Convert.extension_refused",
    "Splinepy.Convert.failed_export_keeps_partial",
    "Splinepy.Convert.load_svg_refused",
    "Splinepy.Convert.convert_from_xml_violates",
    "Splinepy.Convert.convert_to_mesh_violates",
    "Splinepy.Convert.failed_export_violates"
   ],
   "note": "Proved for json, npz and irit files as output and any input that loads as a list of splines or one spline. The code violates the rest: converting a gismo file always raises (load returns a pair), converting to an mfem file always raises (a list is handed over), a failed irit export has already truncated the output file. Contents of gismo, mfem, iges and svg files are abstract here."
  },
  {
   "property": "C109",
   "status": "partial",
   "theorems": [
    "Splinepy.Tiles.inverse_cross_fits_cross_partial",
    "Splinepy.Tiles.inverse_cross_fits_cross_violates",
    "Splinepy.Tiles.inverse_cross_closing_fits_partial",
    "Splinepy.Tiles.inverse_cross_closing_violates"
   ],
   "note": "Proved for ordinary tiles when no radius is larger than the radius of the middle: then no face of the two tiles together is free. For larger radii the inverse tile has faces that no patch of the cross tile has (violates). Closing tiles violate the property as stated with the default parameters (inverse_cross_closing_violates): the faces on the plate have different degrees. Up to degree elevation of faces they fit, for all accepted parameters with boundary_width at most 1/3, filling heights, expansions and separator distances (inverse_cross_closing_fits_partial)."
  },
  {
   "property": "C110",
   "status": "partial",
   "theorems": [
    "Splinepy.Tiles.armadillo_connected_partial",
    "Splinepy.Tiles.armadillo_x_min_connected_violates",
    "Splinepy.Tiles.hollow_octagon_extrude_connected",
    "Splinepy.Tiles.inverse_cross_3D_connected",
    "Splinepy.Tiles.cross2D_connected",
    "Splinepy.Tiles.double_lattice_connected",
    "Splinepy.Tiles.hollow_octagon_connected",
    "Splinepy.Tiles.snappy_connected",
    "Splinepy.Tiles.cross3D_connected_partial",
    "Splinepy.Tiles.cross3DLinear_connected_partial",
    "Splinepy.Tiles.chi_connected",
    "Splinepy.Tiles.cube_void_connected",
    "Splinepy.Tiles.ellips_void_connected",
    "Splinepy.Tiles.hollow_cube_connected_violates",
    "Splinepy.Tiles.cross3D_connected_violates",
    "Splinepy.Tiles.cross3DLinear_connected_violates"
   ],
   "note": "Proved for Cross2D, DoubleLattice, HollowOctagon, HollowOctagonExtrude, InverseCross3D with their closing tiles, Snappy, Chi, CubeVoid, EllipsVoid, and for Armadillo except for the closing tile at x_min, one patch of which is attached to no other patch for every contact length other than twice the parameter (violates). Cross3D and Cross3DLinear: ordinary tiles and closing tiles with boundary_width up to 1/3; for all larger accepted widths the corner blocks are detached (violates). HollowCube: no two of its patches have a common face, for any accepted parameters (violates)."
  },
  {
   "property": "C111",
   "status": "proved",
   "theorems": [
    "Splinepy.BezierSpline.beziers_points",
    "Splinepy.BezierSpline.beziers_of_bezier",
    "Splinepy.BezierSpline.someInsert_inserts",
    "Splinepy.BezierSpline.missing_needed",
    "Splinepy.BezierSpline.runs_multiplicities"
   ],
   "note": "BSplineLib's DetermineBezierExtractionKnots, InsertKnot and KnotMultiplicities by contract; the contracts are met by functions for all clamped splines (someInsert_inserts, missing_needed, runs_multiplicities). At the right end of a span whose knot occurs more than degree times (where the spline may jump) the patch is not compared with the spline. Distinct knots at least the tolerance apart."
  },
  {
   "property": "C112",
   "status": "partial",
   "theorems": [
    "Splinepy.MicroGeometry.microstructure_span_wise",
    "Splinepy.MicroGeometry.microstructure_total_partial",
    "Splinepy.MicroGeometry.neighbours_meet",
    "Splinepy.MicroGeometry.contract_exists",
    "Splinepy.MicroGeometry.composes_exists",
    "Splinepy.MicroGeometry.microstructure_sample",
    "Splinepy.MicroGeometry.microstructure_nothing_to_do_violates"
   ],
   "note": "Proved for knot-span-wise tiling, and for total numbers of tiles when the first directions are those that need new knots. For the other total tilings the code violates the property: it raises if no direction needs knots (violates, for every deformation function), and it puts knots into the wrong direction (C37, tiling_shift_violates). knot insertion, Bezier extraction, evaluation and composition enter by contracts; all of them are shown to be satisfiable, composition for polynomial splines. Excluded: deformation functions that may jump (inner knots more often than the degree), knots closer than the tolerance."
  },
  {
   "property": "C113",
   "status": "proved",
   "theorems": [
    "Splinepy.Volume.volume_integral",
    "Splinepy.Volume.volume_integral_bezier",
    "Splinepy.Volume.integral_same_points",
    "Splinepy.Volume.volume_raises",
    "Splinepy.Volume.jacobians_exist"
   ],
   "note": "Jacobians of Bezier patches, leggauss and the parts of BSplineLib behind extract.beziers enter by contracts, which are met by functions (jacobians_exist, C111, gauss2_ok for two points). The determinant is signed as in the code. Distinct knots at least the tolerance apart."
  },
  {
   "property": "C114",
   "status": "partial",
   "theorems": [
    "Splinepy.MacroMatrix.macro_fields_span_wise",
    "Splinepy.MacroMatrix.macro_fields_total_partial",
    "Splinepy.MacroMatrix.matrices_parts",
    "Splinepy.MacroMatrix.fields_of_matrices",
    "Splinepy.MacroMatrix.basis_composes_exists",
    "Splinepy.MacroMatrix.macro_nothing_to_do_violates"
   ],
   "note": "Proved for knot-span-wise tiling, and for total numbers of tiles when the first directions are those that need new knots; otherwise the code violates the property as in C112: it raises if no direction needs knots (violates), or puts knots into the wrong direction (C37). compose with compute_sensitivities enters by a contract, which is shown to be satisfiable for every tile patch (basis_composes_exists). Excluded: deformation functions that may jump, knots closer than the tolerance."
  },
  {
   "property": "C115",
   "status": "partial",
   "theorems": [
    "Splinepy.MicroSens.design_fields_span_wise",
    "Splinepy.MicroSens.design_fields_total_partial",
    "Splinepy.MicroSens.create_geometry",
    "Splinepy.MicroSens.design_fields_sample",
    "Splinepy.MicroSens.design_fields_rational_violates",
    "Splinepy.MicroSens.design_fields_rational_sample",
    "Splinepy.MicroSens.classes_exist",
    "Splinepy.MicroSens.design_nothing_to_do_violates",
    "Splinepy.MicroTile.tileAt",
    "Splinepy.MicroTile.tiles_design_fields",
    "Splinepy.MicroTile.cross2D_design_fields",
    "Splinepy.MicroTile.double_lattice_design_fields",
    "Splinepy.MicroTile.hollow_cube_design_fields",
    "Splinepy.MicroTile.cross3D_design_fields",
    "Splinepy.MicroTile.cross3D_linear_design_fields",
    "Splinepy.MicroTile.cross2D_design_fields_sample"
   ],
   "note": "Proved for non-rational deformation functions with knot-span-wise tiling, and for total numbers of tiles when the first directions are those that need new knots. Derivatives are two-sided on the set of steps for which the tile class accepts the moved parameters. Violated: with a rational deformation function create raises for every tile with non-rational derivatives (design_fields_rational_violates); it raises if no direction needs knots (design_nothing_to_do_violates). The tile class enters by a contract (Spec.TileAt), which is proved for Cross2D, DoubleLattice, HollowCube, Cross3D and Cross3DLinear with all closing tiles and every accepted parameter and sensitivity (cross2D_design_fields, ...), from C75 and C76; knot insertion, Bezier extraction, evaluation and composition by the contracts of C112 and C104."
  },
  {
   "property": "C116",
   "status": "partial",
   "theorems": [
    "Splinepy.Watertight.watertight_prepared",
    "Splinepy.Watertight.seamless_of_fits",
    "Splinepy.Watertight.cross2D_watertight",
    "Splinepy.Watertight.double_lattice_watertight",
    "Splinepy.Watertight.hollow_octagon_watertight",
    "Splinepy.Watertight.hollow_cube_watertight",
    "Splinepy.Watertight.armadillo_watertight",
    "Splinepy.Watertight.cross3D_watertight_partial",
    "Splinepy.Watertight.cross3DLinear_watertight_partial",
    "Splinepy.Watertight.inverse_cross_3D_watertight_partial",
    "Splinepy.Watertight.hollow_octagon_extrude_watertight_partial",
    "Splinepy.Watertight.cube_void_watertight_partial",
    "Splinepy.Watertight.ellips_void_watertight_partial",
    "Splinepy.Watertight.chi_watertight",
    "Splinepy.Watertight.created",
    "Splinepy.Watertight.watertight_sample",
    "Splinepy.Tiles.cross3D_joins_violates",
    "Splinepy.Tiles.hollow_octagon_extrude_joins_violates",
    "Splinepy.Tiles.snappy_joins_violates",
    "Splinepy.Tiles.cube_void_joins_violates"
   ],
   "note": "Whenever the microstructure is created. Full for Cross2D, DoubleLattice, HollowOctagon, HollowCube and Armadillo; Cross3D, Cross3DLinear and InverseCross3D for radii below the bound at which neighbours stop fitting, HollowOctagonExtrude for the same parameter everywhere: beyond that the tiles themselves do not fit (cross3D_joins_violates, hollow_octagon_extrude_joins_violates). Snappy tiles do not fit in y (snappy_joins_violates). Chi for all angles; CubeVoid and EllipsVoid for voids that stay inside of the cell for every rotation (false otherwise: cube_void_joins_violates). Library operations enter by the contracts of C112. Polynomial and rational deformation functions; total tilings as in C112."
  },
  {
   "property": "C117",
   "status": "partial",
   "theorems": [
    "Splinepy.Lifetime.evaluable_partial",
    "Splinepy.Lifetime.calls_defined_partial",
    "Splinepy.Lifetime.bezier_evaluable",
    "Splinepy.Lifetime.rejected_control_points_violates",
    "Splinepy.Lifetime.insert_nothing_violates",
    "Splinepy.Lifetime.patch_assigned_violates"
   ],
   "note": "Proved for all histories of Bezier splines. For B-splines proved for all histories of calls other than three, and each of the three is proved to make the next evaluation read freed memory, for all control points: assigning a wrong number of control points (the exception leaves the new array in the data of the spline and drops the one the core reads); insert_knots that inserts nothing (a knot at the bounds); assigning properties to a spline that is a patch of a multipatch. Memory of rational splines is in C138. Not modelled: deletions of splines and multipatches."
  },
  {
   "property": "C118",
   "status": "partial",
   "theorems": [
    "Splinepy.Lifetime.write_reaches_partial",
    "Splinepy.Lifetime.write_defined_partial",
    "Splinepy.Lifetime.array_kept_over_refinement_violates",
    "Splinepy.Lifetime.bezier_array_kept_over_refinement_violates",
    "Splinepy.Lifetime.same_count_violates",
    "Splinepy.Lifetime.shared_core_violates",
    "Splinepy.Lifetime.bezier_array_kept_over_assignment_violates"
   ],
   "note": "Proved for all histories of connecting calls (Spec.Connecting). The excluded histories are proved to break the property for all data: an array kept while a B-spline is refined no longer reaches it, and for a Bezier spline writes to freed memory; refining and coming back to the same number of control points makes the next array write to freed memory, because cached pointers are compared by number only; of two splines with one core the array of one does not follow the other; an array of a Bezier spline kept while degrees are assigned shows values the spline is not evaluated with. Slices and other views of the array are in C25; rational splines are in C138."
  },
  {
   "property": "C119",
   "status": "partial",
   "theorems": [
    "Splinepy.MultipatchData.read_stored_partial",
    "Splinepy.MultipatchData.field_numbers_stable",
    "Splinepy.MultipatchData.rejected_field_violates",
    "Splinepy.MultipatchData.new_patches_violates",
    "Splinepy.MultipatchData.rejected_adaptor_violates",
    "Splinepy.MultipatchData.derived_data",
    "Splinepy.MultipatchData.negative_field"
   ],
   "note": "Proved for all histories of creating, deriving, adding fields and storing data, with any number of multipatches sharing lists of fields, as long as the multipatch is not given new patches after the assignment and the key is not assigned again. The rest is false, for all data: a rejected multipatch leaves its key, which then reads the next field that is added; new patches remove the fields but not the keys; a rejected adaptor is stored. Which fields are accepted is a parameter (see C18)."
  },
  {
   "property": "C120",
   "status": "partial",
   "theorems": [
    "Splinepy.MicroInterfaces.neighbours_connected_partial",
    "Splinepy.MicroInterfaces.class_connected_partial",
    "Splinepy.MicroInterfaces.connections_sound",
    "Splinepy.MicroInterfaces.centers_get",
    "Splinepy.MicroInterfaces.center_of_face",
    "Splinepy.MicroInterfaces.bezier_centers_get",
    "Splinepy.MicroInterfaces.chi_interfaces_violates"
   ],
   "note": "For knot span wise tilings with the classes of C116, whenever no face center is close to two others (otherwise the detection raises, or closeness is not transitive, see C11). The patches made by composition are assumed to be Bezier splines with the parameters of the tile patches, a contract of the library. False for Chi: the four curves of a cell start in one point, so the detection always raises (chi_interfaces_violates). Classes that do not fit together (see C116) are not covered."
  },
  {
   "property": "C121",
   "status": "partial",
   "theorems": [
    "Splinepy.Queries.evaluate_batch",
    "Splinepy.Queries.derivative_batch",
    "Splinepy.Queries.jacobian_batch",
    "Splinepy.Queries.support_batch",
    "Splinepy.Queries.basis_batch",
    "Splinepy.Queries.basis_and_support_batch",
    "Splinepy.Queries.basis_derivative_batch",
    "Splinepy.Queries.basis_derivative_and_support_batch",
    "Splinepy.Queries.proximities_batch_partial",
    "Splinepy.Queries.plantTree_spec",
    "Splinepy.Queries.multipatch_batch_partial",
    "Splinepy.Queries.multipatch_layout_violates",
    "Splinepy.Queries.resolutions_layout_violates"
   ],
   "note": "Proved for all functions of a spline and arrays of any layout, under the exact condition of C09 on queries and threads. Violated by Multipatch.evaluate (queries in Fortran order or in a strided view are read in the order of the memory) and by the resolutions passed to proximities; both proved for C-contiguous arrays."
  },
  {
   "property": "C122",
   "status": "partial",
   "theorems": [
    "Splinepy.ThreadErrors.single_thread_raises_partial",
    "Splinepy.ThreadErrors.no_error_returns",
    "Splinepy.ThreadErrors.threads_violates",
    "Splinepy.ThreadErrors.multipatch_raises_partial",
    "Splinepy.ThreadErrors.multipatch_violates",
    "Splinepy.ThreadErrors.proximities_without_tree",
    "Splinepy.ThreadErrors.proximities_refused",
    "Splinepy.ThreadErrors.field_mismatch_raises",
    "Splinepy.ThreadErrors.field_invalid_violates",
    "Splinepy.ThreadErrors.proximities_with_tree",
    "Splinepy.ThreadErrors.empty_threads_violates"
   ],
   "note": "Proved for one thread, and for mismatching fields with any safe number of threads. With two or more threads an exception inside of a thread ends the process, proved for every schedule and every position of the failing item: lists with something that is no initialised spline, invalid lists of fields, proximities with a negative resolution before a tree exists. That an exception leaving a std::thread ends the process is the C++ contract."
  },
  {
   "property": "C123",
   "status": "partial",
   "theorems": [
    "Splinepy.ThreadErrors.counts_kept_partial",
    "Splinepy.ThreadErrors.distinct_of_nodup",
    "Splinepy.ThreadErrors.shared_object_violates"
   ],
   "note": "Proved for every interleaving if no object is handled by two threads, in particular for lists without repetitions. A spline (or None) listed twice and handled by two threads can lose a reference: a concrete interleaving is given. That list accessors change the count by a load and a store is the contract of pybind11 and CPython."
  },
  {
   "property": "C124",
   "status": "partial",
   "theorems": [
    "Splinepy.CallSettings.settings_kept_partial",
    "Splinepy.CallSettings.determine_uses_tolerance",
    "Splinepy.CallSettings.tolerance_leaks_violates",
    "Splinepy.CallSettings.threads_leak_violates",
    "Splinepy.CallSettings.stored_interfaces_violates",
    "Splinepy.CallSettings.second_tolerance_ignored_violates",
    "Splinepy.CallSettings.orientations_violates",
    "Splinepy.CallSettings.recomputed_orientations"
   ],
   "note": "Proved for histories in which no call raises, and for determine_interfaces(tol, recompute=True). Violated, for all data: after an exception the tolerance (number of threads) of the call stays; stored interfaces and orientations are returned whatever the tolerance; after interface_orientations has raised the next call returns the unfinished array."
  },
  {
   "property": "C125",
   "status": "partial",
   "theorems": [
    "Splinepy.Layout.careful_reads_elements",
    "Splinepy.Layout.contiguous_reads_elements_partial",
    "Splinepy.Layout.strided_violates",
    "Splinepy.Layout.layout_independent_iff",
    "Splinepy.Layout.elements_unique"
   ],
   "note": "Exact: layout_independent_iff says for which calls it holds. elevate_degrees, reduce_degrees, split, both knot assignments and the interfaces setter read strided arrays of the right dtype wrongly; proved for all calls with C-contiguous arrays. Queries are in C121."
  },
  {
   "property": "C126",
   "status": "partial",
   "theorems": [
    "Splinepy.RefineCache.property_current_partial",
    "Splinepy.RefineCache.failed_reduction_violates",
    "Splinepy.RefineCache.failed_elevation_violates",
    "Splinepy.RefineCache.refused_first"
   ],
   "note": "Proved for histories in which no call raises (a failed reduction is assumed to leave the core as it was). Violated by calls that raise after having changed a direction: stored properties are not cleared; for reduce_degrees proved for every spline."
  },
  {
   "property": "C127",
   "status": "partial",
   "theorems": [
    "Splinepy.MicroSettings.create_uses_latest_partial",
    "Splinepy.MicroSettings.order_irrelevant",
    "Splinepy.MicroSettings.assignment_reports",
    "Splinepy.MicroSettings.create_made",
    "Splinepy.MicroSettings.refused_kept_violates",
    "Splinepy.MicroSettings.integer_tiling_violates",
    "Splinepy.MicroSettings.total_changes_tiling_violates",
    "Splinepy.MicroSettings.parametrization_stays_violates"
   ],
   "note": "Proved: create uses the last values and works exactly if they fit, in every history with one parametric dimension per microstructure and tiles per knot span; the order is irrelevant if every setting is assigned once; errors are reported by the assignment. Fails: refused values are kept, an integer tiling is fixed to the first dimension, create with total numbers writes into the list of the user, a parametrization can not be removed."
  },
  {
   "property": "C128",
   "status": "proved",
   "theorems": [
    "Splinepy.Copies.copy_independent",
    "Splinepy.Copies.apart_undisturbed",
    "Splinepy.Copies.share_violates",
    "Splinepy.Copies.beziers_violates"
   ],
   "note": "For every history before and every interleaved history afterwards, for both kinds of classes. The two negations are about other ways to make a spline from a spline: type(s)(spline=s) and extract.beziers() of a Bezier spline give splines that are not independent. Not in the model: spline_data (documented as shallow), show_options, caches in _data."
  },
  {
   "property": "C129",
   "status": "partial",
   "theorems": [
    "Splinepy.ArrayClass.index_bijective",
    "Splinepy.ArrayClass.frees_once",
    "Splinepy.ArrayClass.frees_all",
    "Splinepy.ArrayClass.write_read_partial",
    "Splinepy.ArrayClass.moved_from_violates",
    "Splinepy.ArrayClass.self_move_violates"
   ],
   "note": "Index arithmetic, single free and absence of leaks are proved for all histories. Writing is proved for arrays that own their memory (views are only as long-lived as what they view). Negations: an array that was moved from keeps the pointer and may not even be assigned to, and moving an array into itself frees its elements."
  },
  {
   "property": "C130",
   "status": "partial",
   "theorems": [
    "Splinepy.Logging.printed_once",
    "Splinepy.Logging.delivered_all",
    "Splinepy.Logging.written_once_partial",
    "Splinepy.Logging.earlier_file_violates"
   ],
   "note": "Printing and the user's own handlers are proved for all histories; writing for the log file of the latest configure. Negation: every later configure silently removes the log file, because FileHandler is a StreamHandler. Python's logging is represented by its documented rules; the root logger is not modelled."
  },
  {
   "property": "C131",
   "status": "partial",
   "theorems": [
    "Splinepy.Slsqp.slsqp_stops",
    "Splinepy.Slsqp.slsqp_inside",
    "Splinepy.Slsqp.slsqp_descends",
    "Splinepy.Slsqp.rank_one_update",
    "Splinepy.Slsqp.bfgs_update",
    "Splinepy.Slsqp.workspace_accepted",
    "Splinepy.Proximity.slsqp_points_inside",
    "Splinepy.Slsqp.slsqp_updates",
    "Splinepy.Slsqp.slsqp_remembers"
   ],
   "note": "All statements for arbitrary values of the objective, arbitrary gradients of the right length and arbitrary results of the quadratic subproblem (slsqp_updates: results whose mode is not -1, which lsq never returns). Partial: exact arithmetic, and besides the BFGS update the matrix may be reset to the identity when there is no direction of descent (slsqp_updates). The solver of the subproblem enters as an arbitrary function here; the modelled one is in C133."
  },
  {
   "property": "C132",
   "status": "partial",
   "theorems": [
    "Splinepy.Pickle.dumps_iff",
    "Splinepy.Pickle.roundtrip_partial",
    "Splinepy.Pickle.history_roundtrip_partial",
    "Splinepy.Pickle.created_rebuildable",
    "Splinepy.Pickle.read_knots_violates",
    "Splinepy.Pickle.moved_knots_violates",
    "Splinepy.Pickle.options_violates"
   ],
   "note": "Whenever a spline can be pickled and its properties pass the checks of the constructor, which is so after every history without in-place changes of knots, loading gives the same spline. Violated: after reading knot_vectors no spline with knot vectors can be pickled (for every spline); a spline with knots below -1 is pickled but cannot be loaded; show options and spline data are lost."
  },
  {
   "property": "C133",
   "status": "partial",
   "theorems": [
    "Splinepy.Slsqp.direction_exact",
    "Splinepy.Slsqp.attempt_exact",
    "Splinepy.Slsqp.slsqp_reports",
    "Splinepy.Slsqp.edge_ends",
    "Splinepy.Lsq.nnls_stops",
    "Splinepy.Lsq.nnls_optimal",
    "Splinepy.Lsq.nnls_defined",
    "Splinepy.Lsq.ldp_spec",
    "Splinepy.Lsq.lsi_spec",
    "Splinepy.Lsq.lsq_spec"
   ],
   "note": "In exact arithmetic with an exact square root. Proved for all numbers of variables, bounds, positive definite models and gradients; memory of the work arrays is arbitrary. Partial: the solver may give up (mode 3: more than 3n exchanges; mode 5: a pivot below 2.22e-16), and then nothing is claimed about the step; the augmented problem of lsq is not modelled because it is shown not to be used; hfti and equations are not modelled."
  },
  {
   "property": "C134",
   "status": "partial",
   "theorems": [
    "Splinepy.Catalogue.of_answer",
    "Splinepy.Catalogue.union_answer",
    "Splinepy.Catalogue.intersection_answer",
    "Splinepy.Catalogue.all_kinds_partial",
    "Splinepy.Catalogue.all_kinds_violates",
    "Splinepy.Catalogue.by_dim_answer",
    "Splinepy.Catalogue.everything_answer",
    "Splinepy.Catalogue.get_answer",
    "Splinepy.Catalogue.answers_stay"
   ],
   "note": "Proved for every history, except for union() and intersection() without arguments: they return the attribute of the class itself, so that a caller who changes the answer changes all later answers, and with them required_properties of splines of user defined classes (all_kinds_violates). Proved for them as long as no caller changes such an answer."
  },
  {
   "property": "C135",
   "status": "partial",
   "theorems": [
    "Splinepy.Dispatch.create_exact",
    "Splinepy.Dispatch.null_lookup_exact",
    "Splinepy.Dispatch.null_lookup_partial",
    "Splinepy.Dispatch.null_more_violates"
   ],
   "note": "Creation is proved in full for both builds. Placeholders: proved for the build without SPLINEPY_MORE; in the default build the sizes of the table are interchanged, and for all dimensions from 4 to 10 the table is left (undefined behaviour)."
  },
  {
   "property": "C136",
   "status": "partial",
   "theorems": [
    "Splinepy.Dispatch.field_evaluate",
    "Splinepy.Dispatch.field_unchecked_violates",
    "Splinepy.Dispatch.field_sub_multipatch_violates",
    "Splinepy.Dispatch.field_boundary_multipatch_violates",
    "Splinepy.Dispatch.field_sub_multipatch_partial",
    "Splinepy.Dispatch.field_boundary_multipatch_partial"
   ],
   "note": "Evaluation is proved for every accepted field with the check of the dimensions (the default), in every order of the steps. Without it the zeros can be written beyond the array. Boundaries of a field with a left out patch are never available: KeyError, or an access outside of the table for curves; proved for fields without left out patches."
  },
  {
   "property": "C137",
   "status": "partial",
   "theorems": [
    "Splinepy.KnotSharing.changes_only_shared",
    "Splinepy.KnotSharing.independent_partial",
    "Splinepy.KnotSharing.copy_unshared",
    "Splinepy.KnotSharing.boundary_refine_violates",
    "Splinepy.KnotSharing.boundary_edit_violates",
    "Splinepy.KnotSharing.assign_object_violates"
   ],
   "note": "For all histories a call changes another spline only through a knot vector object both refer to, and a copy shares nothing. Independence and consistency are proved for histories without boundary extraction and without assignment of knot vector objects. Violated: a boundary of a B-spline or NURBS keeps the knot vector objects of its parent. After any refinement of the parent along the face the boundary has too few control points for its knots and evaluating it reads beyond them; any edit of the knots of the boundary changes the parent; and assigned knot vector objects stay shared. That refinement changes the knot vectors in place, and that the removed dimension leaves the others shared, is the contract of BSplineLib (as stated in the comment in extract.hpp)."
  },
  {
   "property": "C138",
   "status": "partial",
   "theorems": [
    "Splinepy.RationalArrays.arrays_reach_partial",
    "Splinepy.RationalArrays.rational_calls_defined_partial",
    "Splinepy.RationalArrays.rational_evaluable",
    "Splinepy.RationalArrays.refined_control_points_violates",
    "Splinepy.RationalArrays.refined_weights_violates",
    "Splinepy.RationalArrays.refined_back_violates",
    "Splinepy.RationalArrays.rejected_degrees_violates",
    "Splinepy.RationalArrays.weights_lost_violates"
   ],
   "note": "Evaluation is proved for all histories. The arrays are proved for all histories of connecting calls (Spec.Connecting: numbers agree, weights are not zero, arrays are released before degrees or knots are assigned and before refinement, no refinement back to an earlier number). Proved to break the property: an array of control points or of weights kept over a refinement writes to freed memory; so do arrays read after refining and back; after a rejected assignment of degrees the weights become read-only; weights assigned after a refinement are lost. One spline object: sharing of cores is in C118 and C137. Over a field (exact arithmetic). Zero weights are outside (the code divides by them)."
  },
  {
   "property": "C139",
   "status": "partial",
   "theorems": [
    "Splinepy.SplineCore.left_out_violates",
    "Splinepy.SplineCore.complete_degrees_partial",
    "Splinepy.SplineCore.complete_control_points_partial"
   ],
   "note": "Holds for every class when the degrees are left out, and for Spline when the control points are. Violated by BSpline, NURBS, Bezier and RationalBezier: if control points, required knot vectors or required weights are left out, everything given before is forgotten, the degrees too, and the spline stays unusable through any sequence of other assignments."
  },
  {
   "property": "C140",
   "status": "partial",
   "theorems": [
    "Splinepy.Arrows.spline_arrows",
    "Splinepy.Arrows.sequence_arrows",
    "Splinepy.Arrows.function_arrows_partial",
    "Splinepy.Arrows.construct_iff",
    "Splinepy.Arrows.check_iff",
    "Splinepy.Arrows.two_places_raise",
    "Splinepy.Arrows.multipatch_arrows",
    "Splinepy.Arrows.list_places_violates",
    "Splinepy.Arrows.argument_name_violates",
    "Splinepy.Arrows.type_error_violates",
    "Splinepy.Arrows.multipatch_sequence_violates"
   ],
   "note": "Proved for splines as data (exactly when it raises), sequences, functions and multipatches. Violated: places given as a list or tuple, which the option accepts, always raise; functions with the documented parameter names raise with arrow_data_on; a TypeError inside of a function is taken for a wrong number of arguments, and the values of another call are shown; on multipatches a sequence with one value for each place has too few values. The evaluation of splines is a parameter; that gustaf refuses data of a wrong length is not modelled."
  },
  {
   "property": "C141",
   "status": "partial",
   "theorems": [
    "Splinepy.ControlMesh.control_mesh_lines",
    "Splinepy.ControlMesh.multipatch_control_mesh_lines",
    "Splinepy.ControlMesh.control_mesh_none",
    "Splinepy.ControlMesh.control_mesh_flat_violates"
   ],
   "note": "Proved for nets with at least two control points in each direction. With one control point in a direction (degree 0) there are no cells and no lines, although there are neighbours in the other direction (control_mesh_flat_violates). range_to_edges, make_quad_faces, make_hexa_volumes, concat and to_edges of gustaf enter by their documented results."
  },
  {
   "property": "C142",
   "status": "partial",
   "theorems": [
    "Splinepy.SvgApprox.approximate_bspline",
    "Splinepy.SvgApprox.approximate_ok",
    "Splinepy.SvgApprox.refine_ok",
    "Splinepy.SvgApprox.fitCubic_ok",
    "Splinepy.SvgApprox.libraries_exist",
    "Splinepy.SvgApprox.corner_violates",
    "Splinepy.SvgApprox.domain_violates",
    "Splinepy.SvgApprox.unclamped_violates",
    "Splinepy.SvgApprox.needsFit_iff"
   ],
   "note": "Proved for continuous curves with clamped knots and parameters from 0 to 1, except for corners. Corners are lost: the fit takes only the number of the prepared knots, so that every inner knot is simple (corner_violates). For other parameters the fit still lives on 0 to 1: samples lie outside of it, and with inner knots and parameters above 1 its knot vector is not sorted (domain_violates). For knot vectors that are not clamped the export raises (unclamped_violates). Exact arithmetic; basis functions and the solver enter by Spec.Libraries, shown to be satisfiable; the sampled curve is an arbitrary function."
  },
  {
   "property": "C143",
   "status": "partial",
   "theorems": [
    "Splinepy.SvgPoints.plain_vertices",
    "Splinepy.SvgPoints.coloured_vertices_partial",
    "Splinepy.SvgPoints.labels_partial",
    "Splinepy.SvgPoints.ids_partial",
    "Splinepy.SvgPoints.control_parts",
    "Splinepy.SvgPoints.coloured_vertices_violates",
    "Splinepy.SvgPoints.labels_violates",
    "Splinepy.SvgPoints.ids_violates"
   ],
   "note": "Control points of splines: proved for all options. Vertices: proved for one value and one label each. Violated: values with several components are flattened, so that vertices get colours of other vertices (coloured_vertices_violates); with too few labels the last vertices silently have none; vertex_ids=False exports the numbers. The colour map is an arbitrary function of a value."
  },
  {
   "property": "C144",
   "status": "partial",
   "theorems": [
    "Splinepy.Display.shown_partial",
    "Splinepy.Display.showable_eq",
    "Splinepy.Display.multipatch_violates",
    "Splinepy.Display.panel_violates",
    "Splinepy.Display.ffd_shown_partial",
    "Splinepy.Display.ffd_gustaf_violates",
    "Splinepy.Display.ffd_alpha_violates",
    "Splinepy.Display.ffd_message_violates",
    "Splinepy.Display.window_panels"
   ],
   "note": "Holds for splines (all options, keyword arguments and forms) and other calls for multipatches. Fails for multipatches with parametric space (raises) or places of arrows (ignored), for keyword arguments in the parametric panel (ignored), for FFD.show(return_gustaf=True) (backend objects), for the transparency of the FFD spline (overwritten) and for FFD objects without one of mesh and spline (attribute error). The sampling itself is the subject of other properties; gustaf and vedo are external."
  },
  {
   "property": "C145",
   "status": "partial",
   "theorems": [
    "Splinepy.CliShow.shown_elements",
    "Splinepy.CliShow.effect",
    "Splinepy.CliShow.warning_violates"
   ],
   "note": "Holds except for the warning: it says that the output file is ignored, but the picture is written (warning_violates). Loading and gustaf's window are external; objects are shown by make_showable (C144)."
  },
  {
   "property": "C146",
   "status": "partial",
   "theorems": [
    "Splinepy.UniformRefineCall.uniform_refine_partial",
    "Splinepy.UniformRefineCall.uniform_refine_all",
    "Splinepy.UniformRefineCall.uniform_refine_mismatch",
    "Splinepy.UniformRefineCall.partly_refined_violates",
    "Splinepy.UniformRefineCall.negative_direction_violates",
    "Splinepy.UniformRefineCall.negative_count"
   ],
   "note": "Proved for every request whose directions exist. A direction that does not exist raises only after the directions before it have been refined; a negative direction passes all checks and reaches the core (undefined behaviour)."
  },
  {
   "property": "C147",
   "status": "partial",
   "theorems": [
    "Splinepy.ExtractPlanes.extract_planes_partial",
    "Splinepy.ExtractPlanes.extract_planes_bezier_partial",
    "Splinepy.ExtractPlanes.extract_planes_order",
    "Splinepy.ExtractPlanes.extract_planes_forms",
    "Splinepy.ExtractSpline.extract_jump_violates"
   ],
   "note": "Proved for splines with and without knot vectors, for planes not closer than the tolerance to other knots and sections of clamped directions. At the end of an interval where the spline jumps the result has the limit from the left (extract_jump_violates, the same for the call with one axis). insert_knots of BSplineLib enters by its contract, as in C55; negative axes are the subject of C55."
  },
  {
   "property": "C148",
   "status": "partial",
   "theorems": [
    "Splinepy.KnotRead.slice_reads",
    "Splinepy.KnotRead.slice_reads_int",
    "Splinepy.KnotRead.item_reads",
    "Splinepy.KnotRead.array_reads",
    "Splinepy.KnotRead.iterate_partial",
    "Splinepy.KnotRead.refined_iteration_violates"
   ],
   "note": "Proved except for one case: if knots are inserted or removed during an iteration, the iterator reads from storage that the vector has given back (undefined behaviour), refined_iteration_violates. Indexing, slices and copies are proved in full, for less than 2^63-1 knots (2^31 where the index is converted to int). That a refinement invalidates the pointers is the rule of std::vector."
  },
  {
   "property": "C149",
   "status": "partial",
   "theorems": [
    "Splinepy.FitCalls.curve_returns_partial",
    "Splinepy.FitCalls.curve_returns_iff",
    "Splinepy.FitCalls.surface_returns_partial",
    "Splinepy.FitCalls.one_coordinate_violates",
    "Splinepy.FitCalls.verbose_violates",
    "Splinepy.FitCalls.listed_queries_violates"
   ],
   "note": "Proved for several coordinates or without scipy; for curves the exact condition is given. Violated: with scipy, points with one coordinate raise in every interpolation and in every approximation with more than three control points; verbose_output=True always raises (splines have no knot_vector); fit.surface raises for parameters in the documented form of lists. That spsolve returns a vector for one column is scipy's documented rule."
  },
  {
   "property": "C150",
   "status": "partial",
   "theorems": [
    "Splinepy.Tiles.extrude_closing_partial",
    "Splinepy.Tiles.extrude_closing_returns",
    "Splinepy.Tiles.extrude_closing_oriented",
    "Splinepy.Tiles.extrude_closing_is_plane",
    "Splinepy.Tiles.extrude_closing_dimension_violates",
    "Splinepy.Tiles.extrude_closing_contact_violates"
   ],
   "note": "Violated: every patch of closing_tile is two-dimensional although the class announces three dimensions (for all accepted calls), and the contact length is not checked (2 leaves the unit cell). With a contact length in (0, 0.99) the result is the closing tile of the plane octagon: in the unit square, connected, right-handed, closing the named side."
  },
  {
   "property": "C151",
   "status": "partial",
   "theorems": [
    "Splinepy.Sample.sample_partial",
    "Splinepy.Sample.sample_uniform",
    "Splinepy.Sample.sample_rejects",
    "Splinepy.Sample.multipatch_sample_partial",
    "Splinepy.Sample.multipatch_sample_first_violates",
    "Splinepy.Sample.multipatch_sample_size_violates",
    "Splinepy.Sample.sample_layout_violates"
   ],
   "note": "Proved for thread counts for which the chunks stay inside the arrays (Spec.Safe; C09 shows that others do not). Violated: a multipatch uses only the first of several resolutions; a view of an int array (dtype of C++ int, so that pybind11 does not copy) is read without its strides. gustaf enforce_len enters by its rule: numbers are repeated, arrays must have the length."
  },
  {
   "property": "C152",
   "status": "partial",
   "theorems": [
    "Splinepy.ShowStyle.style_follows_partial",
    "Splinepy.ShowStyle.style_curve_knots",
    "Splinepy.ShowStyle.shown_knots",
    "Splinepy.ShowStyle.knot_width_violates",
    "Splinepy.ShowStyle.mesh_alpha_violates"
   ],
   "note": "Every option decides its own attribute and nothing else, and the marks of curves are at exactly the images of the knots. Violated: an integer as knot_lw is rejected (ignored by show), as float is listed twice as its type; the transparency of the control mesh is read under names that are no options, so it is 0.8 in windows and 1 in svg files whatever is set."
  },
  {
   "property": "C153",
   "status": "partial",
   "theorems": [
    "Splinepy.MicroShow.history_saved",
    "Splinepy.MicroShow.show_current",
    "Splinepy.MicroShow.show_saved_partial",
    "Splinepy.MicroShow.options_kept_partial",
    "Splinepy.MicroShow.show_options_violates",
    "Splinepy.MicroShow.show_stale_violates"
   ],
   "note": "After every history the saved microstructure is the last one made, and show draws it, or a new one of the current settings. Violated: use_saved after a change of settings shows an outdated microstructure beside the new deformation function and tile; show switches off the control points of the multipatch that create returned."
  },
  {
   "property": "C154",
   "status": "partial",
   "theorems": [
    "Splinepy.Svg.field_shown_partial",
    "Splinepy.Svg.field_white_violates",
    "Splinepy.Svg.field_column_violates",
    "Splinepy.Svg.field_row_violates",
    "Splinepy.Svg.field_channels",
    "Splinepy.Svg.field_place",
    "Splinepy.Svg.field_written_iff"
   ],
   "note": "Partial: the last drawn row and column are lost (see also C100), white drawn pixels become transparent, drawings in one column raise and drawings in one row give a picture without rows. Assumes that zlib decompresses what it compressed; what the plotter draws is a parameter."
  },
  {
   "property": "C155",
   "status": "partial",
   "theorems": [
    "Splinepy.ExtractArrows.mismatch_returned",
    "Splinepy.ExtractArrows.edges_partial",
    "Splinepy.ExtractArrows.edges_violates",
    "Splinepy.ExtractArrows.lengths_violates"
   ],
   "note": "Partial: the lengths are asked for with the result of the sampling as key instead of the name. So no call returns edges if gustaf raises for keys without data, and otherwise the lengths are not those of the named data. gustaf is a parameter."
  }
 ]
}