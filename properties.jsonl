{"id": "C01", "title": "Knot insertion matrix preserves the geometry", "statement": "For a B-spline with degree p>=1, multiplying the control points with the matrix returned by knot_insertion_matrix(dim, new_knots) gives control points which, together with the refined knot vector, describe exactly the same curve (same value at every parameter of the domain).", "quantifier": "every degree >= 1, every non-decreasing knot vector, every list of new knots inside the open parametric domain (any multiplicity, any order), every control point vector, every parameter value", "why_tests_cant": "the matrix is built by an in-place recursion whose span search depends on all knot coincidences; tests fix a handful of knot vectors", "anchors": ["src/py/py_knot_insertion_matrix.cpp: ComputeKnotInsertionMatrixAndKnotSpan, ComputeGlobalKnotInsertionMatrix, KnotInsertionMatrix", "splinepy/bspline.py: BSplineBase.knot_insertion_matrix"]}
{"id": "C02", "title": "Knot insertion matrix is a convex combination", "statement": "Every row of the knot insertion matrix has non-negative entries that sum to one and at most degree+1 of them are non-zero, at consecutive columns that exist in the old control net.", "quantifier": "every degree, valid knot vector and list of inserted knots", "why_tests_cant": "needs all knot coincidence patterns; tests look at product with particular control points only", "anchors": ["src/py/py_knot_insertion_matrix.cpp: R_matrix, ComputeKnotInsertionMatrixAndKnotSpan"]}
{"id": "C03", "title": "Merged knot vector is the sorted union", "statement": "The refined knot vector used for the insertion matrix is non-decreasing, contains every old and every new knot with multiplicities added, and the matrix has one row per refined basis function and one column per old basis function; in the multivariate case global row/column ids are a bijection onto the tensor grid and dimensions other than the refined one are untouched.", "quantifier": "every knot vector, list of new knots in any order, every tensor-product control net shape and refined dimension", "why_tests_cant": "quantifies over all permutations of the new knots and all shapes of nets", "anchors": ["src/py/py_knot_insertion_matrix.cpp: ComputeGlobalKnotInsertionMatrix", "splinepy/bspline.py: knot_insertion_matrix"]}
{"id": "C04", "title": "Bezier extraction raises every interior knot to full multiplicity", "statement": "The knot vector on which Bezier extraction operators are based contains every interior knot at least degree times, keeps the order and never lowers a multiplicity; each extraction block covers exactly one non-empty knot span.", "quantifier": "every clamped knot vector with interior knots of any multiplicity and any degree, distinct knots at least the tolerance apart", "why_tests_cant": "all multiplicity patterns must be covered; tests use few", "anchors": ["src/py/py_knot_insertion_matrix.cpp: BezierExtractionMatrices, create_new_knot_vector"]}
{"id": "C05", "title": "Bezier patches take the right control points", "statement": "extract.beziers()/extract_bezier_patches() on a spline whose interior knots have multiplicity m_i assigns to the patch with grid coordinate c exactly the (degree+1)^n tensor block whose start in each dimension is the sum of the multiplicities of the interior knots passed so far; patches are enumerated with the first parametric dimension running fastest.", "quantifier": "every number of parametric dimensions, every degree vector, every list of interior knot multiplicities", "why_tests_cant": "the offsets are carried incrementally between consecutive patches, so an error shows only for particular patch orders and multiplicities", "anchors": ["src/splines/helpers/extract.cpp: ExtractBezierPatchIDs", "include/splinepy/splines/helpers/extract.hpp: ExtractBezierPatches"]}
{"id": "C06", "title": "Uniform refinement inserts the equidistant knots", "statement": "uniform_refine(dim, n) inserts into every non-empty knot span exactly n knots, strictly inside the span, equally spaced, and in increasing order inside a span.", "quantifier": "every strictly increasing list of unique knots and every n>=1", "why_tests_cant": "any number of spans, any n", "anchors": ["splinepy/bspline.py: BSplineBase.uniform_refine"]}
{"id": "C07", "title": "Sampling grid is the tensor grid with the first dimension running fastest", "statement": "sample(resolutions) evaluates at prod(resolutions) points; the i-th point has in dimension d the equidistant coordinate number (i / prod(res[:d])) mod res[d]; the first and last coordinate of each dimension are the parametric bounds; resolutions below two are rejected; different indices give different grid coordinates.", "quantifier": "every number of dimensions, all bounds and all resolutions", "why_tests_cant": "infinite family of resolutions; off-by-one mistakes show only for unequal resolutions", "anchors": ["include/splinepy/utils/grid_points.hpp: GridPoints::SetUp, IdToGridPoint, Fill", "src/py/py_spline.cpp: PySpline::Sample"]}
{"id": "C08", "title": "Boundary faces pick exactly the control points of that face", "statement": "extract.boundaries() returns for boundary id b (axis b/2, minimum for even b, maximum for odd b) the control points whose multi-index in that axis is the first (last) one, each exactly once and in the order of the remaining axes.", "quantifier": "every number of dimensions, every control mesh resolution, every boundary id", "why_tests_cant": "all net shapes, including resolution-one axes", "anchors": ["include/splinepy/splines/helpers/extract.hpp: ExtractControlMeshSliceFromIDs, ExtractBoundaryMeshSlice", "include/splinepy/utils/grid_points.hpp: IdsOnHyperPlane"]}
{"id": "C09", "title": "Threaded queries handle every query exactly once", "statement": "For any number of threads, evaluate/derivative/basis/proximities/… compute every requested query exactly once and never touch memory outside of the arrays (result independent of nthreads).", "quantifier": "every number of queries (including zero) and every thread count (negative, zero, more than queries)", "why_tests_cant": "depends on the arithmetic relation between total and nthreads; a test with one pair proves nothing about others", "anchors": ["include/splinepy/utils/nthreads.hpp: NThreadExecution"]}
{"id": "C10", "title": "Strided multipatch queries handle every item exactly once", "statement": "Multipatch evaluate/sample and the consistency checks distribute (patch, query) pairs over threads by stride; every pair is visited by exactly one thread and its output goes to its own slot.", "quantifier": "every number of patches, queries and threads >= 1, every interleaving of the threads", "why_tests_cant": "all combinations of counts and schedules", "anchors": ["src/py/py_multipatch.cpp: PyMultipatch::Evaluate, Sample, RaiseMismatch"]}
{"id": "C11", "title": "Interface detection connects exactly the coinciding faces", "statement": "Faces whose centers coincide (within tolerance) are connected to each other, mutually: if face a points to face b then b points to a; faces with no partner are marked as boundary (-1).", "quantifier": "every number of faces, every arrangement of face centers, every direction used for sorting, every tolerance", "why_tests_cant": "the sweep sorts by a projected coordinate and stops early; completeness has to hold for every arrangement and metric vector", "anchors": ["src/py/py_multipatch.cpp: FindConnectivityFromCenters, InterfacesFromBoundaryCenters", "splinepy/multipatch.py: determine_interfaces"]}
{"id": "C12", "title": "Boundary labelling by continuity finds the connected components", "statement": "boundaries_from_continuity assigns the same boundary id to two boundary faces if and only if they are connected by a chain of neighbouring boundary faces that are G-continuous within tolerance; every boundary face gets an id and the number of ids is the number of components.", "quantifier": "every number of boundary faces and every neighbour/continuity relation", "why_tests_cant": "graph search over arbitrary graphs", "anchors": ["src/py/py_multipatch.cpp: AddBoundariesFromContinuity", "splinepy/multipatch.py: boundaries_from_continuity"]}
{"id": "C13", "title": "Boundary bookkeeping never destroys interfaces", "statement": "set_boundary, boundary_from_function and combine_boundaries only change the id of boundary faces: interface entries stay as they are, boundary faces stay boundary faces (negative entries).", "quantifier": "every interface table, every sequence of these calls, every id argument", "why_tests_cant": "arbitrary sequences of calls and ids", "anchors": ["splinepy/multipatch.py: set_boundary, boundary_from_function, combine_boundaries, boundaries"]}
{"id": "C14", "title": "Multipatch caches are coherent", "statement": "After any sequence of setting patches, setting interfaces, and reading derived data (boundary patch ids, boundary multipatch, sub-patch centers), every read returns what recomputing from the current patches and interfaces would return.", "quantifier": "every sequence of operations of any length", "why_tests_cant": "stale caches only show for specific histories", "anchors": ["src/py/py_multipatch.cpp: Clear, SetInterfaces, GetInterfaces, BoundaryPatchIds, BoundaryMultipatch, SubMultipatch, SubPatchCenters", "include/splinepy/py/py_multipatch.hpp: PyMultipatch"]}
{"id": "C15", "title": "boundary_patch_ids(bid) selects exactly the requested boundary", "statement": "boundary_patch_ids(bid) returns, in increasing order and without duplicates, exactly the global face ids whose interface entry carries that boundary id; a negative bid selects all boundary faces, a non-negative bid those whose entry is -bid; only boundary faces are ever returned.", "quantifier": "every interface table and every bid", "why_tests_cant": "all tables", "anchors": ["src/py/py_multipatch.cpp: PyMultipatch::BoundaryPatchIds"]}
{"id": "C16", "title": "Control point offsets enumerate all control points without overlap", "statement": "The control point offsets of a multipatch are the prefix sums of the patches' control point counts, so the ranges [offset_i, offset_{i+1}) are disjoint and cover all control points.", "quantifier": "every list of patches", "why_tests_cant": "all lists", "anchors": ["src/py/py_multipatch.cpp: PyMultipatch::ControlPointOffsets, ControlMeshResolutions"]}
{"id": "C17", "title": "Multipatch consistency check accepts exactly consistent lists", "statement": "Building a multipatch (or adding fields) raises if and only if some patch differs from the reference in a checked attribute; the verdict is independent of the number of threads.", "quantifier": "every list of patches, every combination of checks, every thread count", "why_tests_cant": "all lists and thread counts", "anchors": ["src/py/py_multipatch.cpp: RaiseMismatch"]}
{"id": "C18", "title": "Adding fields is all-or-nothing", "statement": "add_fields either appends all given fields or, if any is inconsistent, raises and leaves the list of fields unchanged.", "quantifier": "every list of fields, every position of the offending field, every history", "why_tests_cant": "position of the failure is arbitrary", "anchors": ["src/py/py_multipatch.cpp: PyMultipatch::AddFields", "splinepy/multipatch.py: add_fields"]}
{"id": "C19", "title": "Spline construction accepts exactly valid input", "statement": "Constructing a spline succeeds if and only if the properties are consistent: non-negative degrees, one knot vector per degree, each with at least 2(p+1) non-decreasing knots, number of control points equal to the product over dimensions, as many weights as control points.", "quantifier": "every combination of degrees, knot vectors, control points and weights", "why_tests_cant": "input space is infinite; boundary cases of the checks are what matters", "anchors": ["src/py/py_spline.cpp: PySpline::NewCore"]}
{"id": "C20", "title": "Spline kind follows from the given properties", "statement": "Whether the created core is Bezier, RationalBezier, BSpline or NURBS, and its name and para_dim/dim, is determined by exactly the given property names (knot_vectors, weights); the class-specific required properties agree with that dispatch.", "quantifier": "all subsets of properties and all dimensions", "why_tests_cant": "decision table plus dimension dispatch", "anchors": ["src/splines/splinepy_base.cpp: SplinepyBase::SplinepyCreate", "splinepy/spline.py: RequiredProperties, _new_core"]}
{"id": "C21", "title": "Property setters behave like a record of the latest values", "statement": "After any sequence of setting degrees, knot_vectors, control_points and weights (before and after the core exists), reading a property returns the most recently set value, and a core exists exactly when all required properties are present and valid; rejected assignments leave an observable defined state.", "quantifier": "every sequence of assignments", "why_tests_cant": "histories of any length", "anchors": ["splinepy/spline.py: Spline.degrees, knot_vectors, control_points, weights, _new_core, _safe_new_core"]}
{"id": "C22", "title": "Derived per-spline caches are never stale", "statement": "multi_index (and other saved derived data) always matches the current control mesh after any sequence of property assignments, degree elevation and knot insertion.", "quantifier": "every history", "why_tests_cant": "stale data shows only for particular histories", "anchors": ["splinepy/spline.py: multi_index, degrees setter, _new_core, elevate_degrees", "splinepy/bspline.py: insert_knots"]}
{"id": "C23", "title": "Control points and weights stay in sync with the homogeneous core", "statement": "After any sequence of writes to control points rows and weights rows of a rational spline, reading control points and weights back gives the latest written values; changing weights never moves control points, changing control points never changes weights.", "quantifier": "every sequence of row/rows/full updates with non-zero weights", "why_tests_cant": "the core stores weighted coordinates, each update has to rescale; histories of any length", "anchors": ["src/utils/coordinate_pointers.cpp: ControlPointPointers::SetRow, Sync, WeightPointers::SetRow, Sync", "include/splinepy/utils/coordinate_pointers.hpp: SetRows"]}
{"id": "C24", "title": "Array assignment on control points reaches the spline", "statement": "Any item assignment on spline.control_points that numpy accepts leaves the core equal to the array: rows touched by the assignment are synchronised.", "quantifier": "every kind of index (int, slice with any start/stop/step, list, mask, tuple, ellipsis) and every array shape", "why_tests_cant": "all slices including negative steps and out-of-range stops", "anchors": ["splinepy/utils/data.py: PhysicalSpaceArray.__setitem__, _sync, _sync_rows"]}
{"id": "C25", "title": "Negative row ids address rows from the end", "statement": "Setting rows of control points or weights with negative ids is the same as with the ids counted from the start.", "quantifier": "every list of ids in [-n, n) and every list of values", "why_tests_cant": "mixed signs", "anchors": ["include/splinepy/utils/coordinate_pointers.hpp: WrapId, ControlPointPointers::SetRows, WeightPointers::SetRows"]}
{"id": "C26", "title": "Knot vector assignment is atomic and keeps knots non-decreasing", "statement": "Assigning to entries of spline.knot_vectors[i] either succeeds and leaves a non-decreasing knot vector, or raises and leaves the knot vector unchanged.", "quantifier": "every knot vector, slice and list of new values, every sequence of assignments", "why_tests_cant": "rejected assignments at arbitrary positions", "anchors": ["src/py/py_knot_vector.cpp: __setitem__", "src/py/py_parameter_space.cpp: __setitem__"]}
{"id": "C27", "title": "Greville abscissae are monotone, inside the bounds and reproduce the parameter", "statement": "greville_abscissae are non-decreasing, lie within the parametric bounds, start/end at the bounds for clamped knot vectors; duplicates are separated by the duplicate filter without leaving the order or moving the end points.", "quantifier": "every degree >=1, knot vector and tolerance", "why_tests_cant": "all knot multiplicity patterns", "anchors": ["include/splinepy/splines/helpers/properties.hpp: GetGrevilleAbscissae"]}
{"id": "C28", "title": "The dense solver solves the linear system", "statement": "The solver used in Newton/Levenberg-Marquardt steps (Gaussian elimination with row pivoting) returns x with A x = b for every regular A; the matrix row order bookkeeping does not change the result.", "quantifier": "every size n and every regular matrix, every right-hand side", "why_tests_cant": "all pivoting patterns", "anchors": ["include/splinepy/utils/arrays.hpp: Matrix::Solve"]}
{"id": "C29", "title": "Proximity search never leaves the parametric bounds", "statement": "The parametric coordinate returned by proximities lies inside the search bounds (inside the parametric bounds), no matter how the iterations behave.", "quantifier": "every query, spline, option, number of iterations, and every outcome of the inner solver", "why_tests_cant": "depends on arbitrary iterates", "anchors": ["src/proximity/proximity.cpp: UpdateAndClip, Newton, LevenbergMarquart, Slsqp, VerboseQuery, FindSearchBound", "include/splinepy/utils/arrays.hpp: Clip"]}
{"id": "C30", "title": "Iterative proximity search terminates", "statement": "Newton and Levenberg-Marquardt iterations stop after a bounded number of steps for every behaviour of the objective.", "quantifier": "every sequence of accepted/rejected steps", "why_tests_cant": "the rejecting branch does not increase the iteration counter; termination hinges on the damping parameter", "anchors": ["src/proximity/proximity.cpp: LevenbergMarquart, Newton"]}
{"id": "C31", "title": "Proximity results are consistent", "statement": "The reported nearest point, difference and distance of proximities belong to the reported parametric coordinate, and the distance is never larger than the one of the initial guess.", "quantifier": "every query and every outcome of the fallback solvers", "why_tests_cant": "fallback branches are hard to reach by tests", "anchors": ["src/proximity/proximity.cpp: VerboseQuery"]}
{"id": "C32", "title": "Default quadrature order is sufficient", "statement": "integrate.volume with default orders uses enough Gauss points per direction to integrate the Jacobian determinant of a polynomial spline exactly; quadrature weights of a tensor rule sum to the measure of the unit cube; quadrature points lie in the unit cube.", "quantifier": "every degree vector, every parametric dimension", "why_tests_cant": "all degrees", "anchors": ["splinepy/helpme/integrate.py: _get_quadrature_information, _default_quadrature_orders, volume"]}
{"id": "C33", "title": "Integration of a function is independent of knot insertion", "statement": "integrate.parametric_function(f) of a spline gives the integral of f over the geometry, independent of how many knot spans the spline has.", "quantifier": "every spline with knot vectors, every function", "why_tests_cant": "tests only use single-span splines", "anchors": ["splinepy/helpme/integrate.py: parametric_function"]}
{"id": "C34", "title": "Fitting generates valid knot vectors", "statement": "fit.curve/fit.surface choose clamped, non-decreasing knot vectors in [0,1] of length n+p+1 which satisfy the Schoenberg-Whitney condition for strictly increasing parameters (interpolation is solvable).", "quantifier": "every number of points, degree and number of control points, every strictly increasing parametrisation", "why_tests_cant": "all sizes", "anchors": ["splinepy/helpme/fit.py: parametrize, compute_knot_vector"]}
{"id": "C35", "title": "Fitting honours user supplied knot vector", "statement": "If the user passes a knot_vector, the fitted curve uses it.", "quantifier": "every knot vector", "why_tests_cant": "requires looking at all paths of argument handling", "anchors": ["splinepy/helpme/fit.py: curve, _prepare_default_bspline1pd"]}
{"id": "C36", "title": "Free-form deformation evaluates inside of the deformation spline", "statement": "Every mesh vertex is mapped to parametric coordinates strictly inside (0,1) of the normalised deformation spline for any positive padding; scaling preserves relative order; the default deformation spline moves no vertex by more than the padding.", "quantifier": "every mesh (also flat ones), every positive padding", "why_tests_cant": "all meshes", "anchors": ["splinepy/helpme/ffd.py: FFD.mesh, spline, padding, _compute_mesh"]}
{"id": "C37", "title": "Microstructure tiling produces the requested number of tiles per direction", "statement": "Microstructure.create distributes tiles such that the deformation function is refined in every parametric direction to the requested number of elements (per knot span, or in total when not knot-span-wise), never placing knots outside of a span; the knots of direction d are inserted into direction d.", "quantifier": "every tiling, number of dimensions and knot vector", "why_tests_cant": "all combinations", "anchors": ["splinepy/microstructure/microstructure.py: _additional_knots, _compute_tiling_prerequisites"]}
{"id": "C38", "title": "Cartesian product enumerates all combinations in order", "statement": "cartesian_product(arrays, reverse=True) lists every combination exactly once, with the first array running fastest; with reverse=False the last runs fastest.", "quantifier": "every list of arrays", "why_tests_cant": "all lists", "anchors": ["splinepy/utils/data.py: cartesian_product, uniform_query"]}
{"id": "C39", "title": "Multi-index maps grid coordinates to control point ids", "statement": "multi_index[i,j,...] is the flat id of the control point in the tensor net with first dimension running fastest; it is a bijection between grid coordinates and ids; slices return the ids of all covered coordinates.", "quantifier": "every net shape and every coordinate", "why_tests_cant": "all shapes", "anchors": ["splinepy/helpme/multi_index.py: MultiIndex"]}
{"id": "C40", "title": "Permuting parametric axes only renames the axes", "statement": "permute_parametric_axes(spline, perm) yields a spline with degrees/knot vectors permuted and control point at permuted multi-index equal to the original one; applying the inverse permutation restores the spline; permuting is functorial.", "quantifier": "every net shape, every permutation", "why_tests_cant": "all permutations and shapes", "anchors": ["splinepy/helpme/reparametrize.py: permute_parametric_axes"]}
{"id": "C41", "title": "Flipping axes reverses them and is an involution", "statement": "flip_axes(spline, axes) reverses control points along these axes and mirrors the knot vectors inside their bounds; knot vectors stay non-decreasing with the same bounds; flipping twice restores the spline.", "quantifier": "every net shape, set of axes, knot vectors", "why_tests_cant": "all shapes and axes lists", "anchors": ["splinepy/helpme/reparametrize.py: flip_axes"]}
{"id": "C42", "title": "Rational basis functions form a partition of unity", "statement": "For positive weights, basis functions of rational splines are non-negative and sum to one, and evaluating equals the weighted projection of the homogeneous curve; equal weights reproduce the polynomial basis.", "quantifier": "every set of basis values and positive weights", "why_tests_cant": "all values", "anchors": ["include/splinepy/splines/helpers/basis_functions.hpp: RationalBSplineBasis"]}
{"id": "C43", "title": "Rational basis derivatives obey the quotient rule in every order", "statement": "basis_derivative of rational splines returns, for every multi-order, the derivative of the quotient w_i N_i / sum_j w_j N_j, i.e. the Leibniz identity holds for all orders.", "quantifier": "every derivative order vector and any number of parametric dimensions", "why_tests_cant": "orders are unbounded", "anchors": ["include/splinepy/splines/helpers/basis_functions.hpp: RationalBSplineBasisDerivative"]}
{"id": "C44", "title": "Unique knots and multiplicities are faithful", "statement": "unique_knots / knot_multiplicities list each distinct knot once, in increasing order, and repeating each unique knot by its multiplicity gives back the knot vector (zero tolerance); with tolerance, consecutive unique knots are more than the tolerance apart.", "quantifier": "every knot vector and tolerance", "why_tests_cant": "all patterns", "anchors": ["include/splinepy/utils/arrays.hpp: UniqueIndicesAndMultiplicities, ArgSort", "src/py/py_parameter_space.cpp: unique_knots"]}
{"id": "C45", "title": "Splitting a Bezier at several locations gives consecutive pieces", "statement": "split(dim, locations) with sorted locations gives len+1 pieces; piece i is the original restricted to [l_{i-1}, l_i]; re-scaling of later locations into remaining pieces is exact; endpoints of adjacent pieces coincide.", "quantifier": "every list of increasing locations in (0,1), every degree", "why_tests_cant": "all lists", "anchors": ["src/py/py_spline_extensions.cpp: Split", "include/splinepy/splines/bezier.inl: SplinepySplit"]}
{"id": "C46", "title": "Saving and loading returns the same splines", "statement": "json and npz export followed by load returns the same list of splines (kind, degrees, knot vectors, control points, weights), independent of base64 option.", "quantifier": "every list of splines", "why_tests_cant": "all lists, all kinds", "anchors": ["splinepy/io/json.py: export, load", "splinepy/io/npz.py: export, load", "splinepy/io/ioutils.py: dict_to_spline"]}
{"id": "C47", "title": "gismo export/load preserves the multipatch topology", "statement": "Writing a multipatch to gismo xml and loading it restores the interface table, including boundary ids.", "quantifier": "every symmetric interface table and boundary numbering", "why_tests_cant": "all tables", "anchors": ["splinepy/io/gismo.py: export, load", "src/py/py_multipatch.cpp: GetInterfaceOrientations"]}
{"id": "C48", "title": "Field support table numbers fields per patch consecutively", "statement": "The support matrix of gismo field export numbers, for every patch, the fields living on the patch consecutively from zero in the order of the fields.", "quantifier": "every support pattern", "why_tests_cant": "index trick must hold for all patterns", "anchors": ["splinepy/io/gismo.py: _spline_to_ET"]}
{"id": "C49", "title": "Extrusion, embedding and boxes have the expected geometry", "statement": "extruded(v) evaluates to S(u)+t*v; embedded keeps/zero-fills coordinates; box/from_bounds/parametric_view map the parametric bounds affinely onto the physical bounds; resulting properties are consistent (counts, knot vectors).", "quantifier": "every spline, extrusion vector, bounds, dimension", "why_tests_cant": "all dimensions and values", "anchors": ["splinepy/helpme/create.py: extruded, embedded, box, from_bounds, parametric_view, line"]}
{"id": "C50", "title": "Revolution keeps the distance to the axis", "statement": "revolved/arc/circle on rational splines create points having exactly the distance to the rotation axis of the generating point, for every angle and number of knot spans; the number of knot spans is large enough to avoid a half-turn per span; knots and weights counts fit.", "quantifier": "every angle, number of spans, parameter value", "why_tests_cant": "holds for real angles and all parameters", "anchors": ["splinepy/helpme/create.py: revolved, arc, circle"]}
{"id": "C51", "title": "Interface orientation maps matching corners onto each other", "statement": "interface orientation (axis mapping and flip flags) computed for two patches sharing a face describes the parametric axes permutation/flip that maps the first onto the second; result of swapping start and end is the inverse.", "quantifier": "every pair of compatible faces", "why_tests_cant": "all orientations and dimensions", "anchors": ["src/py/py_multipatch.cpp: GetInterfaceOrientation, GetInterfaceOrientations"]}
{"id": "C52", "title": "Validity check of queries is exact", "statement": "check.valid_queries raises if and only if a query lies outside of the parametric bounds; clamped_knot_vectors reports true iff all end knots have multiplicity p+1.", "quantifier": "every list of queries and bounds", "why_tests_cant": "all inputs", "anchors": ["splinepy/helpme/check.py: valid_queries, clamped_knot_vectors"]}
{"id": "C53", "title": "Geometry mapper applies the chain rule", "statement": "mapper gradients/hessians/laplacians of a field are the derivatives in physical space: composing with the geometry Jacobian gives back parametric derivatives; laplacian is the trace of the hessian irrespective of the flags requested; divergence is the trace of the gradient.", "quantifier": "every regular Jacobian, all derivative values, all flag combinations", "why_tests_cant": "all values", "anchors": ["splinepy/helpme/mapper.py: Mapper.basis_function_derivatives, field_derivatives"]}
{"id": "C54", "title": "Basis matrix has the requested entries", "statement": "make_matrix(values, supports, n_cols) has at (i, supports[i,j]) the value values[i,j] and zeros elsewhere, and sparse and dense variants agree when supports of a row are distinct; matrix times control points equals evaluation.", "quantifier": "every table of values and supports", "why_tests_cant": "all tables", "anchors": ["splinepy/utils/data.py: make_matrix"]}
{"id": "C55", "title": "Extracting an interval gives the restricted spline", "statement": "extract.spline(axis, [a,b]) returns a spline with parametric bounds [a,b] and control points slice that belongs to the knots slice; axis outside the range is rejected.", "quantifier": "every knot vector with full multiplicity at the split planes", "why_tests_cant": "all multiplicities", "anchors": ["splinepy/helpme/extract.py: spline"]}
{"id": "C56", "title": "Insert_knots reports what was inserted", "statement": "insert_knots leaves the parametric bounds unchanged, and inserted-flags tell exactly which of the queries have been inserted.", "quantifier": "every list of queries", "why_tests_cant": "all queries, also outside", "anchors": ["src/py/py_spline_extensions.cpp: InsertKnots", "include/splinepy/splines/helpers/scalar_type_wrapper.hpp: ScalarTypeInsertKnot"]}
{"id": "C57", "title": "Bezier extraction reproduces the spline", "statement": "For a B-spline with clamped knot vectors, the rows of the product of the extraction matrices selected by the ids of a Bezier patch, applied to the control points, are the Bezier control points of the spline on that knot span: the spline equals the tensor product of Bernstein polynomials with these coefficients on the whole span.", "quantifier": "every parametric dimension, degree, knot vector, coefficients, patch and parameter in the patch", "why_tests_cant": "parameters range over a continuum, knot vectors and dimensions are unbounded", "anchors": ["src/py/py_knot_insertion_matrix.cpp: BezierExtractionMatrices", "src/splines/helpers/extract.cpp: ExtractBezierPatchIDs", "splinepy/bspline.py: knot_insertion_matrix"]}
{"id": "C58", "title": "Continuity labels do not depend on the number of threads", "statement": "boundaries_from_continuity(nthreads=n) gives the same boundary ids for every number of threads and every interleaving of the threads' memory accesses.", "quantifier": "every thread count, every interleaving, every neighbour/continuity relation", "why_tests_cant": "interleavings cannot be enumerated or forced by tests", "anchors": ["src/py/py_multipatch.cpp: AddBoundariesFromContinuity", "splinepy/multipatch.py: boundaries_from_continuity"]}
{"id": "C59", "title": "A rejected list of patches leaves the multipatch as it was", "statement": "Assigning Multipatch.patches either takes over the whole list or raises and leaves the multipatch (patches, fields, interfaces) unchanged.", "quantifier": "every previous multipatch, every list of patches, every thread count", "why_tests_cant": "all histories and all positions of the offending patch", "anchors": ["src/py/py_multipatch.cpp: SetPatchesNThreads, Clear", "splinepy/multipatch.py: patches"]}
{"id": "C60", "title": "boundaries lists every boundary face exactly once", "statement": "Multipatch.boundaries has one entry per boundary id 1..max; entry k-1 contains exactly the (patch, face) pairs with boundary id k; every boundary face occurs in exactly one entry, once; interfaces in none.", "quantifier": "every interface table", "why_tests_cant": "all tables of any size, ids with gaps", "anchors": ["splinepy/multipatch.py: boundaries"]}
{"id": "C61", "title": "elevate_degrees raises every listed direction as often as it is listed", "statement": "elevate_degrees(list) raises the degree of each parametric direction by the number of occurrences of the direction in the list, independent of the order; a list with an invalid direction raises and changes nothing.", "quantifier": "every list of directions", "why_tests_cant": "all lists, orders and repetitions", "anchors": ["src/py/py_spline.cpp: ElevateDegrees", "include/splinepy/utils/arrays.hpp: ArgSort, UniqueIndicesAndMultiplicities"]}
{"id": "C62", "title": "Knots assigned through spline.knot_vectors reach the spline", "statement": "After any history of assignments, reads and refinements, an accepted assignment to spline.knot_vectors[i] (whole, slice or single knot) changes the spline that is evaluated, and reading the knot vectors afterwards agrees with that spline.", "quantifier": "every history of calls on a spline object, every knot vector", "why_tests_cant": "histories are unbounded; the object returned by knot_vectors may belong to an earlier core", "anchors": ["splinepy/spline.py: knot_vectors, _safe_new_core", "src/py/py_spline.cpp: NewCore"]}
{"id": "C63", "title": "fit.curve interpolates or minimises", "statement": "fit.curve with as many control points as points passes through every point; with fewer control points it minimises the sum of squared distances to the points at their parameters, and with interpolate_endpoints it starts in the first and ends in the last point and is the closest among all such curves", "quantifier": "every list of points whose neighbours differ, every degree and number of control points", "why_tests_cant": "a test fits a few point sets and compares within a tolerance", "anchors": ["splinepy/helpme/fit.py: curve, solve_for_control_points"]}
{"id": "C64", "title": "fit.surface is the tensor product of curve fits", "statement": "fit.surface fits the columns of the grid of points along the first direction and the rows of the result along the second one; no line overwrites the control points of another, and the surface passes through every grid point if both fits interpolate", "quantifier": "every grid size, every number of control points not larger than the grid, every pair of linear or non-linear line fits", "why_tests_cant": "index errors only show for particular non-square grids and sizes", "anchors": ["splinepy/helpme/fit.py: surface", "splinepy/helpme/multi_index.py: MultiIndex"]}
{"id": "C65", "title": "Conversions between spline types keep the geometry", "statement": "Converting a spline to a type with knot vectors (Bezier.bspline, RationalBezier.nurbs) or to a rational type (Bezier.rationalbezier, BSpline.nurbs) gives a valid spline with the same domain and the same point at every parameter", "quantifier": "every valid spline of any degrees and dimensions and every parameter", "why_tests_cant": "There are infinitely many splines and parameters; tests compare samples of a few", "anchors": ["splinepy/bezier.py Bezier.bspline", "splinepy/bspline.py BSpline.nurbs", "src/py/py_spline_extensions.cpp SameSplineWithKnotVectors"]}
{"id": "C66", "title": "line passes through its points in equal parameter steps", "statement": "helpme.create.line with at least two points returns a valid spline of degree one on [0, 1] that interpolates point i at i/(n-1) and is linear in between", "quantifier": "every list of at least two points of every dimension and every parameter", "why_tests_cant": "Tests look at fixed point lists", "anchors": ["splinepy/helpme/create.py line"]}
{"id": "C67", "title": "Arcs, circles, disks and spheres have the requested radii and angles", "statement": "create.arc(radius, angle, n_knot_spans, start_angle) lies on the circle of the given radius about the origin, starts at start_angle and ends at start_angle + angle without turning back, for every angle; create.circle is closed; in create.disk and create.sphere the first parameter interpolates the distance to the origin linearly from the inner to the outer radius; creation succeeds for every angle and every requested number of knot spans.", "quantifier": "every radius, inner radius, angle (positive, negative, more than one turn), start angle, number of knot spans, unit of the angle, parameter", "why_tests_cant": "Tests evaluate the shapes at a few parameters for a few angles; angles just below half a turn make the constructor raise and no test hits the window.", "anchors": ["splinepy/helpme/create.py: arc, circle, disk, sphere, revolved"]}
{"id": "C68", "title": "Circular patches have the requested radius", "statement": "The boundary of the patch created by create.plate(radius) and create.surface_circle(outer_radius) is the circle with the given radius about the origin.", "quantifier": "every radius, every parameter on the boundary of the patch", "why_tests_cant": "Tests compare a few evaluated points or only construct the shape; that the whole boundary lies on a circle of the given radius is a polynomial identity.", "anchors": ["splinepy/helpme/create.py: plate, surface_circle"]}
{"id": "C69", "title": "A torus has the requested angles", "statement": "create.torus(torus_radius, section_outer_radius, section_inner_radius, torus_angle, section_angle, degree=...) creates the torus with exactly these radii and angles; an angle that is left out means a full turn and has no influence on how the other one is read; every combination of angles can be created.", "quantifier": "every radius, every combination of given and omitted angles and inner radius, every number of knot spans, both units", "why_tests_cant": "Tests build a few combinations of arguments; which combinations re-interpret the unit of an angle or raise can only be settled by a case analysis over all of them.", "anchors": ["splinepy/helpme/create.py: torus, plate, disk, revolved"]}
{"id": "C70", "title": "Normalising knot vectors keeps the geometry", "statement": "normalize_knot_vectors maps every knot vector linearly to [0, 1]; the spline at the linearly scaled parameter is the point it had before, degrees, control points and weights are unchanged and the parametric domain is the scaled one.", "quantifier": "every spline with knot vectors of any number, degree, multiplicity, clamped or not, every parameter", "why_tests_cant": "Tests check the end knots of a few examples; that no point moves is an identity over all parameters and knot vectors.", "anchors": ["splinepy/bspline.py: normalize_knot_vectors"]}
{"id": "C71", "title": "An FFD object stays consistent and usable under every history of assignments", "statement": "After every sequence of assignments to mesh, spline and padding (including ones that raise), the query points belong to the current mesh and padding, the spline fits the mesh, and the deformed mesh is available whenever a mesh is set; rejected assignments leave the object unchanged; assigning a mesh of another dimension replaces the spline by a default one.", "quantifier": "every sequence of assignments, successful and rejected ones, every mesh dimension", "why_tests_cant": "Tests run a handful of assignment sequences; the failing ones need two meshes of different dimensions on one object.", "anchors": ["splinepy/helpme/ffd.py: FFD.mesh, FFD.spline, FFD.padding"]}
{"id": "C72", "title": "Fields of a microstructure are aligned with its patches", "statement": "Microstructure.create returns the tiles composed with the Bezier patches of the deformation function, in order. If sensitivities are requested, every derivative field has exactly one entry per patch of the microstructure. The entry of design variable j at the position of a patch is the composition derivative of this patch with its own derivative for j, and None exactly if all sensitivities of the tile parameters to j vanish on this tile.", "quantifier": "all deformation functions, tiles, parametrisations and sensitivity functions, any number of patches and design variables, with or without macro sensitivities", "why_tests_cant": "tests look at one tile type and one sensitivity function; the alignment of skipped and computed entries must hold for every support pattern", "anchors": ["splinepy/microstructure/microstructure.py: Microstructure.create"]}
{"id": "C73", "title": "Macro sensitivity fields are the response to the control points of the deformation function", "statement": "With macro_sensitivities, the field number n_parameter_sensitivities + ii * dim + jj of the microstructure has as control points exactly the change of the control points of each patch of the microstructure if component jj of control point ii of the (non-rational) deformation function is changed by one.", "quantifier": "all deformation functions, tilings, tiles, control points and components, and all changes", "why_tests_cant": "the relation must hold for every control point and every perturbation; tests compare finite differences at samples", "anchors": ["splinepy/microstructure/microstructure.py: Microstructure.create, _compute_tiling_prerequisites"]}
{"id": "C74", "title": "Closing tiles close both ends", "statement": "With closing_face, exactly the tiles of the first layer of elements in this direction are created as closing tiles of the lower end and exactly the tiles of the last layer as closing tiles of the upper end.", "quantifier": "all element resolutions, numbers of dimensions and closing directions", "why_tests_cant": "the index arithmetic has to be right for every resolution, including a single layer", "anchors": ["splinepy/microstructure/microstructure.py: Microstructure.create"]}
{"id": "C75", "title": "Derivative splines of tiles are the derivatives of the tile", "statement": "create_tile(parameters, parameter_sensitivities) of a tile of the microstructure library returns, next to the patches, one list of derivative patches per sensitivity. Each of them has the same patches, degrees and numbers of control points as the tile, and each coordinate of each of its control points is the directional derivative of that coordinate of the tile's control point when the parameters move along the sensitivity. This holds for Cross2D, DoubleLattice, HollowCube, Cross3D, Cross3DLinear and their closing tiles, Chi, CubeVoid and EllipsVoid.", "quantifier": "all accepted parameters, all sensitivities (any number), all closures and all further arguments (center expansion, boundary width, filling height, contact length), every control point and coordinate", "why_tests_cant": "Tests compare with finite differences at one random parameter set; the derivative branches repeat the formulas with constants replaced by zero, so one forgotten constant shows up only for some entries and some directions.", "anchors": ["splinepy/microstructure/tiles/cross_2d.py:Cross2D.create_tile", "splinepy/microstructure/tiles/cross_3d.py:Cross3D.create_tile", "splinepy/microstructure/tiles/cross_3d_linear.py:Cross3DLinear.create_tile", "splinepy/microstructure/tiles/double_lattice.py:DoubleLattice.create_tile", "splinepy/microstructure/tiles/hollow_cube.py:HollowCube.create_tile", "splinepy/microstructure/tiles/chi.py:Chi.create_tile", "splinepy/microstructure/tiles/cube_void.py:CubeVoid.create_tile", "splinepy/microstructure/tiles/ellips_v_oid.py:EllipsVoid.create_tile"]}
{"id": "C76", "title": "Tiles stay inside the unit cube", "statement": "All control points of all patches of a tile that create_tile accepts lie in the unit square or unit cube, the parametric domain of the macro patch the tile is composed with; hence the composition never evaluates the macro patch outside its domain. This includes the closing tiles.", "quantifier": "all accepted parameters, all closures and all further arguments of create_tile, for the tiles Cross2D, DoubleLattice, HollowOctagon, HollowOctagonExtrude, Snappy, Chi, HollowCube, Cross3D, Cross3DLinear, InverseCross3D, Armadillo, CubeVoid and EllipsVoid", "why_tests_cant": "The admissible parameters form a continuum and the range checks are written by hand per tile (partly not at all); tests use default parameters.", "anchors": ["splinepy/microstructure/tiles/cross_2d.py:Cross2D", "splinepy/microstructure/tiles/double_lattice.py:DoubleLattice", "splinepy/microstructure/tiles/hollow_octagon.py:HollowOctagon", "splinepy/microstructure/tiles/snappy.py:Snappy", "splinepy/microstructure/tiles/chi.py:Chi", "splinepy/microstructure/tiles/hollow_cube.py:HollowCube", "splinepy/microstructure/tiles/cross_3d.py:Cross3D", "splinepy/microstructure/tiles/cross_3d_linear.py:Cross3DLinear", "splinepy/microstructure/tiles/cube_void.py:CubeVoid", "splinepy/microstructure/tiles/ellips_v_oid.py:EllipsVoid"]}
{"id": "C77", "title": "Neighbouring tiles meet", "statement": "Two tiles of the same type that are put into neighbouring cells meet exactly: the faces the first tile has on the common side are, with the same control points in the same order, the faces the second tile has there, and no face on the common side is left without partner. The only condition on the parameters is that the ones evaluated on the common side agree (they are evaluated at the same point of the macro patch); tiles with a single evaluation point meet for any two parameters. This includes the closing tiles, next to ordinary tiles in the closing direction and next to each other in the other directions.", "quantifier": "all pairs of accepted parameters that agree on the common side, all directions, all admissible pairs of closures, all further arguments of create_tile, for the tiles Cross2D, DoubleLattice, HollowOctagon, HollowOctagonExtrude, Snappy, HollowCube, Cross3D, Cross3DLinear, InverseCross3D, Armadillo, CubeVoid, EllipsVoid and Chi", "why_tests_cant": "A microstructure is a single connected body only if every pair of neighbours fits; parameters vary over a continuum along the structure and tests create structures with few parameters and do not compare faces.", "anchors": ["splinepy/microstructure/tiles/cross_2d.py:Cross2D", "splinepy/microstructure/tiles/double_lattice.py:DoubleLattice", "splinepy/microstructure/tiles/hollow_octagon.py:HollowOctagon", "splinepy/microstructure/tiles/snappy.py:Snappy", "splinepy/microstructure/tiles/hollow_cube.py:HollowCube", "splinepy/microstructure/tiles/cross_3d.py:Cross3D", "splinepy/microstructure/tiles/cross_3d_linear.py:Cross3DLinear"]}
{"id": "C78", "title": "Closing tiles cover the closed face", "statement": "If create_tile(closure=face) returns a tile, then the patches of that tile cover every point of that face of the unit cell, so the microstructure has no openings on the closed side; a face name the tile does not know is an error.", "quantifier": "all closures, parameters, sensitivities, boundary widths and filling heights the tile accepts, all points of the face", "why_tests_cant": "Coverage is a statement about every real point of a face for every admissible combination of parameters; tests look at a few control points of default tiles.", "anchors": ["splinepy/microstructure/tiles/cross_2d.py:Cross2D._closing_tile", "splinepy/microstructure/tiles/cross_3d.py:Cross3D._closing_tile", "splinepy/microstructure/tiles/cross_3d_linear.py:Cross3DLinear._closing_tile", "splinepy/microstructure/tiles/hollow_octagon.py:HollowOctagon._closing_tile", "splinepy/microstructure/tiles/hollow_cube.py:HollowCube.create_tile"]}
{"id": "C79", "title": "The MFEM numbering of control points is a permutation with the corners first", "statement": "For a surface or volume with at least two control points per direction, dof_mapping returns two lists. Each of them contains every control point id exactly once, and the second list is the inverse of the first one. The first list starts with the corners in the vertex order of MFEM's square or cube, followed by the control points inside of edges, then inside of faces (volumes), then inside of the patch. Other parametric dimensions are rejected.", "quantifier": "all control mesh resolutions of surfaces and volumes with at least two control points per direction", "why_tests_cant": "A test covers a few degrees; a wrong slice bound shows up only for other numbers of control points, and lists an id twice or drops it.", "anchors": ["splinepy/io/mfem.py:dof_mapping", "splinepy/io/mfem.py:_mfem_dof_map_2d", "splinepy/io/mfem.py:_mfem_dof_map_3d"]}
{"id": "C80", "title": "MFEM files round-trip, and solutions are read onto their reference spline", "statement": "A NURBS surface or volume exported to an MFEM file and loaded again has the same degrees, knot vectors, weights and control points, in the same order. read_solution returns the reference spline with its control points replaced by those of the solution file, and nothing else changed.", "quantifier": "all NURBS surfaces and volumes with at least two control points per direction, all solution files for them", "why_tests_cant": "The permutation hides in tests with equal weights or symmetric nets; it must be undone for every resolution.", "anchors": ["splinepy/io/mfem.py:export", "splinepy/io/mfem.py:load", "splinepy/io/mfem.py:read_solution", "splinepy/io/ioutils.py:next_line"]}
{"id": "C81", "title": "The multipatch MFEM file describes the topology of the multipatch", "statement": "export_cartesian writes one element per patch whose vertices are the corners of the patch in MFEM's order; two corners get the same vertex number exactly if their control points coincide up to the tolerance; vertex numbers are below the number of vertices. For every face on the boundary, and for no other face, it writes one boundary element with the boundary label of that face, whose vertices are the corners on that face in an order that goes around the face. Each patch is written with its degrees, knots, control points and weights, in order. Dimensions other than 2D in 2D and 3D in 3D are rejected.", "quantifier": "all lists of patches of matching dimension, all tables of interfaces and boundary labels", "why_tests_cant": "Two face numberings and two corner orders are combined by tables; a wrong entry only shows on particular faces, labels or patches.", "anchors": ["splinepy/io/mfem.py:export_cartesian", "splinepy/multipatch.py:Multipatch.interfaces"]}
{"id": "C82", "title": "irit files give back the splines that were written", "statement": "A list of splines exported to an irit (.itd) file and loaded again gives splines of the same kinds with the same degrees, knot vectors, control points and weights, in the same order.", "quantifier": "all lists of splines of all kinds, parametric dimensions, degrees and physical dimensions", "why_tests_cant": "The loader works by text patterns; whether a pattern cuts at the wrong place depends on the splines in the file and their dimensions.", "anchors": ["splinepy/io/irit.py:export", "splinepy/io/irit.py:load", "splinepy/io/ioutils.py:dict_to_spline"]}
{"id": "C83", "title": "expand_tabs replaces the tabs of a file", "statement": "After expand_tabs(fname) the file contains no tab; with overwrite=False the original is kept and the result is written to a copy in the same directory.", "quantifier": "all files and file names", "why_tests_cant": "A test with a file without tabs, or one that only checks that loading works, does not see it.", "anchors": ["splinepy/io/ioutils.py:expand_tabs", "splinepy/io/irit.py:load"]}
{"id": "C84", "title": "CATS files give back the splines that were written", "statement": "A list of splines exported to a CATS xml file and loaded again gives, in the same order, the same splines as NURBS (with make_rational=False: splines without weights as B-splines): degrees and control points are equal, knot vectors and weights too where the spline has them, otherwise the knots of a Bezier spline on [0, 1] and weights one.", "quantifier": "all lists of splines of all kinds, parametric dimensions, degrees, physical dimensions and both values of make_rational", "why_tests_cant": "Conversion, flattening and re-reading depend on kind, dimension and sizes of every spline of the list; tests try one file.", "anchors": ["splinepy/io/cats.py:export", "splinepy/io/cats.py:load", "splinepy/bezier.py:Bezier.nurbs", "splinepy/bspline.py:BSpline.nurbs"]}
{"id": "C85", "title": "gismo files give back the geometry", "statement": "The patches of a multipatch exported to a gismo xml file, as text or with as_base64=True, and loaded again are the same splines in the same order; Bezier splines come back as B-splines and rational Bezier splines as NURBS with the knots of a Bezier spline, with equal degrees, control points and weights.", "quantifier": "all lists of patches of the four kinds, all degrees and dimensions, both encodings", "why_tests_cant": "Nested basis elements, index based filling and two encodings; a wrong branch shows only for one kind of spline.", "anchors": ["splinepy/io/gismo.py:export", "splinepy/io/gismo.py:load", "splinepy/io/gismo.py:_spline_to_ET"]}
{"id": "C86", "title": "gismo options survive a round trip", "statement": "Options given to gismo export come back from load in the same order with the same tags, attributes, texts (up to white space) and children, at any depth; writing loaded options again changes nothing.", "quantifier": "all lists of options with trees of any depth, with and without indentation", "why_tests_cant": "The tree of options has unbounded depth; pretty printing rewrites texts depending on the position in the tree.", "anchors": ["splinepy/io/gismo.py:export", "splinepy/io/gismo.py:load"]}
{"id": "C87", "title": "Binary arrays in gismo files are read in the declared format", "statement": "An array in a gismo file with format B64<type> is read as the numbers of this type stored in it.", "quantifier": "all formats listed by the loader and all buffers", "why_tests_cant": "Tests only read files written by splinepy itself, which use one format.", "anchors": ["splinepy/io/gismo.py:load"]}
{"id": "C88", "title": "The determinant spline is the determinant of the Jacobian", "statement": "For a non-rational spline, or a rational one with equal weights, whose parametric and physical dimensions agree, the spline returned by create.determinant_spline has at every parameter the determinant of the Jacobian of the given spline as value; if all its control points are positive the given spline is not tangled. Splines with differing dimensions are rejected.", "quantifier": "all degrees, dimensions, control points and parameters", "why_tests_cant": "The result is fitted at finitely many points; that degree and sample points suffice for equality everywhere is an argument over polynomials, samples cannot show it.", "anchors": ["splinepy/helpme/create.py:determinant_spline"]}
{"id": "C89", "title": "Extracted boundaries are the faces of the spline", "statement": "For every spline with at least two parametric directions, extract.boundaries (extract_boundaries) returns for face 2i (2i+1) a spline without direction i whose value at every parameter point is the value of the spline at the same point with coordinate i at the lower (upper) end of the domain, rational splines included; all faces in order without a list of ids, exactly the listed ones otherwise, and ids outside 0..2*para_dim-1 are rejected.", "quantifier": "every valid spline of any parametric and physical dimension, every face, every point of the face", "why_tests_cant": "the ids of control points are computed by strides from the resolutions and the statement is about infinitely many parameter points; tests compare a few control points", "anchors": ["src/py/py_spline_extensions.cpp:ExtractBoundaries", "include/splinepy/splines/helpers/extract.hpp:ExtractBoundaryMeshSlice", "include/splinepy/utils/grid_points.hpp:IdsOnBoundary", "splinepy/helpme/extract.py:boundaries"]}
{"id": "C90", "title": "extract.edges draws exactly the knot lines", "statement": "extract.edges of a spline with at least two parametric directions draws, for every direction and every combination of knots (of bounds with all_knots=False) of the other directions, the sampled line; every edge connects neighbouring samples of the same line, all end points are values of the spline inside of its domain, and nothing else is drawn; curves and multipatches of curves are drawn patch by patch.", "quantifier": "every parametric dimension, knot vector, resolution, and number of patches", "why_tests_cant": "vertex numbers are computed by offsets and column permutations; a wrong offset shows only for particular dimensions, resolutions and numbers of knots", "anchors": ["splinepy/helpme/extract.py:edges", "splinepy/utils/data.py:cartesian_product"]}
{"id": "C91", "title": "extract.faces and extract.volumes draw the sampled cells", "statement": "Faces of a surface are the cells of its sampled grid; faces or volumes of a multipatch are those of its patches, each with the samples of its own patch; the faces of a spline with three parametric directions are the cells of its six boundary faces and every corner is the point of the spline at the corresponding parameter on the boundary, for equal and for different resolutions.", "quantifier": "every valid spline, resolution and number of patches", "why_tests_cant": "connectivity is shifted by computed offsets, and the corners are points of extracted boundary splines", "anchors": ["splinepy/helpme/extract.py:faces", "splinepy/helpme/extract.py:volumes", "splinepy/helpme/extract.py:_uniform_3d_faces"]}
{"id": "C92", "title": "extract.bases returns the graphs of the basis functions", "statement": "Every spline returned by extract.bases has as last coordinate the (rational) basis function of the requested control point at every parameter, and as other coordinates the point of the spline (parametric_view=False) or the parameter; without ids there is one for every control point and the last coordinates are non-negative and add up to one; negative ids count from the end, others outside of the range raise.", "quantifier": "every valid spline, list of ids and parameter", "why_tests_cant": "equality of functions at all parameters, for every degree and knot vector", "anchors": ["splinepy/helpme/extract.py:bases", "splinepy/helpme/create.py:embedded"]}
{"id": "C93", "title": "A written picture can be read back", "statement": "For every RGBA bitmap of type uint8, the PNG file that the SVG exporter writes for it is a well formed PNG file (signature, chunks with correct lengths and checksums, scanlines with filter type none), and a reader that follows the format recovers the bitmap with its height and width; exactly the bitmaps that are not RGBA, have no columns or are too large for the format are refused.", "quantifier": "every bitmap, every height, width and number of channels, every lossless compressor and every checksum function", "why_tests_cant": "tests compare a handful of pictures; the claim is about every bitmap size and content", "anchors": ["splinepy/io/svg.py:_write_png"]}
{"id": "C94", "title": "A flipped spline runs through the same points backwards", "statement": "The spline returned by flip_axes evaluates at every parameter to the point of the original spline at the parameter mirrored on the middle of the domain along the flipped axes, for all four spline types; domain, degrees and validity are kept.", "quantifier": "every valid spline, list of distinct axes (negative numbers count from the end) and parameter of the closed domain", "why_tests_cant": "equality of functions at all parameters, including knots, for all degrees, knot vectors and weights", "anchors": ["splinepy/helpme/reparametrize.py:flip_axes"]}
{"id": "C95", "title": "An exported SVG path draws the spline", "statement": "The path that svg.export writes for a polynomial curve of degree one or two consists of exactly the points of the curve, shifted by the corner of the picture and with the vertical axis pointing down. The path of a surface is closed and consists of exactly the four boundary curves.", "quantifier": "every polynomial plane curve of degree below three whose inner knots occur at most as often as the degree, and every such surface with clamped knot vectors", "why_tests_cant": "a picture is compared by eye; a gap between two segments or a boundary run through backwards only shows for particular knot vectors", "anchors": ["splinepy/io/svg.py:_export_spline"]}
{"id": "C96", "title": "An exported picture shows everything", "statement": "The view box that svg.export writes contains all vertices, all control points and every point of every spline, at least the margin away from its border, and it is not larger than necessary: each margin is reached. A spline lies between the smallest and the largest coordinates of its control points.", "quantifier": "every list of curves and surfaces in the plane (polynomial or rational) and point sets, every margin and scalar bar offset, every parameter in the domain", "why_tests_cant": "the points of a spline are a continuum; tests look at a few pictures", "anchors": ["splinepy/io/svg.py:export", "splinepy/spline.py:Spline.control_point_bounds"]}
{"id": "C97", "title": "Exported control meshes connect neighbouring control points", "statement": "The control mesh in an SVG picture consists of one polyline through the control points of a curve, or, for surfaces, of all polylines along each of the two directions of the control net, each through all control points with the other index fixed, in order.", "quantifier": "every curve and surface, all net sizes", "why_tests_cant": "tests compare pictures for few nets, a transposed index shows only for nets with different resolutions", "anchors": ["splinepy/io/svg.py:_export_control_mesh"]}
{"id": "C98", "title": "The scalar bar is below the picture and its ticks are right", "statement": "The scalar bar of an SVG picture is in the middle of the reserved strip below the picture, has the requested width and aspect ratio and does not cover the picture; each tick is at the place where the bar has the value of its label.", "quantifier": "every size of the picture, every option, every number of ticks", "why_tests_cant": "only extreme sizes of pictures let the bar leave its strip", "anchors": ["splinepy/io/svg.py:_add_scalar_bar", "splinepy/io/svg.py:export"]}
{"id": "C99", "title": "Exported colours are read back", "statement": "A colour with red, green and blue between 0 and 1 is written as six hexadecimal digits that are read as these values, rounded down in steps of 1/255.", "quantifier": "every colour", "why_tests_cant": "256^3 values and all roundings", "anchors": ["splinepy/io/svg.py:_rgb_2_hex"]}
{"id": "C100", "title": "The crop of a field picture keeps the visible pixels", "statement": "Field pictures are cropped to the smallest rectangle with all visible pixels.", "quantifier": "every picture", "why_tests_cant": "depends on which pixels are visible; rendering is not available in tests", "anchors": ["splinepy/io/svg.py:_export_spline_field"]}
{"id": "C101", "title": "Exported arrows show their vectors", "statement": "The SVG picture shows an arrow for exactly those vectors that are longer than the tolerance; it starts at the vector's position, its tip is the position plus the scaled vector, and head and shaft have the requested proportions.", "quantifier": "all positions, vectors and shape options", "why_tests_cant": "trigonometric functions of arbitrary angles, including the negative half plane and vanishing vectors", "anchors": ["splinepy/io/svg.py:_quiver_plot"]}
{"id": "C102", "title": "Showing and exporting do not change the show options", "statement": "Options passed to show and svg.export as keyword arguments hold for this call only: afterwards the show options of all splines are as before, even if the call raises.", "quantifier": "every option, every list of objects and every point at which drawing raises", "why_tests_cant": "needs an exception at every possible point", "anchors": ["splinepy/helpme/visualize.py:show", "splinepy/io/svg.py:export"]}
{"id": "C103", "title": "Data are shown where they belong", "statement": "If a spline or a function is set as data of a spline and shown, each vertex of the shown mesh carries the value of the data at the parameter whose point the vertex is.", "quantifier": "every spline, every data spline with the same parametric bounds, every function, every resolution, whatever was done to the spline since the assignment", "why_tests_cant": "a shifted or transposed field still looks plausible; depends on the order of operations", "anchors": ["splinepy/utils/data.py:SplineDataAdaptor", "splinepy/utils/data.py:SplineData", "splinepy/helpme/visualize.py:_process_scalar_field"]}
{"id": "C104", "title": "The derivative of a composition is the derivative of the composition", "statement": "If the inner function K of a composition T(K(u)) depends on a design parameter and `inner_derivative` is its derivative in this parameter, `T.composition_derivative(K, inner_derivative)` is the derivative of `T.compose(K)` in the parameter, at every u, whenever T, K and inner_derivative are Bezier splines of fitting dimensions.", "quantifier": "all Bezier and rational Bezier splines of any degrees and dimensions, all smooth families of inner functions, all parameters of the unit cube", "why_tests_cant": "The chain rule has to hold for all degrees, dimensions and families; tests compare with finite differences at sample points.", "anchors": ["splinepy/bezier.py:BezierBase.composition_derivative", "include/splinepy/splines/bezier.inl:SplinepyCompositionDerivative", "include/splinepy/splines/rational_bezier.inl:SplinepyCompositionDerivative"]}
{"id": "C105", "title": "Products and sums of Bezier splines are pointwise", "statement": "`a * b` and `a + b` of Bezier splines evaluate to the products and sums of the values, products with scalar functions are possible in both orders, and `a * number` scales every point.", "quantifier": "all Bezier and rational Bezier splines, all numbers, all parameters of the unit cube", "why_tests_cant": "Pointwise identities for all degrees and dimensions; tests sample a few splines.", "anchors": ["splinepy/bezier.py:BezierBase.__mul__,__add__", "include/splinepy/splines/bezier.inl:SplinepyMultiply,SplinepyAdd", "src/py/py_spline_extensions.cpp"]}
{"id": "C106", "title": "Cones and pyramids taper linearly to their apex", "statement": "For every outer and inner radius, height, angle and both values of volumetric, cone(outer_radius, height, ...) evaluates at height parameter t to the point t*height above the base plane, at (1-t) times the distance of the base point from the axis and in the direction of the base point; the base is the disk (annulus, sector) or circle with the given radii. pyramid(width, length, height) evaluates to the points of the segments from the base rectangle [0,width]x[0,length] to the apex above its centre.", "quantifier": "all radii, heights, angles, dimensions and parameters (real numbers)", "why_tests_cant": "The statement is about every point of a rational map for a continuum of arguments; tests compare control points for a few sizes and never meet the tolerance with which the points to be collapsed are selected.", "anchors": ["splinepy/helpme/create.py: cone, pyramid, disk, circle, extruded, box"]}
{"id": "C107", "title": "Tile patches are regular and right-handed", "statement": "Every patch which create_tile of a volumetric or planar microtile returns (with or without closing face) has a positive Jacobian determinant at every parameter of its unit cube, for all parameters the tile accepts: no patch is folded, degenerate or left-handed, so integration and analysis on the tile see positive volumes.", "quantifier": "all tiles Cross2D, DoubleLattice, HollowOctagon, HollowOctagonExtrude, Snappy, Cross3D, Cross3DLinear, InverseCross3D, CubeVoid, HollowCube, EllipsVoid, Armadillo, all accepted parameter values and keyword arguments, all closing faces, all parameters of all patches", "why_tests_cant": "tests build a few tiles and look at their bounds or types; the sign of a determinant over a continuum of shapes and parameters cannot be sampled", "anchors": ["splinepy/microstructure/tiles/cross_2d.py", "splinepy/microstructure/tiles/double_lattice.py", "splinepy/microstructure/tiles/hollow_octagon.py", "splinepy/microstructure/tiles/snappy.py", "splinepy/microstructure/tiles/cross_3d.py", "splinepy/microstructure/tiles/cross_3d_linear.py", "splinepy/microstructure/tiles/cube_void.py", "splinepy/microstructure/tiles/hollow_cube.py"]}
{"id": "C108", "title": "Conversion between file formats keeps the splines", "statement": "io.export/io.load choose the format by the extension of the file name (pathlib suffix, case-sensitive); what was exported to a json, npz or irit file, as a list or as a single spline, is loaded as the same list of splines; `splinepy convert` leaves in the output file exactly the splines the input file loads as, for any pair of supported formats, and changes no other file; unsupported extensions are refused without touching a file; a failed export leaves existing files as they were.", "quantifier": "every disk content, every pair of file names (with folders and several dots), every list of splines of the four kinds, every failure of an export", "why_tests_cant": "the guarantee composes all format pairs and all spline kinds with the state of the whole file system, and includes what a failing export leaves behind; tests cover one round trip per format", "anchors": ["splinepy/cli.py:convert", "splinepy/io/default.py:export", "splinepy/io/default.py:load", "splinepy/io/irit.py:export"]}
{"id": "C109", "title": "The inverse cross tile surrounds the cross tile", "statement": "InverseCross3D.create_tile and Cross3D.create_tile with the same parameters and the same center expansion fill the unit cell together: each face of each patch of the two tiles lies in one of the six sides of the cell, or is, control point by control point up to turning the face, a face of another patch of the two tiles. So the two materials meet along conforming interfaces, and none of the patches has a free face inside of the cell.", "quantifier": "all parameters accepted by both tiles, all center expansions, separator distances and further arguments", "why_tests_cant": "A test compares a few tiles; the faces have to agree as functions of six radii and the separator distance.", "anchors": ["splinepy/microstructure/tiles/inverse_cross_3d.py InverseCross3D.create_tile", "splinepy/microstructure/tiles/cross_3d.py Cross3D.create_tile"]}
{"id": "C110", "title": "The patches of a tile are connected through common faces", "statement": "From every patch of a tile one gets to every other patch of the tile by steps between patches that have a whole face (in the plane: an edge) in common, with the same control points up to turning the face. So a tile is one piece, and no patch hangs in the air or touches the others only at an edge or a corner.", "quantifier": "all tiles of the microstructure library, all accepted parameters, all closing faces and further arguments of create_tile", "why_tests_cant": "The check needs exact coincidence of faces for all parameters; a test with one parameter value can agree by chance, and a gap for other values stays unseen.", "anchors": ["splinepy/microstructure/tiles/armadillo.py Armadillo.create_tile", "splinepy/microstructure/tiles/hollow_octagon_extrude.py HollowOctagonExtrude.create_tile", "splinepy/microstructure/tiles/inverse_cross_3d.py InverseCross3D.create_tile", "splinepy/microstructure/tiles/cross_3d.py Cross3D.create_tile", "splinepy/microstructure/tiles/cross_2d.py Cross2D.create_tile"]}
{"id": "C111", "title": "Extracted Bezier patches are the knot spans of the spline", "statement": "extract.beziers() of a spline with clamped knot vectors returns one patch for each combination of non-empty knot spans, the first parametric direction running fastest. Each patch is a Bezier of the same degrees, rational exactly if the spline is, and its point at a parameter v of the unit cube is the point of the spline at the place of v inside of the knot span. Every point of the spline is a point of one of the patches. A spline without knot vectors is its own only patch.", "quantifier": "all splines of any number of parametric directions with clamped knot vectors and positive degrees, rational or not, all multiplicities of inner knots, all parameters", "why_tests_cant": "equality of two functions at every parameter for every combination of degrees, multiplicities and weights", "anchors": ["splinepy/helpme/extract.py:beziers", "splinepy/bspline.py:extract_bezier_patches", "include/splinepy/splines/helpers/extract.hpp:ExtractBezierPatches", "src/splines/helpers/extract.cpp:ExtractBezierPatchIDs"]}
{"id": "C112", "title": "The patches of a microstructure are the patches of its tiles, placed by the deformation function", "statement": "Microstructure.create() returns, element by element of the refined grid, the patches of the tile of this element. The point with parameter u of such a patch is the point of the deformation function at the place of the tile's point u in this element (each coordinate between the breakpoints of the element). The parameters the tile was made with are those of the parametrization function at the places of the tile's evaluation points. The elements are the equal parts of the knot spans (knot_span_wise) or, for total numbers, an even distribution. Where the tile of one element ends and the tile of the next element begins both are at the same point.", "quantifier": "every deformation function (any dimensions, degrees, clamped knot vectors, rational or not), tiling, parametrization function, tile, closing face, element and parameter", "why_tests_cant": "the composition of knot insertion, Bezier extraction of two splines in the same order, evaluation in the parametric space and composition has to agree for every element of every grid; tests look at the number of patches or a few values", "anchors": ["splinepy/microstructure/microstructure.py: Microstructure.create, _compute_tiling_prerequisites, _additional_knots", "splinepy/bspline.py: insert_knots, extract_bezier_patches", "cpp/splinepy/py/py_spline_extensions.cpp: ExtractBezierPatches"]}
{"id": "C113", "title": "integrate.volume is the integral of the Jacobian determinant", "statement": "For a polynomial spline with as many coordinates as parametric directions, integrate.volume with default orders equals the integral of the determinant of the Jacobian over the parametric domain; it depends only on the points and the domain, so it is unchanged by knot insertion; with fewer coordinates than parametric directions it raises.", "quantifier": "every polynomial Bezier or clamped B-spline, in every parametric dimension, of any degrees, inner knots and multiplicities", "why_tests_cant": "The integral is taken patch by patch with a quadrature rule; that the pieces add up to the integral over the whole domain has to hold for all knot vectors and degrees.", "anchors": ["splinepy/helpme/integrate.py volume, _get_integral_measure, _get_quadrature_information", "splinepy/helpme/extract.py beziers"]}
{"id": "C114", "title": "Macro sensitivity fields are the basis functions of the deformation function", "statement": "With macro_sensitivities, for every non-rational deformation function and every tiling, the microstructure has, after the fields of the design variables, one field for each component jj of each control point ii of the deformation function, in this order. On each patch of the microstructure this field is the basis function of control point ii of the deformation function at the place of the tile patch in its parametric space, in component jj, and zero in the other components: the derivative of the geometry with respect to this coordinate of this control point.", "quantifier": "all non-rational deformation functions (Bezier or B-spline, any parametric and physical dimension, degree and knot multiplicity up to the degree), knot-span-wise and total tilings, tiles, control points, components and parametric positions", "why_tests_cant": "The field goes through a product of knot insertion matrices over all directions, Bezier extraction and composition; tests compare with finite differences on a few splines", "anchors": ["splinepy/microstructure/microstructure.py: _compute_tiling_prerequisites|create", "splinepy/bspline.py: knot_insertion_matrix"]}
{"id": "C115", "title": "Design variable fields of a microstructure are the derivatives of its geometry", "statement": "Microstructure.create with a parametrization function and its sensitivity function returns, for every design variable j, one field with an entry per patch of the microstructure. At every parameter of every patch the entry is the derivative of the position with respect to the design variable: if the parametrization is moved along the slice j of the sensitivities, the point of the microstructure created for the moved parametrization changes with this velocity; a missing entry (None) stands for a patch that does not move. The patches themselves are those created without sensitivities.", "quantifier": "every deformation spline with clamped knot vectors (any dimension, degree, number of inner knots), every tiling, every closing face, every parametrization and sensitivity function, every tile class whose tiles are differentiable in their parameters, every design variable, patch, parameter and coordinate", "why_tests_cant": "The chain of tiling, placement, evaluation of the user's functions, tile construction, composition and chain rule has to be right for every deformation function and parametrization; finite differences on a few microstructures compare few points up to an error, and never see a field that is attached to the wrong patch or variable for another support of the sensitivities.", "anchors": ["splinepy/microstructure/microstructure.py Microstructure.create, _compute_tiling_prerequisites, parameter_sensitivity_function", "splinepy/bezier.py composition_derivative"]}
{"id": "C116", "title": "Microstructures are watertight", "statement": "In a microstructure of a tile class of the library, two neighbouring cells fit together without gaps: every face of a patch of one tile that lies in the plane between the cells occurs in the tile next to it, with the same points, so that after composition the two placed patches meet along the whole face, at every one of its points. This holds for every macro spline, tiling, closing face and parameter function that gives each place its own parameter.", "quantifier": "all deformation functions (B-spline, Bezier), all tilings, all closing faces, all parametrisations that assign values place by place, all pairs of neighbouring cells, all points of the common plane", "why_tests_cant": "Tiles with different parameters and the closing tiles at the ends have to fit each other; tests create a few microstructures and count their patches or look at the interfaces of one example.", "anchors": ["splinepy/microstructure/microstructure.py:Microstructure.create", "splinepy/microstructure/tiles/cross_2d.py:Cross2D", "splinepy/microstructure/tiles/double_lattice.py:DoubleLattice", "splinepy/microstructure/tiles/hollow_octagon.py:HollowOctagon", "splinepy/microstructure/tiles/hollow_cube.py:HollowCube", "splinepy/microstructure/tiles/cross_3d.py:Cross3D", "splinepy/microstructure/tiles/inverse_cross_3d.py:InverseCross3D", "splinepy/microstructure/tiles/armadillo.py:Armadillo", "splinepy/microstructure/tiles/hollow_octagon_extrude.py:HollowOctagonExtrude"]}
{"id": "C117", "title": "Control points stay in memory as long as they are read", "statement": "After every history of calls (constructing, assigning control points or other properties, clearing, taking and releasing arrays, refining, sharing a core, copying, putting splines into multipatches) each spline and each multipatch can still be evaluated: the control points it reads have not been freed. Calls that raise do not change this. Expected to hold for Bezier splines, and for B-splines except after assigning a wrong number of control points, after an insertion of knots that inserts nothing, and for multipatches one of whose patches got new properties.", "quantifier": "all numbers of control points, all contents, all histories of calls on any number of splines, arrays and multipatches", "why_tests_cant": "reading freed memory depends on the whole history and usually goes unnoticed in a test: the old values are still there", "anchors": ["splinepy/spline.py:Spline.control_points", "splinepy/spline.py:_safe_new_core", "splinepy/bspline.py:BSplineBase.insert_knots", "src/py/py_spline.cpp:PySpline::NewCore", "include/splinepy/splines/bspline.hpp:BSpline", "include/splinepy/splines/bezier.inl:CreateBase", "src/py/py_multipatch.cpp:PyMultipatch::SetPatches"]}
{"id": "C118", "title": "Assigning to an array of control points reaches the spline", "statement": "The array read from spline.control_points shows the control points the spline is evaluated with, and goes on to do so after any further calls that do not assign to, clear or refine the spline: assigning to a row of the array changes exactly that control point of that spline, and assigning to any array never writes to freed memory. Expected to hold when arrays are released before properties of their spline are assigned or before it is refined, when no two splines share a core, and when refinements do not come back to an earlier number of control points.", "quantifier": "all control points, all rows, all histories of calls on any number of splines, arrays and multipatches, for B-splines and Bezier splines", "why_tests_cant": "whether an array is still connected depends on the whole history; writing to freed memory usually goes unnoticed", "anchors": ["splinepy/spline.py:_prepare_coordinates", "splinepy/utils/data.py:PhysicalSpaceArray.__setitem__", "src/utils/coordinate_pointers.cpp:ControlPointPointers::SetRow", "include/splinepy/splines/bspline.hpp:SplinepyControlPointPointers", "include/splinepy/splines/splinepy_base.hpp:~SplinepyBase"]}
{"id": "C119", "title": "Data of a multipatch are read as they were stored", "statement": "Reading m.spline_data[key] gives what was last stored under the key by an assignment that returned: the same multipatch, adaptor or the field with the stored number. An assignment that raises changes nothing. The number of a field in m.fields refers to the same field as long as the patches are not replaced.", "quantifier": "every history of creating and deriving multipatches, adding fields, storing data under any keys, replacing patches, with accepted and rejected assignments, of any length", "why_tests_cant": "the keys are resolved through positions in a list of fields that is shared between multipatches and extended by other calls; the mix-ups need particular sequences with exceptions", "anchors": ["splinepy/utils/data.py: MultipatchData.__setitem__, MultipatchData.__getitem__", "splinepy/multipatch.py: Multipatch.add_fields, Multipatch.fields", "src/py/py_multipatch.cpp: PyMultipatch::AddFields, PyMultipatch::Clear"]}
{"id": "C120", "title": "Neighbouring cells of a microstructure are connected", "statement": "The interfaces of a created microstructure connect every face of a patch in the common side of two neighbouring cells with the face of the neighbour that has the same points, and this connection is mutual. The center used for a face is the point in the middle of the face. Two faces are connected only if their centers are closer than the tolerance.", "quantifier": "every watertight microstructure (every deformation function, tiling, closing face and parametrisation of the tile classes of C116), all pairs of neighbouring cells and all faces in their common side, all tolerances and sorting orders for which no face center is close to two others", "why_tests_cant": "the connection depends on the orientation in which each tile class parametrises the common face, on the deformation and on the sweep over all sorted face centers", "anchors": ["src/py/py_multipatch.cpp: PyMultipatch::SubPatchCenters, InterfacesFromBoundaryCenters", "include/splinepy/splines/helpers/scalar_type_wrapper.hpp: ScalarTypeBoundaryCenters", "splinepy/microstructure/microstructure.py: Microstructure.create"]}
{"id": "C121", "title": "Batched queries return each query's own values, in any memory layout", "statement": "evaluate, derivative, jacobian, basis, support, basis_and_support, basis_derivative(_and_support) and proximities of a spline, and evaluate of a multipatch, return arrays whose entry for query i (and order j) is the value the spline has at row i of the queries (for row j of the orders): entry (i, j, d) of derivative is coordinate d of the j-th order at the i-th query, entry (i, j, k) of jacobian coordinate j of the derivative along direction k; one order gives no axis for the orders. This holds for arrays of any memory layout (C order, Fortran order, transposed or strided views), for every number of threads the arrays are safe with and every schedule, and nothing outside of the returned arrays is written.", "quantifier": "every number of queries and orders, every parametric and physical dimension, every position/stride/shape of the numpy arrays, every number of threads and every schedule", "why_tests_cant": "tests use freshly made C-ordered arrays and a few queries; layouts, shapes and schedules are unbounded", "anchors": ["src/py/py_spline.cpp: PySpline::Evaluate, Jacobian, Derivative, Support, Basis, BasisAndSupport, BasisDerivative, BasisDerivativeAndSupport, Proximities", "splinepy/utils/data.py: enforce_contiguous", "splinepy/spline.py: Spline.evaluate, derivative, jacobian, support, basis, proximities", "splinepy/multipatch.py: Multipatch.evaluate", "src/py/py_multipatch.cpp: PyMultipatch::Evaluate"]}
{"id": "C122", "title": "An error in a threaded call is raised as an exception", "statement": "If a call that distributes its work over threads meets an invalid element (a list entry that is no initialised spline when a multipatch is built, a field that does not match, a query that can not be answered), Python gets an exception, whatever number of threads was asked for and whatever their schedule; without an error the call returns.", "quantifier": "all numbers of items, positions of failing items, numbers of threads and schedules", "why_tests_cant": "tests use one thread for the error cases; a crash of the process can not be observed by the test that causes it", "anchors": ["include/splinepy/utils/nthreads.hpp NThreadExecution", "src/py/py_multipatch.cpp ToCoreSplineVector, AddFields", "src/py/py_spline.cpp Proximities"]}
{"id": "C123", "title": "Building a multipatch keeps the reference counts of its splines", "statement": "After a multipatch has been built from a list of splines with any number of threads, every Python object in the list has the reference count it had before.", "quantifier": "all lists of objects (repeated or not), numbers of threads and interleavings of loads and stores of the counts", "why_tests_cant": "a lost update of a count needs a particular interleaving and shows much later, when an object is destroyed too early", "anchors": ["src/py/py_multipatch.cpp ToCoreSplineVector", "include/splinepy/utils/nthreads.hpp NThreadExecution"]}
{"id": "C124", "title": "Settings passed to a call apply to this call only", "statement": "A tolerance passed to determine_interfaces or interface_orientations, or a number of threads passed to boundary_multipatch, is used for the result of this call, and afterwards, whether the call returned or raised, the tolerance and number of threads of the multipatch are those the user has set.", "quantifier": "all histories of calls, tolerances and numbers of threads, all outcomes of the computations", "why_tests_cant": "the leak needs a call that raises followed by another one; tests use fresh objects", "anchors": ["splinepy/multipatch.py determine_interfaces, boundary_multipatch, interface_orientations", "src/py/py_multipatch.cpp GetInterfaces, GetInterfaceOrientations"]}
{"id": "C125", "title": "Calls read the elements of an array whatever its memory layout", "statement": "A call that takes an array of numbers (constructor, insert_knots, remove_knots, knot_insertion_matrix, derivative_spline, boundary ids, degree elevation and reduction, split locations, knot assignments, interfaces) has the same effect for two arrays with the same elements, whether they are C-contiguous, in Fortran order, or views with any strides.", "quantifier": "all arrays of any shape, strides and content; all of these calls", "why_tests_cant": "tests pass lists or fresh contiguous arrays; a strided view silently gives other numbers", "anchors": ["splinepy/utils/data.py enforce_contiguous", "splinepy/spline.py elevate_degrees, reduce_degrees", "splinepy/bezier.py split", "src/py/py_knot_vector.cpp __setitem__", "src/py/py_parameter_space.cpp __setitem__", "src/py/py_multipatch.cpp SetInterfaces"]}
{"id": "C126", "title": "The properties of a spline describe the spline that is evaluated", "statement": "After any history of reading properties (degrees, control points) and elevating or reducing degrees, including calls that raised, a property that is read is that of the spline evaluate() uses.", "quantifier": "all histories, all lists of directions, all outcomes of the reductions", "why_tests_cant": "stale values need a property that was read before a call that fails half way", "anchors": ["splinepy/spline.py degrees, control_points, elevate_degrees, reduce_degrees", "src/py/py_spline.cpp ElevateDegrees, ReduceDegrees"]}
{"id": "C127", "title": "The settings of a microstructure can be assigned in any order", "statement": "deformation_function, tiling, microtile, parametrization_function and parameter_sensitivity_function of a Microstructure can be assigned in any order and changed at any time: create works with the values assigned last, and works whenever these are complete and fit together; values that do not fit are reported by the assignment that completes the settings, and a refused value is not kept; neither create nor other microstructures change the settings.", "quantifier": "every history of assignments (of any values) and of create, for any number of microstructures and shared lists, and every order of the assignments", "why_tests_cant": "the number of orders and histories is unbounded, a test fixes one of them; the failures need a change of dimension, a shared list or a parametrization in a particular order", "anchors": ["splinepy/microstructure/microstructure.py: Microstructure.deformation_function, tiling, microtile, parametrization_function, parameter_sensitivity_function, _sanity_check, create, _UserTile"]}
{"id": "C128", "title": "A copy is independent of its original", "statement": "`spline.copy()` starts with the control points, degrees and knot vectors of the spline; afterwards no call on the copy's side (on the copy, on splines and multipatches made from it, on arrays read from them) changes what the original or any spline that existed before evaluates to or what arrays read from them show, and no call on the other side changes the copy.", "quantifier": "every history before the copy, every spline, every later interleaving of calls of both sides, of any length, for classes whose core views the array and for classes whose core owns its memory", "why_tests_cant": "Whether two splines share memory shows only in particular sequences of reads, writes, refinements and assignments; tests write once and compare.", "anchors": ["splinepy/spline.py:Spline.copy", "splinepy/spline.py:Spline.__init__", "splinepy/spline.py:_prepare_coordinates", "src/py/py_spline.cpp:NewCore", "splinepy/helpme/extract.py:Extractor.beziers"]}
{"id": "C129", "title": "Arrays of the C++ library address every element once and free their memory once", "statement": "In a splinepy::utils::Array of any number of dimensions every index within the shape addresses its own element; under every history of construction, copy, move, assignment, reallocation, re-pointing and destruction no memory is freed twice and none is leaked, and writing an element of an array that is responsible for its memory changes this element and no other, of no other such array.", "quantifier": "every shape and index, every history of calls on any number of arrays, with pointers to memory of other arrays or of somebody else", "why_tests_cant": "Double frees, leaks and uses of freed memory depend on the order of moves, assignments and destructions over the lifetime of several arrays.", "anchors": ["include/splinepy/utils/arrays.hpp: Array, SetShape, operator(), ComputeRemainingOffset, DestroyData, SetData, Reallocate, TransferOwnership, operator="]}
{"id": "C130", "title": "Every log message is printed once and written once to the log file", "statement": "After any number of calls of log.configure, and of adding handlers of one's own, a message of sufficient level (that of the latest configure) is printed exactly once, is written exactly once to every log file that was asked for, and reaches every handler of the user.", "quantifier": "every history of log.configure and of added handlers, every level, every log file", "why_tests_cant": "Whether messages are duplicated or lost depends on the history of configurations; tests configure at most once.", "anchors": ["splinepy/utils/log.py: configure, debug, info, warning, error", "splinepy/__init__.py"]}
{"id": "C131", "title": "The constrained fallback of the proximity search is finite, feasible and well defined", "statement": "When the plain iteration of `proximities` does not converge, the fallback search (SLSQP) is started with N allowed iterations. It asks for at most 12 N + 1 evaluations and then returns, whatever the objective and its gradient return and however its quadratic subproblems are solved. Every point it asks for lies inside of the search bounds. The matrix of its quadratic model is positive definite after every call; unless an update would be singular it is exactly the damped BFGS update. A trial point ends the line search only if the objective decreased, or after ten shorter trials. The work arrays that splinepy allocates are always accepted.", "quantifier": "every number of variables, bounds, start, tolerance, sequence of objective values and gradients, solution of the subproblems and number of calls", "why_tests_cant": "Tests follow single searches of well behaved splines; termination and feasibility must hold for every sequence of values the objective can return, including kinks and flat regions.", "anchors": ["src/proximity/slsqp/slsqp.c: slsqp, slsqpb, ldl, bound", "src/proximity/proximity.cpp: SLSQPData::Setup, PrepareIterationSlsqp, Slsqp"]}
{"id": "C132", "title": "Pickling returns the same spline", "statement": "pickle.dumps of a spline with a core succeeds, and pickle.loads of the result (in another process, or through copy.deepcopy) gives a spline with the same degrees, knot vectors, control points, weights, multi indices and evaluation, whatever was assigned, read, cleared or refined before. The show options and the data stored for plotting come along.", "quantifier": "all spline classes, all histories of assignments, reads, clears and refinements", "why_tests_cant": "The example pickles one freshly refined spline; whether pickling works depends on the whole history of the object (which properties have been read or assigned since the last refinement).", "anchors": ["src/py/py_spline.cpp: init_pyspline (py::pickle), PySpline::NewCore, PySpline::CurrentCoreProperties", "splinepy/spline.py: Spline.knot_vectors, Spline.__slots__", "examples/parallel_evaluation.py"]}
{"id": "C133", "title": "The fallback of the proximity search takes optimal steps and reports truthfully", "statement": "Each quadratic subproblem of the fallback search of proximities (SLSQP) is solved by a finite computation. It is never declared infeasible, and the step that is returned stays inside of the search bounds and minimises the quadratic model of the objective among all such steps. A line search is only started along a direction of descent. When the search ends without having hit a limit, its report is true: 'no descent' is reported only at points where no direction into the bounds decreases the objective to first order, and 'converged' only there, or if no step reduces the model by more than the accuracy, or if the last line search changed the value or the point by less than the accuracy.", "quantifier": "every number of variables, bounds, start, tolerance, sequence of objective values and gradients, positive definite model, content of the work arrays", "why_tests_cant": "an active set method with Householder transformations and rotations: each test follows one sequence of exchanges of one problem", "anchors": ["src/proximity/slsqp/slsqp.c:lsq", "src/proximity/slsqp/slsqp.c:lsi", "src/proximity/slsqp/slsqp.c:ldp", "src/proximity/slsqp/slsqp.c:nnls", "src/proximity/slsqp/slsqp.c:h12", "src/proximity/slsqp/slsqp.c:slsqpb"]}
{"id": "C134", "title": "Catalogues answer the same after every history", "statement": "Looking up the required properties of a kind of spline, their union or intersection over given kinds or over all kinds, the tiles with given dimensions, all tiles, or a tile by its name gives the documented answer, no matter which lookups were made before and what callers did with the sets and dictionaries they were given. Unknown kinds, names and dimensions are errors. No lookup changes what a caller was given before.", "quantifier": "all histories of lookups and of changes, by callers, of the objects they were given; all names, lists of names and dimensions; any collection of tile classes", "why_tests_cant": "Whether an answer is shared with the library shows only after a caller changed it and somebody else asked again; the number of such histories is unbounded and tests ask once.", "anchors": ["splinepy/spline.py:RequiredProperties", "splinepy/spline.py:Spline.required_properties", "splinepy/microstructure/tiles/__init__.py:by_dim", "splinepy/microstructure/tiles/__init__.py:everything", "splinepy/microstructure/tiles/__init__.py:get"]}
{"id": "C135", "title": "Creating a spline gives the requested kind and dimensions", "statement": "Creating a spline from degrees and control points, with or without knot vectors and weights, either raises or gives a spline of the kind selected by which properties are present (Bezier, RationalBezier, BSpline, NURBS) and of exactly the given parametric and physical dimension; every parametric dimension supported by the build, and every supported physical dimension (any, with knot vectors), works; and for all these dimensions a placeholder for a missing spline exists.", "quantifier": "both builds (full set of splines or not), all combinations of given properties, all parametric and physical dimensions", "why_tests_cant": "About 250 hand written cases of nested switches, each with its own template arguments; a wrong or missing case only shows for one combination of kind and dimensions.", "anchors": ["src/splines/splinepy_base.cpp: SplinepyCreate, SplinepyCreateBezier, SplinepyCreateRationalBezier, SplinepyCreateBSpline, SplinepyCreateNurbs", "src/splines/create/bezier1.cpp", "src/splines/create/rational_bezier1.cpp", "include/splinepy/splines/null_spline.hpp: kNullSplineLookup"]}
{"id": "C136", "title": "A field is zero where it was left out", "statement": "If a field was added to a multipatch with None for some patches, evaluating the field gives zero of the dimension of the field on these patches and the value of the given spline on all others; and the boundaries of the field can be evaluated in the same way.", "quantifier": "all multipatches, fields, sets of left out patches, queries, orders in which threads work, both builds", "why_tests_cant": "The result is an uninitialised array filled by threads in any order, with rows whose width is decided by the first entry only.", "anchors": ["include/splinepy/splines/null_spline.hpp: NullSpline", "src/py/py_multipatch.cpp: ToCoreSplineVector, SetPatchesWithNullSplines, Evaluate, SubMultipatch, BoundaryMultipatch, ToPySplineList", "splinepy/multipatch.py: add_fields", "splinepy/__init__.py: to_derived"]}
{"id": "C137", "title": "Splines do not change through calls on other splines (knots)", "statement": "Two spline objects are independent: inserting or removing knots, elevating degrees, normalizing or editing the knot vectors of one B-spline or NURBS changes neither the knots another spline is evaluated with nor the consistency of that spline (as many control points as its degrees and knot vectors need). This also holds for a spline and the boundary splines extracted from it, and for splines between which a knot vector was assigned.", "quantifier": "all histories of constructions, copies, setters, edits of knot vectors (whole or parts), assignments of knot vector objects, normalizations, refinements, boundary extractions and evaluations over any number of splines of any dimension and degree", "why_tests_cant": "Whether two objects share storage depends on the whole history of calls; a test sees the particular order it exercises, and values that are equal look the same whether shared or copied until some later call.", "anchors": ["include/splinepy/splines/helpers/extract.hpp:ExtractControlMeshSliceFromIDs", "src/py/py_parameter_space.cpp:ParameterSpace.__setitem__", "src/py/py_knot_vector.cpp:KnotVector", "splinepy/spline.py:knot_vectors", "splinepy/bspline.py:normalize_knot_vectors"]}
{"id": "C138", "title": "Assigning to the control points and weights of a rational spline reaches it", "statement": "The arrays read from control_points and weights of a rational spline show together the control points and weights the spline is evaluated with, and go on to do so after any further reading, releasing and writing of arrays. Assigning to a row of control_points changes exactly this control point and no weight; assigning to a row of weights changes exactly this weight and no control point (although the spline stores control points multiplied with weights). No write goes to freed memory, and the spline can be evaluated after every history. Expected to hold for the arrays if they are released before degrees or knots are assigned and before the spline is refined, and if refinements do not come back to an earlier number of control points; evaluation always.", "quantifier": "all control points, all nonzero weights, all rows, all histories of calls on one spline and any number of arrays of control points and weights", "why_tests_cant": "the arrays are copies which must be kept in step with homogeneous coordinates owned by the core through pointers, through each of the ways the core, the copies and the pointers are replaced; tests write once to a fresh spline", "anchors": ["splinepy/spline.py: Spline.control_points, Spline.weights, _prepare_coordinates, _safe_array_copy", "splinepy/utils/data.py: PhysicalSpaceArray", "src/utils/coordinate_pointers.cpp: ControlPointPointers, WeightPointers", "include/splinepy/splines/nurbs.hpp: SplinepyWeightedControlPointPointers"]}
{"id": "C139", "title": "A spline can be completed after construction", "statement": "A spline that is constructed with some of its properties left out and gets them by assignment afterwards is the spline that is constructed with all of them at once: the order in which a user supplies consistent properties does not matter. Until it is complete every use raises.", "quantifier": "every spline class, every consistent set of properties, every property that is left out, and every sequence of assignments and reads after construction", "why_tests_cant": "tests construct splines with all properties, or assign them in one fixed order; the constructors of the four concrete classes turn a missing property into a cleared spline, which shows only for some combinations", "anchors": ["splinepy/spline.py: Spline.__init__, degrees.setter, knot_vectors.setter, control_points.setter, weights.setter", "splinepy/bspline.py: BSpline.__init__", "splinepy/nurbs.py: NURBS.__init__", "splinepy/bezier.py: Bezier.__init__", "splinepy/rational_bezier.py: RationalBezier.__init__"]}
{"id": "C140", "title": "Arrows at given places start there and show the data of their place", "statement": "Vector data can be bound to fixed locations when they are assigned, or requested at parametric coordinates with the show option arrow_data_on. What is shown then has one arrow for each place, in order; it starts at the point of the spline at its place and is the value of the data there. Places outside of the domain, of a wrong dimension, or given twice (fixed and requested) raise; everything else is shown.", "quantifier": "every spline and multipatch, every spline, sequence or function as data, every list of places, every tolerance", "why_tests_cant": "tests use a few splines and places; the claim is for all lists of places and all kinds of data", "anchors": ["splinepy/utils/data.py:SplineDataAdaptor", "splinepy/helpme/visualize.py:_sample_arrow_data", "splinepy/helpme/extract.py:arrow_data"]}
{"id": "C141", "title": "The control mesh joins exactly the neighbouring control points", "statement": "extract.control_mesh (and control_edges, control_faces, control_volumes) has the control points as vertices, in order; the lines shown for it join exactly the control points whose indices differ by one in one direction, each pair once. For a multipatch these are the lines of all patches, none between patches.", "quantifier": "every spline with one to three parametric directions, every size of the control net, every multipatch", "why_tests_cant": "a wrong stride or order of corners shows only for nets with different sizes in the directions; tests use a few nets", "anchors": ["splinepy/helpme/extract.py:control_mesh", "splinepy/helpme/extract.py:control_faces", "splinepy/helpme/visualize.py:_create_control_mesh"]}
{"id": "C142", "title": "Curves that SVG cannot express are drawn as their best cubic spline, with the same ends", "statement": "svg.export replaces a rational curve, or a curve of degree above three, by a cubic spline: it always finds one, it starts and ends exactly where the curve does, among all cubic splines with its knots and these ends it is closest to the curve at the sampled parameters, it keeps the corners of the curve, at most five fits are made, and a warning is printed exactly if the tolerance is not reached. This holds for every interval of parameters.", "quantifier": "every rational curve of degree above one and every curve of degree above three, with any knots and multiplicities, any tolerance, and any solver of the normal equations", "why_tests_cant": "the number of fits, samples and knots depends on the residuals of the earlier fits, so solvability must hold for every curve, tolerance and number of refinements", "anchors": ["splinepy/io/svg.py: _export_spline, _approximate_curve", "splinepy/helpme/fit.py: curve, compute_knot_vector, _validate_specifications, solve_for_control_points", "include/splinepy/splines/helpers/properties.hpp: GetGrevilleAbscissae"]}
{"id": "C143", "title": "Exported points have their own colours, labels and numbers", "statement": "svg.export draws one circle for each vertex or control point, at its place, in the colour of its own value; given labels and requested numbers stand at their own points; control points, control meshes and numbers that are switched off are not drawn, and by default lines and numbers follow the control points.", "quantifier": "all numbers of vertices or control points, all values, labels and settings of the options", "why_tests_cant": "which colour and label a point gets depends on the numbers of values, labels and points and on all combinations of options", "anchors": ["splinepy/io/svg.py: _export_gustaf_object, _export_control_mesh"]}
{"id": "C144", "title": "Showing gives exactly the wanted objects, in the wanted form, and changes nothing", "statement": "A call of show gives the spline and exactly those of knots, control points, their ids, the control mesh, arrows, fitting queries and the parametric spline that are wanted (keyword argument, else option, else default; ids and control mesh follow the control points), each once and the same ones whether gustaf objects, backend objects or a window are asked for; both panels of a view with parametric space follow the call; an FFD object shows the mesh, the spline and the deformed mesh in the form asked for, leaves the options of its spline alone and asks for a mesh if one is missing.", "quantifier": "every spline or multipatch, every set of options and keyword arguments, every FFD object", "why_tests_cant": "Options, keyword arguments and return flags combine to thousands of calls, of which tests open a few windows.", "anchors": ["splinepy/helpme/visualize.py: make_showable, show", "splinepy/spline.py: Spline.show, Spline.showable", "splinepy/multipatch.py: Multipatch.show", "splinepy/helpme/ffd.py: FFD.show, FFD.showable"]}
{"id": "C145", "title": "The command show displays all loaded splines without what is switched off", "statement": "splinepy show loads a file and shows every spline in it, with knots, control points, their ids and the control mesh unless the option for it is given, each option acting on its element only; an integer resolution is used, other ones are rejected; the window is interactive unless the picture goes to a file or if asked for; the warning that the output file is ignored is printed exactly if it is ignored.", "quantifier": "every combination of options of the command and every list of loaded splines and multipatches", "why_tests_cant": "There are dozens of combinations of options, and the command opens windows, so tests do not run it.", "anchors": ["splinepy/cli.py: show, entry", "splinepy/helpme/visualize.py: make_showable"]}
{"id": "C146", "title": "Uniform refinement of several directions in one call", "statement": "uniform_refine(para_dims, n_knots) divides every knot span of each named direction (of all directions by default) into n+1 equal parts, one request after the other, so that a direction named twice is refined twice; degrees and all points of the spline stay the same. A call whose arguments do not fit raises and changes nothing.", "quantifier": "every spline with clamped knot vectors in any number of directions, every combination of para_dims (None, int, list) and n_knots (int, list)", "why_tests_cant": "directions, repetitions, numbers of knots and knot vectors are unbounded; errors can occur after any number of directions", "anchors": ["splinepy/bspline.py: BSplineBase.uniform_refine", "splinepy/bspline.py: BSplineBase.insert_knots", "include/splinepy/splines/helpers/scalar_type_wrapper.hpp: ScalarTypeInsertKnot"]}
{"id": "C147", "title": "Extracting several planes at once restricts all named directions", "statement": "spline.extract.spline({axis: plane, ...}) treats all named directions: in directions with an interval (a, b) the result has the parametric bounds a and b, directions with a single value are fixed at it and removed, other directions keep their knots. At the remaining parameters the result has the points of the spline at every parameter that meets all planes. The axes of the dictionary refer to the original spline, whatever is removed, and the order in which the dictionary was filled has no effect. A dictionary with one entry does what the call with the axis and the interval does; an interval beside a dictionary raises.", "quantifier": "all splines, all dictionaries of planes with different axes, all orders of the entries, all parameters", "why_tests_cant": "The axes shift whenever a direction is removed, so the result depends on the order of treatment; tests use single planes or one dictionary, and compare few points.", "anchors": ["splinepy/helpme/extract.py:Extractor.spline", "splinepy/helpme/extract.py:spline"]}
{"id": "C148", "title": "Knot vectors read like python sequences", "statement": "For spline.knot_vectors[d] and spline.knot_vectors: an integer index gives the element at that position, counted from the end if negative, and raises outside; a slice with any bounds and any non-zero step gives the list of the elements that python's slice of a list gives, in the same order; numpy arrays and copies have the same elements; an iteration gives the elements one after the other with their current values and then ends, whatever is done with the spline meanwhile, without reading memory that does not belong to the knot vector.", "quantifier": "all knot vectors, all integers as index, bounds and step, all histories of reads, assignments and refinements during an iteration", "why_tests_cant": "The indices are computed with unsigned 64-bit integers that wrap for negative steps, bounds and steps are unbounded integers, and whether a stale iterator reads freed memory does not show reliably in a test.", "anchors": ["src/py/py_knot_vector.cpp:init_knot_vector", "src/py/py_parameter_space.cpp:init_parameter_space"]}
{"id": "C149", "title": "Fitting returns for points of every dimension, in the requested form", "statement": "fit.curve and fit.surface with acceptable numbers (at least two control points, not more than points) return the spline and its residual for points with any number of coordinates, with or without scipy; with verbose_output=True they return a dictionary with knot vector, degrees, control points and residual; parameters may be given as arrays or as lists of lists, as documented.", "quantifier": "all numbers of points, control points and coordinates, all options, both solvers, all forms of the parameters", "why_tests_cant": "The shape rules of the solver and of the assignment depend on the numbers (one coordinate, three control points), and the tests only use two or three coordinates and the default output.", "anchors": ["splinepy/helpme/fit.py:curve", "splinepy/helpme/fit.py:surface", "splinepy/helpme/fit.py:solve_for_control_points"]}
{"id": "C150", "title": "The closing tile of the extruded octagon", "statement": "HollowOctagonExtrude.closing_tile returns a tile which stays in the unit cell, whose patches hang together, which closes the side named by the closure, and which has the dimensions the class announces; other sides, missing closures, sensitivities and parameters out of range raise.", "quantifier": "every parameter, sensitivity, contact length and closure", "why_tests_cant": "the method is public but no other code calls it; the parameters and the contact length are real numbers, and which patches touch, and whether they fill a side of the cell, must hold for all of them", "anchors": ["splinepy/microstructure/tiles/hollow_octagon_extrude.py: HollowOctagonExtrude.closing_tile"]}
{"id": "C151", "title": "Sampling returns the values at the grid points", "statement": "spline.sample(resolutions) returns one row per point of the equidistant grid between the parametric bounds, first direction fastest, and row k is the value of the spline at point k; multipatch.sample returns these rows patch after patch, each patch between its own bounds; resolutions may be one number or one per direction; resolutions below two raise.", "quantifier": "every spline and multipatch, all resolutions in all forms and memory layouts, all numbers and schedules of threads", "why_tests_cant": "sizes, resolutions, thread counts and schedules are unbounded", "anchors": ["splinepy/spline.py: Spline.sample", "splinepy/multipatch.py: Multipatch.sample", "src/py/py_spline.cpp: PySpline::Sample", "src/py/py_multipatch.cpp: PyMultipatch::Sample"]}
{"id": "C152", "title": "Drawing options decide the look of their object and of nothing else", "statement": "In what show draws, the colour, size, line width, transparency and lighting of the spline, its knots, its control points and its control mesh follow the option named for it: the keyword argument of the call if there is one, else the option of the spline, else the default; other options do not matter. The knots of a curve are marked at the images of exactly its knots in the domain, each once, patch after patch for a multipatch.", "quantifier": "every spline and multipatch, every set of options and keyword arguments, every value of an accepted type, every knot vector", "why_tests_cant": "Options are read by name and default silently, so a name that is misspelt shows only for the one option that is set; tests do not look at windows.", "anchors": ["splinepy/helpme/visualize.py: make_showable, _create_control_points, _create_control_mesh, _sample_knots, _process_spline_color, SplineShowOption", "splinepy/io/svg.py: _export_control_mesh"]}
{"id": "C153", "title": "Showing a microstructure shows what belongs together and changes nothing", "statement": "Microstructure.show draws the deformation function, the tile and the microstructure of the current settings. With use_saved it draws the microstructure that create or show made last, and raises if there is none; the three pictures belong together. The microstructures a user got from create keep their show options.", "quantifier": "every history of assignments of settings, calls of create and show (raising or not) and changes of options", "why_tests_cant": "Which microstructure is saved and whether it is outdated depends on the whole history of calls; tests call create once.", "anchors": ["splinepy/microstructure/microstructure.py: Microstructure.show, Microstructure.create"]}
{"id": "C154", "title": "The picture of a field in an svg file shows the drawn pixels", "statement": "When a spline is exported to svg with field data, the embedded picture holds every drawn pixel with its colour, opaque; pixels where nothing is drawn are transparent; and the picture covers the bounds of the spline.", "quantifier": "every drawn scene and picture size", "why_tests_cant": "A test compares a few exported files; it does not meet white colours of a map, or thin drawings, and it cannot range over all pictures.", "anchors": ["splinepy/io/svg.py:_export_spline_field", "splinepy/io/svg.py:_write_png"]}
{"id": "C155", "title": "Extracted arrows are those of the named data", "statement": "extract.arrow_data(name) gives edges that start at the places of the named data on the spline and follow its values, with the scale that is set; their automatic size depends on the lengths of these values; names without data raise and values of another dimension come back unchanged at their places.", "quantifier": "every spline, every data with or without places, every name and scale", "why_tests_cant": "A test checks one data set; it cannot say that no call ever returns edges, or that the result is independent of the lengths of the data.", "anchors": ["splinepy/helpme/extract.py:arrow_data", "splinepy/helpme/visualize.py:_sample_arrow_data"]}
