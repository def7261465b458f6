# A Lean 4 model of splinepy

Source under study: `/repo` (tataratat/splinepy, pinned commit, read as text; nothing was built or run).
The Lake project is in `lean/`; build with `lake build` in that folder.

## Layout

* `lean/Verif/Model/*.lean` — executable model, function by function; every definition cites the file
  and lines in `/repo` it models and names its simplifications.
* `lean/Verif/Lemma/*.lean` — helper lemmas (not part of the claims).
* `lean/Verif/Props/*.lean` — the property theorems, each file starting with a small `Spec` section that is
  independent from the model helpers, each theorem followed by an `example` that shows a concrete
  non-trivial instance of its hypotheses.
* `properties.jsonl`, `MANIFEST.json` — properties and the theorems that cover them.
* `seeded/LOG.jsonl` — log of mutation tests of the theorems.

## Trusted base

* Lean 4.33.0's kernel, Mathlib definitions used in statements, and the three standard axioms `propext`,
  `Classical.choice`, `Quot.sound`. No own axioms, no `sorry`, no `native_decide`, no `bv_decide`. `AXIOMS.md` lists the
  axioms of every theorem named in `MANIFEST.json`.
* The reading of the source: the theorems are about the model. Nothing was run; the correspondence of model and code is by
  reading, supported by the citations (file and lines) on every definition and by the edits logged in `seeded/LOG.jsonl`.
* **Numbers.** C++ `double` / numpy `float64` is modelled by ℚ, ℝ or an arbitrary (linearly ordered) field. Rounding, NaN,
  infinities and overflow are not modelled, except where a NaN decides the control flow (`fmin` in the view box of pictures).
  C++ `int` is modelled by ℤ/ℕ (no wrap-around).
* **Text.** Files are modelled as lists of tokens, trees of elements or dictionaries. Printing a number and reading it again is
  taken to be exact (Python's `str`/`repr` of a float is); white space is only modelled where a theorem is about it.
* **Absent third-party code.** BSplineLib, bezman, napf, pybind11, numpy, scipy, gustaf, vedo, zlib are not in `/repo`. Where the
  code calls them the model takes the result as a parameter, with a contract stated as a hypothesis of the theorem (and a witness
  that meets it beside the theorem), or models the documented numpy behaviour (`argsort`, `cumsum`, `unique`, `linspace`, fancy
  indexing, slices, …) explicitly. In particular the evaluation of a spline is the textbook definition (Cox–de Boor recursion,
  Bernstein polynomials, rational quotient) in `Verif/Spec/Spline.lean`.
* Threads are modelled by the index sets each thread works on (and, where the order matters, by arbitrary interleavings);
  the memory model of C++ is not modelled.

## Which code is modelled

Every definition in `Verif/Model/` cites lines. Files which are cited, and where:

| file in `/repo` | modelled in `Verif/Model/` |
|---|---|
| include/splinepy/explicit/nurbs.hpp | KnotSharing |
| include/splinepy/proximity/proximity.hpp | Proximity |
| include/splinepy/py/py_multipatch.hpp | CallSettings, Lifetime, MultipatchCache, MultipatchData |
| include/splinepy/py/py_spline.hpp | Lifetime, Queries, RationalArrays |
| include/splinepy/splines/bezier.hpp | BezierAlgebra |
| include/splinepy/splines/bezier.inl | BezierAlgebra, BezierSpline, Lifetime, Split |
| include/splinepy/splines/bspline.hpp | KnotSharing, Lifetime |
| include/splinepy/splines/helpers/basis_functions.hpp | RationalBasis |
| include/splinepy/splines/helpers/extract.hpp | BezierSpline, Boundary, Grid, KnotSharing |
| include/splinepy/splines/helpers/properties.hpp | Greville, Index, SplineCore |
| include/splinepy/splines/helpers/scalar_type_wrapper.hpp | Centers, Mapper, Queries, UniformRefineCall, Unique |
| include/splinepy/splines/null_spline.hpp | Dispatch, Mismatch, Multipatch |
| include/splinepy/splines/nurbs.hpp | KnotSharing, RationalArrays |
| include/splinepy/splines/rational_bezier.hpp | BezierAlgebra |
| include/splinepy/splines/rational_bezier.inl | BezierAlgebra, BezierSpline, ConstructPartial, RationalArrays, Split |
| include/splinepy/splines/splinepy_base.hpp | Dispatch, Lifetime, RationalArrays |
| include/splinepy/utils/arrays.hpp | ArrayClass, Proximity, Solve, Unique |
| include/splinepy/utils/coordinate_pointers.hpp | Lifetime, Pointers, RationalArrays |
| include/splinepy/utils/grid_points.hpp | Grid |
| include/splinepy/utils/nthreads.hpp | ThreadErrors, Threads |
| splinepy/__init__.py | CliShow, Dispatch, Logging |
| splinepy/bezier.py | BezierAlgebra, Cats, ConstructPartial, Create, Layout, MicroGeometry, SplineCore, Split |
| splinepy/bspline.py | BezierSpline, Cats, ConstructPartial, Create, Display, ExtractSpline, Ffd, KnotInsertion, KnotSharing, Layout, Lifetime, MacroMatrix, MicroGeometry, RationalArrays, SplineCore, UniformRefineCall, Unique |
| splinepy/cli.py | CliShow, Convert |
| splinepy/helpme/check.py | Check |
| splinepy/helpme/create.py | Cone, Create, DetSpline, Display, Integrate, Revolve |
| splinepy/helpme/extract.py | Bases, BezierSpline, ControlMesh, ExtractArrows, ExtractPlanes, ExtractSpline, KnotSharing, Layout, Mesh, MultipatchData, VolumeFields |
| splinepy/helpme/ffd.py | Display, Ffd |
| splinepy/helpme/fit.py | Fit, FitCalls, SvgApprox |
| splinepy/helpme/integrate.py | Integrate, Volume |
| splinepy/helpme/mapper.py | Mapper, MapperCalls |
| splinepy/helpme/multi_index.py | Index |
| splinepy/helpme/reparametrize.py | Index |
| splinepy/helpme/visualize.py | Arrows, ControlMesh, Display, ExtractArrows, FieldData, MicroShow, MultipatchData, ShowOptions, ShowStyle, VolumeFields |
| splinepy/io/cats.py | Cats |
| splinepy/io/default.py | Convert |
| splinepy/io/gismo.py | Convert, Gismo, GismoGeometry |
| splinepy/io/iges.py | Convert |
| splinepy/io/ioutils.py | Convert, Files, Irit, Mfem |
| splinepy/io/irit.py | Convert, Irit |
| splinepy/io/json.py | Convert, Files |
| splinepy/io/mfem.py | Convert, Mfem |
| splinepy/io/npz.py | Convert, Files |
| splinepy/io/svg.py | Convert, Png, Quiver, ShowOptions, ShowStyle, Svg, SvgApprox, SvgExport, SvgField, SvgPoints |
| splinepy/microstructure/microstructure.py | ConstructPartial, MacroMatrix, Micro, MicroCreate, MicroGeometry, MicroSens, MicroSettings, MicroShow, MicroTile |
| splinepy/microstructure/tiles/__init__.py | Catalogue |
| splinepy/microstructure/tiles/armadillo.py | TileShapesMore, TilesMore |
| splinepy/microstructure/tiles/chi.py | Catalogue, TileShapes, Tiles |
| splinepy/microstructure/tiles/cross_2d.py | TileShapes, Tiles |
| splinepy/microstructure/tiles/cross_3d.py | TileShapes, Tiles |
| splinepy/microstructure/tiles/cross_3d_linear.py | TileShapes, Tiles |
| splinepy/microstructure/tiles/cube_void.py | TileShapes, Tiles |
| splinepy/microstructure/tiles/double_lattice.py | TileShapes, Tiles |
| splinepy/microstructure/tiles/ellips_v_oid.py | TileShapes, Tiles |
| splinepy/microstructure/tiles/hollow_cube.py | TileShapes, Tiles |
| splinepy/microstructure/tiles/hollow_octagon.py | ExtrudeClosing, TileShapes, Tiles |
| splinepy/microstructure/tiles/hollow_octagon_extrude.py | ExtrudeClosing, TileShapesMore, TilesMore |
| splinepy/microstructure/tiles/inverse_cross_3d.py | TileShapesMore, TilesMore |
| splinepy/microstructure/tiles/snappy.py | TileShapes, Tiles |
| splinepy/microstructure/tiles/tile_base.py | Tiles |
| splinepy/multipatch.py | Arrows, CallSettings, Display, Layout, Multipatch, MultipatchCache, MultipatchData, Queries, Sample |
| splinepy/nurbs.py | Cats, ConstructPartial, MicroGeometry |
| splinepy/rational_bezier.py | Cats, ConstructPartial, MicroGeometry |
| splinepy/settings.py | Dispatch, Files, Revolve |
| splinepy/spline.py | Catalogue, ConstructPartial, Create, DetSpline, Display, Files, FitCalls, Index, KnotSharing, Layout, Lifetime, Mesh, MicroGeometry, Pickle, Queries, RationalArrays, RefineCache, Sample, ShowStyle, SplineCore, SvgApprox, Volume |
| splinepy/utils/data.py | ArraySet, Arrows, FieldData, Index, Layout, Lifetime, MultipatchData, Queries, RationalArrays, VolumeFields |
| splinepy/utils/log.py | Logging |
| src/proximity/proximity.cpp | Proximity, Slsqp, ThreadErrors |
| src/proximity/slsqp/slsqp.c | Lsq, Nnls, Slsqp |
| src/py/py_coordinate_pointers.cpp | Pointers |
| src/py/py_knot_insertion_matrix.cpp | KnotInsertion, Layout, MacroMatrix |
| src/py/py_knot_vector.cpp | ArraySet, DetSpline, Ffd, KnotRead, KnotSharing, Layout |
| src/py/py_multipatch.cpp | BoundaryLabels, CallSettings, Centers, ConstructPartial, Dispatch, FlagRace, Gismo, Interfaces, Layout, Lifetime, Mismatch, Multipatch, MultipatchCache, MultipatchData, Orientation, Queries, Sample, ThreadErrors, Threads, VolumeFields |
| src/py/py_parameter_space.cpp | ArraySet, KnotRead, KnotSharing, Layout, Pickle, Unique |
| src/py/py_spline.cpp | ConstructPartial, FitCalls, Greville, KnotInsertion, KnotSharing, Layout, Lifetime, Mesh, Pickle, Queries, RationalArrays, RefineCache, Sample, SplineCore, ThreadErrors, Threads, Unique |
| src/py/py_spline_exporter.cpp | Convert |
| src/py/py_spline_extensions.cpp | BezierAlgebra, BezierSpline, Boundary, Cats, Create, KnotSharing, Layout, Split, Unique |
| src/splines/create/bezier1.cpp | Dispatch |
| src/splines/create/bezier10.cpp | Dispatch |
| src/splines/create/bezier2.cpp | Dispatch |
| src/splines/create/bezier3.cpp | Dispatch |
| src/splines/create/bezier4.cpp | Dispatch |
| src/splines/create/bezier5.cpp | Dispatch |
| src/splines/create/bezier6.cpp | Dispatch |
| src/splines/create/bezier7.cpp | Dispatch |
| src/splines/create/bezier8.cpp | Dispatch |
| src/splines/create/bezier9.cpp | Dispatch |
| src/splines/create/rational_bezier1.cpp | Dispatch |
| src/splines/create/rational_bezier10.cpp | Dispatch |
| src/splines/create/rational_bezier2.cpp | Dispatch |
| src/splines/create/rational_bezier3.cpp | Dispatch |
| src/splines/create/rational_bezier4.cpp | Dispatch |
| src/splines/create/rational_bezier5.cpp | Dispatch |
| src/splines/create/rational_bezier6.cpp | Dispatch |
| src/splines/create/rational_bezier7.cpp | Dispatch |
| src/splines/create/rational_bezier8.cpp | Dispatch |
| src/splines/create/rational_bezier9.cpp | Dispatch |
| src/splines/helpers/extract.cpp | BezierPatches |
| src/splines/splinepy_base.cpp | BezierAlgebra, Dispatch, SplineCore |
| src/utils/coordinate_pointers.cpp | Lifetime, Pointers, RationalArrays |

Not modelled at all: `include/splinepy/py/py_knot_insertion_matrix.hpp`, `include/splinepy/py/py_spline_exporter.hpp`, `include/splinepy/py/py_spline_extensions.hpp`, `include/splinepy/py/py_spline_reader.hpp`, `include/splinepy/utils/default_initialization_allocator.hpp`, `include/splinepy/utils/print.hpp`, `splinepy/_base.py`, `splinepy/_version.py`, `splinepy/helpme/__init__.py`, `splinepy/io/__init__.py`, `splinepy/microstructure/__init__.py`, `splinepy/utils/__init__.py`, `src/py/py_spline_reader.cpp`, `src/py/splinepy_core.cpp`; explicit instantiations and the generated `create` tables.

Not modelled inside of cited files, the larger parts:

* `spline.py`: printing, `show`/gustaf glue, jacobian, evaluation and derivative calls (they forward to C++ libraries).
* `src/py/py_spline.cpp`: pybind bindings and array allocation; `src/py/py_multipatch.cpp`: bindings, the parts that only loop over patches
  and forward to the spline library.
* `include/splinepy/splines/{bezier,rational_bezier,bspline,nurbs}`: forwarding to BSplineLib and bezman.
* `src/proximity/slsqp/slsqp.c` (a translated Fortran library): `slsqpb`, `ldl`, `bound`, `lsq`, `lsi`, `ldp`, `nnls` and `h12` are modelled for problems without constraints besides the bounds, which are the only ones splinepy makes (C131, C133); the augmented problem, `hfti`, the equations in `lsei` and the exact line search are not. In the theorems about `proximities` (C05 and others) the routine is an oracle that returns any value inside the given bounds.
* `helpme/visualize.py`, `utils/data.py`: colours, text, vedo and gustaf objects.
* `microstructure/tiles`: docstrings and log messages; the tables of control points are modelled.

## Where the code violates a property

If the code as written does not satisfy the property, the model keeps the bug, a theorem named `…_violates` (older ones
`…_violated`/`…_counterexample`) proves the negation with a concrete or universal witness, and a `…_partial` theorem proves the
largest part that holds. The table at the end names them for each property.


## Plan per property









































































| id | what is modelled | how it is proved |
|----|------------------|------------------|
| C01 | the insertion matrix recursion (`R_matrix` products, span search, row assembly) and Cox–de Boor evaluation | refinement: row recursion = blossom (polar form) recursion; knot insertion identity for B-spline basis by induction on degree |
| C02 | same recursion | induction on degree: entries are convex combinations |
| C03 | sort + merge, local/global index arithmetic | `List.Perm`/`Sorted` lemmas; div/mod bijection |
| C04 | `create_new_knot_vector` loop | induction over the knot list |
| C05 | `ExtractBezierPatchIDs` incremental loop | loop invariant: offset = prefix sum of multiplicities |
| C06 | `uniform_refine` formula | algebra + list lemmas |
| C07 | `GridPoints` | mixed radix (div/mod) induction on dimensions |
| C08 | `ExtractControlMeshSliceFromIDs`, `IdsOnHyperPlane` | mixed radix bijection |
| C09 | `NThreadExecution` chunking | arithmetic; negation (out of range chunk) and exact characterisation |
| C10 | strided loops | partition of ℕ by residues; commuting writes for interleavings |
| C11 | `FindConnectivityFromCenters` sweep | invariant over the sweep; exactness for separated clusters, negation for overlapping tolerance balls |
| C12 | depth-first labelling | graph search invariant: labels = connected components |
| C13 | numpy mask assignments | invariant over operation lists; negation for positive ids |
| C14 | cache state machine | refinement to recomputation; negation with a stale history |
| C15–C18 | loops over interface tables, offsets, checks | list induction |
| C19, C20 | `NewCore` validation, dispatch table | decision logic: accept ↔ spec, negation at knots below −1 |
| C21, C22 | Python property state machine | invariant over operation lists; negation for the stale cache |
| C23–C25 | weighted row updates, index wrapping | refinement to a table of (point, weight); negation for negative weight ids |
| C26 | slice assignment then check | negation of atomicity + partial |
| C27 | Greville loop incl. duplicate filter | sums of monotone sequences; loop invariant |
| C28 | `Matrix::Solve` with row order | elimination invariant: solution set preserved |
| C29–C31 | search state machine with abstract oracles | invariants for all oracles; termination measure; negation of consistency |
| C32, C33 | order formula, tensor rule, element loop | arithmetic; negation by two-span curve |
| C34, C35 | knot vector formulas | averages; Schoenberg–Whitney |
| C36 | affine scaling | ordered field algebra |
| C37 | `_additional_knots` | greedy invariant; negation for skipped dimensions |
| C38–C41 | index arithmetic, permutation, flip | mixed radix induction |
| C42, C43 | rational basis loops | algebra; induction over multi-orders |
| C44 | unique with multiplicities | list induction |
| C45 | de Casteljau split, rescaled locations | Bernstein/blossom algebra, list induction |
| C46–C48 | dictionaries, interface rows, counter trick | round-trip proofs |
| C49, C50 | control net constructions | algebra on basis expansions; circle identity |
| C51–C56 | as anchored | decision logic, linear algebra, list induction |
| C57 | Bezier extraction: chain of insertions up to full multiplicity, patches | knot insertion (C01) along the chain; basis of a full-multiplicity span is Bernstein |
| C58 | two threads writing bits of one byte, read-modify-write | negation by an interleaving; partial without interference |
| C59 | assignment of a list of patches, caches and fields | negation of atomicity; effect of accepted lists |
| C60 | list of boundary faces from the interface table | list induction |
| C61 | `elevate_degrees` loop over listed directions | counting; negations for invalid and empty lists |
| C62 | parameter space objects shared between core and Python | state machine; negation with a stale object |
| C63 | normal equations with fixed end points | least squares algebra |
| C64 | two passes of curve fits over a grid | tensor algebra |
| C65 | conversion of spline kinds | equality of basis functions |
| C66 | `line` | hat functions |
| C67 | `arc`, `circle`, `disk`, `sphere` | rational quadratic circle identity; trigonometry over ℝ |
| C68 | `surface_circle`, `plate` | same; negation for the plate |
| C69 | `torus` | same; negations for mixed units |
| C70 | `normalize_knot_vectors` | affine invariance of the basis |
| C71 | FFD object as state machine | invariant over all histories; negations |
| C72 | loops of `Microstructure.create` over tiles and fields | lengths and positions by list induction |
| C73 | macro sensitivities | linearity of composition |
| C74 | choice of closing tiles | decision logic; negation for one layer |
| C75 | control point tables of the tiles and their derivative tables | derivative of polynomial tables; negations |
| C76 | the same tables | linear arithmetic for all accepted arguments |
| C77 | faces of neighbouring tiles | equality of faces as tables |
| C78 | closing tiles | coverage of the face by rectangles |
| C79 | `dof_mapping` | permutation from a list of disjoint index sets |
| C80 | mfem `export`, `load`, `read_solution` | inverse permutations, line scanner invariants |
| C81 | `export_cartesian` | table lookup and contract for numbering of vertices |
| C82 | irit writer and reader on tokens | scanner invariants |
| C83 | `expand_tabs` | negation |
| C84 | CATS xml | round trip |
| C85 | gismo geometry xml | round trip in both encodings |
| C86 | gismo options | mutual induction on trees |
| C87 | `_matrix_from_node` | byte blocks; negation |
| C88 | `determinant_spline`, Bezier branch | product of Bernstein bases, unisolvence at Greville points |
| C89 | `ExtractBoundary` | tensor product at an end knot |
| C90 | `extract.edges` | tensor grids |
| C91 | `extract.faces`, `volumes` | tensor grids |
| C92 | `extract.bases` | linearity of evaluation |
| C93 | PNG writer | independent reader as specification |
| C94 | `flip_axes` | mirror symmetry of B-spline bases |
| C95 | paths of curves and surfaces | Bezier path semantics as specification |
| C96 | view box | convex hull property |
| C97 | control mesh polylines | multi-index |
| C98 | scalar bar | field algebra; negation |
| C99 | `_rgb_2_hex` | hexadecimal digits |
| C100 | crop of bitmaps | list lemmas; negation |
| C101 | arrow polygons | rotation by the argument of a complex number |
| C102 | show options during calls | state machine; negation for exceptions |
| C103 | `SplineDataAdaptor` | equality of sampling grids; negations |
| C104 | composition_derivative of bezier.inl/rational_bezier.inl over operations of bezman (parameters with a contract; witness by exact polynomial arithmetic in Bernstein form) | fold invariant gives the sum of the chain rule; total derivative of quotients of polynomials; iff for acceptance; rational outer functions always raise |
| C105 | multiply, add, multiplication by numbers (bezier.py 42-100) | decision logic plus contract; numbers through the constructor model; violations: scalar times vector, numbers times rational splines |
| C106 | cone and pyramid on top of the models of disk, circle, extruded and box; np.isclose with its default tolerances | A spline whose upper layer of an extrusion is replaced by one point evaluates to the segments to this point (sums over the two layers); combined with the theorems on disks and circles. Heights up to 1e-8 collapse the base as well: negation proved |
| C107 | create_tile of all volumetric and planar tiles (Model/Tiles, Model/TileShapes); specification Spec/TileOrient: matrix of partial derivatives of the evaluated patch, its determinant | partial derivatives are convex combinations of the edges of the control net (Lemma/TileEdges), sign conditions on the edges give the sign of the determinant; counterexamples for HollowCube, CubeVoid, radii at the bound |
| C108 | pathlib suffix on paths, table of extensions, file system of named contents, what each io module does with a spline, a list or a (multipatch, options) pair; convert | composition of the json, npz and irit round trips (C46, C82) through the dispatch; case analysis; universal counterexamples for gismo input and mfem output |
| C109 | InverseCross3D and Cross3D with all control points | faces as numbers into a table of values; the pairing of faces is decided on the numbers, the equality of the values is proved for all parameters |
| C110 | all tiles with their closing tiles | a spanning tree of common faces is decided on the numbers of the values and lifted to all values; where the tile falls apart, the separated patch is shown |
| C111 | ExtractBezierPatches: loop of insertions per direction, ids of C05, rows of the (weighted) coordinates, un-weighting, created splines. BSplineLib's DetermineBezierExtractionKnots, InsertKnot and KnotMultiplicities by contract | induction over the insertions gives the knot vector with raised multiplicities; on each span exactly the copied basis functions are active and equal the Bernstein polynomials, also at the right end; the contracts are shown to be satisfiable for all clamped splines |
| C112 | Model/MicroGeometry: create and _compute_tiling_prerequisites on splines: knots of the tiling inserted direction by direction, linear spline of the parametric space with the same knots, Bezier extraction of both (Model/BezierSpline), evaluation of the parametrisation, closures, composition. BSplineLib, bezman and the tile are parameters with contracts. | Induction over the directions for the insertion (Lemma/AddKnots: the directions with the new breakpoints), C111 for both extractions, the linear spline is the identity; contracts shown satisfiable for all clamped splines; concrete microstructure over the reals. Violation: total numbers of tiles without new knots. |
| C113 | volume with the measures, the extraction of Bezier patches (C111) and the quadrature rule (C32); Jacobians and leggauss by contract | Each patch is the spline on one knot element, so by the chain rule its determinant is that of the spline times the size of the element; change of variables; the elements divide the domain up to null sets |
| C114 | The product of knot insertion matrices of _compute_tiling_prerequisites in the order of the code, with the refined knot vectors, the extraction matrices and the row ids of the Bezier patches (MacroMatrix.macroMatrices), put into the model of create (C73). compose(compute_sensitivities=True) is a contract that is shown to be satisfiable. | The insertion matrices preserve the tensor product functions (C03, C04); Bezier coefficients are unique on the span, so row selection gives the Bernstein coefficients of each basis function; the fields follow from C73 and the place of tiles from C112. |
| C115 | create of a microstructure on splines with sensitivities: positions, parameters, support of the sensitivities, tile and derivatives, composition, composition_derivative, fields (Model/MicroSens on top of Model/MicroGeometry and Model/BezierAlgebra) | the fold over the patches is refined to total functions, then each entry is the derivative by the chain rule (C104) of the placed tile (C112) along the moved parametrization; sample microstructure; rational deformation functions raise |
| C116 | Microstructure.create of C112 with the create_tile functions of C75-C77 as tile class | A face of the plane between the cells is the same list of control points in both tiles (C77); the Bezier form of a face depends on that list only, so both patches have the same points there, and both are placed by the deformation function at the same parameters (C112). The parameters of the shared face agree because the evaluation points of the two tiles on it coincide. |
| C117 | blocks of memory, cores (owning or viewing), arrays in `_data` and of the user, pointers, multipatches; all calls as steps that are undefined when freed memory is read | invariant over histories: every core that views memory has an object whose `_data` holds that memory; for Bezier splines every core owns its memory; the three exceptions as counterexamples for all data |
| C118 | as for C117, with the cached pointers of a core and the `invalid_` flag set when a core is destroyed | invariant over histories: memory of different splines is disjoint, the array of a spline has the contents of its core, pointers in it point to the memory of the core, other arrays belong to no spline; the excluded histories as counterexamples for all data |
| C119 | Multipatches with their dictionaries of data and shared, growing lists of fields; assignments, rejected or not; acceptance of fields is a parameter | Invariant over all histories: entry of the key and a prefix of the list of fields are kept by every call that does not touch them; violations for all data |
| C120 | Face centers of patches and their numbers, combined with the models of C11, C112 and C116 | Common faces have the same centre in every orientation (swaps and reversals keep the middle); numbering of faces; then exactness of the sweep (C11) |
| C121 | numpy arrays as memory, pointer, shape and strides; the flag C_CONTIGUOUS, ascontiguousarray and enforce_contiguous; raw reads of the wrappers; the writes of every thread for all query functions | row-major position of an index for contiguous arrays (induction over the axes); blocks of writes of different queries are disjoint, so every schedule gives the same content; violations by concrete arrays |
| C122 | NThreadExecution with items that throw, for every trace of a schedule; the three users that throw inside of threads | one thread: induction over the items; threads: every schedule meets the failing item; the crash is proved for all inputs |
| C123 | loads and stores of reference counts by the threads of ToCoreSplineVector, any interleaving | invariant: count plus due changes is constant if no object is shared; a concrete interleaving loses an update otherwise |
| C124 | attributes tolerance, n_default_threads and the two caches under all calls that replace or use them; computations are parameters | induction over histories of calls that return; the leaks after exceptions and the ignored tolerances are proved for all data |
| C125 | arrays as memory, pointer, shape and strides; which calls make the array contiguous before the raw pointer is read | the numbers read are the elements for careful calls; an exact characterisation of the calls by a strided counterexample |
| C126 | stored properties on the Python side and the loops of ElevateDegrees and ReduceDegrees, which change the core direction by direction | invariant over histories of calls that return; for calls that raise half way the stale value is proved for every spline |
| C127 | setters, `_sanity_check`, the start of `create` and its write into the tiling, `_UserTile`; a world of microstructures and lists of the user | invariant over histories (the object has the last values), permutation argument for the order, state-level lemma for the reports; negations for refused values, integer tilings, total numbers of tiles and parametrizations |
| C128 | Model/Lifetime: memory blocks, cores, pointers, spline objects, arrays of the user and multipatches, with the thirteen calls of C117 | Non-interference: every thing gets one of two labels; each call keeps 'nothing refers to a thing of the other label' and changes only things of its own label (proved for every primitive and every call); induction over the history; sharing constructors as negations |
| C129 | Model/ArrayClass: blocks of memory with freed flag, arrays with owner flag, pointer, shape and strides; 14 calls; undefined behaviour is none | Induction over shapes for the row-major bijection; invariant 'every owner has allocated memory that nobody else owns' by induction over histories; 'allocated memory has an owner' for histories without TransferOwnership; negations for moved-from arrays and self-moves |
| C130 | Model/Logging: levels and handlers of the logger; log.configure, added handlers; the handlers a message reaches | Closed form of the handlers after any history by induction from the end; counting; the loss of earlier log files as a negation for every history |
| C131 | slsqpb with its state between the calls (start, resets, quadratic subproblem clipped to the bounds, line search, BFGS update), ldl on packed factors, bound; lsq (the solver of the subproblem), the norm and the exact line search are arbitrary functions | invariant over calls (point inside, factors positive, iteration count), a cost that decreases with every call, induction over the columns for ldl |
| C132 | __getstate__ and __setstate__ on the state of Verif/Model/SplineCore (core, _data with plain arrays or a parameter space object); pybind11 objects without pickling support make dumps raise | characterisation of the states that can be pickled; invariant over histories that every core passes the checks of the constructor; round trip; negations after reading knot vectors (all splines), after moving knots below -1, and for options |
| C133 | nnls as a state machine with its gotos as locations, Householder transformations h12, ldp, lsi and lsq over an arbitrary ordered field with an exact square root; the search loop is that of C131 with lsq as its solver | termination by a measure on exchanges; an invariant that the transformed columns keep the Gram matrix and that the passive columns are triangular; optimality from the conditions of Kuhn and Tucker, carried through the dual problem and the triangular factor; a run invariant (negative directional derivative) shows that the update is never singular |
| C134 | Set and dictionary objects with references, the objects callers hold, the lookups and changes by callers (Model/Catalogue) | Invariant over histories: the tables of the package are never handed out and stay as imported; false for union() and intersection() without arguments, which hand out the attribute of the class (all_kinds_violates) |
| C135 | SplinepyCreate with all switch tables for both builds (Model/Dispatch.lean), the table of null splines | evaluation of the tables for supported dimensions, omega for all others; placeholder part fails in the default build |
| C136 | conversion and checks of a field with None entries, Evaluate as writes into an array in any order, SubMultipatch and BoundaryMultipatch (Model/Dispatch.lean) | invariant over the order of the writes; negations for unchecked dimensions and for boundaries |
| C137 | A heap of knot vector objects; parameter spaces as lists of references; cores; spline objects with their saved parameter space; eleven calls (Model/KnotSharing) | Invariant that objects own disjoint parameter spaces, by induction over calls: a call changes another spline only through a shared knot vector. Without boundary extraction and object assignment no knot vector is ever shared: independence and consistency. Violations for every boundary extraction followed by refinement or editing |
| C138 | Heap of cores, blocks of homogeneous coordinates, pointer objects and arrays; calls new, assignments, reading, releasing, writing, refining, evaluating (Model/RationalArrays.lean) | Invariant over histories: both saved arrays agree with the coordinates of the core, every other array the user has is connected to pointers that were invalidated; arithmetic of multiplying and dividing by weights over a field; violations by concrete histories |
| C139 | The constructors with missing arguments: a missing property is assigned as None, which clears; Spline(...) assigns only what is given; then any sequence of assignments and reads. | Invariant over histories (no core and no degrees) for the negation; equality of the resulting cores for completion by degrees (all classes) and by control points (Spline). |
| C140 | adaptors with fixed locations, as_vertex_data at places, _sample_arrow_data with its checks, multipatches | equivalence of the check by minima and maxima of the columns with being inside, case analysis; counterexamples for lists, parameter names, type errors, multipatches |
| C141 | control_edges/faces/volumes/mesh for splines and multipatches with gustaf's connectivities as documented, unique edges | membership of lines in cells, choice of a cell for every pair of neighbours, induction over the patches |
| C142 | Refinement of the sampled parameters and of the knots, first parameters and multiplicities, the fit (knots of C35, solver of C63), the loop and the warning (Model/SvgApprox.lean) | Refined parameters are the interleaving with the means; counting of multiplicities shows that each fit has enough samples; Schoenberg-Whitney and the least-squares theorems of C34/C63/C64 for each fit; induction over the loop; negations for corners and for other intervals of parameters |
| C143 | Circles, labels and numbers of vertices and control points with their options (Model/SvgPoints.lean) | Element by element for all lists; case analysis over the options; negations for values with several components, missing labels and vertex_ids=False |
| C144 | make_showable and show as decision logic over options and keyword arguments; FFD.show and showable as state change and result | case analysis on the flags, lookup lemma for overridden options; negations where the code departs |
| C145 | argument values, options set per object, arguments of the window, screenshot | case analysis; overridden options by the lemma of C144; negation for the warning |
| C146 | arguments and loop of uniform_refine with the state after an exception (Model/UniformRefineCall); insertion of knots by the contract of C112 | induction over the requests with the one-direction insertion theorem of C112 and the subdivision lemmas; partial refinement before an exception and negative directions are proved as violations |
| C147 | The sort of the dictionary, the loop over its items and the forms of the call, on top of the model of C55 (single plane); insert_knots enters by its contract | Induction over the planes in descending order of the axes with the theorems of C55; the specification names the remaining axes by filtering; the sort gives the same list for all orders of the dictionary |
| C148 | The access by index and by slice with the clamping of CPython and 64-bit unsigned arithmetic, copies into arrays, and the iterator as a pair of pointers into the storage, which a refinement makes invalid | The computed positions are shown to be those of a specification that filters all positions (both ascending or descending and with the same members); wrapping by arithmetic in BitVec; iteration by induction over histories |
| C149 | Shapes of right-hand sides and solutions for both solvers, the assignments to control points with their shape rules, the checks of the parameters and the form of the result | Case analysis over the shapes for all numbers; exact condition for curves; negations for one coordinate, verbose output and listed parameters |
| C150 | closing_tile of HollowOctagonExtrude with its checks; the control points are those of the closings of the plane octagon | equality with the closing tiles of HollowOctagon, whose geometry is proved (C76-C78, C107, C110); exact set of accepted calls; negations for the dimension and for an unchecked contact length |
| C151 | the calls of sample in Python and C++: conversion and raw reading of the resolutions, the grids, the chunks and strides of the threads and what they write | composition of the grid theorem (C07) with the schedule theorems for batched queries (C09, C10, C121); negations for views of int arrays and for lists of resolutions of multipatches |
| C152 | The types of the options, assignment and keyword arguments, the reading of every option with its default by the drawing functions, the marks at unique knots. | Case analysis over a documented table of options for all options and arguments; induction over histories of assignments for the transparency of the control mesh; sortedness for the knots. |
| C153 | The saved microstructure, create and show as steps on a world with all microstructures made so far; what create and create_tile compute are parameters. | Induction over histories; the last microstructure made is specified independently by the history. |
| C154 | The alpha layer, the crop and the PNG file of the screenshot, and the place of the image element; what the plotter draws is a parameter, zlib a contract | Pixels of the file that is read back are those of the scene moved by the first drawn row and column; counterexamples for white pixels, one column, one row |
| C155 | arrow_data of the extractor, with the results of the sampling of arrows (C140) as input; gustaf's as_scalar and from_data are parameters | Case analysis over places and dimensions; that the key for the lengths is never a name gives the negations |

## State per property

Generated from `MANIFEST.json`; names without their namespace. "partial" means that the code violates the property somewhere (theorem `…_violates`) or that something
named in the note is missing.

| id | status | theorems | limits |
|---|---|---|---|
| C01 | partial | `knot_insertion_preserves_curve`, `knot_insertion_preserves_end`, `basis_refined`, `global_insertion_preserves_tensor`, `degree_zero_violates`, `unclamped_violates` | Proved for every degree >= 1, every clamped-start knot vector, every list of inner knots and every parameter; for knot vectors that are not clamped at the start the code indexes negative columns (negation proved), hence partial. Comparisons with the tolerance are exact under the separation hypothesis. |
| C02 | partial | `knot_insertion_rows_convex`, `unclamped_violates` | Same hypotheses as C01. |
| C03 | partial | `merged_knots_partial`, `merge_behind_violates`, `global_insertion_preserves_tensor` | Proved for new knots in any order which do not lie behind the last knot; a knot behind makes the code read out of bounds (violates, universal). |
| C04 | partial | `extraction_knots_partial`, `bezier_extraction_exact`, `extraction_degree_zero_violates`, `extraction_unclamped_violates` | Violated for degree 0 with an inner knot, and for knot vectors which do not begin with a full multiplicity: the loop writes behind the arrays it allocates. Otherwise: every inner multiplicity, every degree >= 1, distinct knots at least the tolerance apart. Patch number x covers exactly the x-th combination of non-empty knot spans: second theorem. |
| C05 | proved | `bezier_patch_ids`, `bezier_patch_ids_nodup` | All dimensions, degrees and inner multiplicities of clamped splines. |
| C06 | proved | `uniform_refine_spec`, `uniform_refine_sorted`, `uniform_value` |  |
| C07 | proved | `setUp_rejects_iff`, `sample_point_correct`, `coord_endpoints`, `coord_mem_strictMono`, `sample_indices_bijective`, `fill_eq_samples` | Grid of sample points for every dimension, bounds and resolutions; resolutions below 2 rejected. |
| C08 | proved | `boundary_point_coordinates`, `boundary_points_exact`, `boundary_slice_control_points`, `boundaryFromAxis_spec` | Control point ids of every boundary face for every net shape. |
| C09 | partial | `chunks_eq_range`, `single_thread_eq_range`, `each_query_once_partial`, `in_range_iff`, `in_range_of_dvd`, `evaluate_schedule_independent`, `out_of_range_chunk_violates`, `empty_queries_violates` | The code violates the property (chunk past the end when (n-1)*ceil(total/n)>total; division by zero for empty queries): negations proved, exact condition for safety proved; every existing query is handled exactly once for every thread count and schedule. |
| C10 | partial | `strided_each_item_once_partial`, `multipatch_evaluate_correct_partial`, `strided_nonpositive_violates`, `extractAllBoundarySplines_violates`, `extractAllBoundarySplines_partial` | Proved for every thread count >= 1 and every schedule; negation for nthreads <= 0 (loop never ends) and for extract_all_boundary_splines. |
| C11 | partial | `interfaces_exact_partial`, `interfaces_mutual_partial`, `interfaces_triple_rejected`, `interfaces_sound`, `interfaces_incomplete_rejected`, `interfaces_mutual_violates` | Exact and mutual for every number of faces, every sorting direction and tolerance as long as closeness of the given centers is transitive; for non-transitive closeness (a chain of centers) mutuality fails: negation proved. Three coinciding centers are always rejected. |
| C12 | partial | `boundary_labels_components_partial`, `areG1_symm`, `areG1_iff`, `areG1_scale`, `areG1_parallel`, `first_patch_open_violates` | Same label iff connected by a chain of G1 neighbours, for every table of neighbours; the hypothesis excludes tables in which boundary patch 0 has open faces with ids below the number of faces, for which the code accesses memory out of range (negation proved). |
| C13 | partial | `boundary_bookkeeping_partial`, `set_boundary_spec`, `combine_positive_violates`, `combine_positive_violates_all`, `set_boundary_zero_violates` | For every sequence of calls with nonzero ids (and at least one negative id for combine_boundaries); violated by combine_boundaries with positive ids and by boundary_id=0 (negations proved). |
| C14 | partial | `reads_coherent`, `caches_coherent_partial`, `orientations_coherent_partial`, `stale_boundary_ids_violates`, `stale_boundary_multipatch_violates`, `stale_after_set_patches_violates`, `stale_after_clear_violates`, `stale_orientations_violates` | Centers, interface table and reads for one boundary id are coherent after every history; the caches of all boundaries, the sub-multipatch and the orientations are coherent after every history without interfering changes, and stale otherwise (negations proved). |
| C15 | partial | `boundary_patch_ids_exact`, `boundary_patch_ids_boundary_partial`, `boundary_patch_ids_zero_violates` | Exact selection proved for every table and id; for bid=0 the face connected to face 0 is returned (negation proved). |
| C16 | partial | `control_point_offsets_prefix`, `control_point_ranges_partition`, `control_points_concat`, `null_spline_offsets_violates` | Proved for every list of patches without null splines, and for every schedule of the copying threads; null splines in fields count as -1 (negation proved). |
| C17 | proved | `raise_mismatch_exact`, `raise_mismatch_never_crashes`, `raise_mismatch2_exact`, `set_patches_accepts_iff` | Both overloads of the check, for every thread count >= 1 (non-empty list or one thread). |
| C18 | partial | `add_fields_all_or_nothing`, `add_fields_accepts_iff`, `add_fields_threads_violates`, `add_fields_null_violates` | All-or-nothing proved for every call that returns or raises, for every thread count; acceptance criterion exact; some thread counts end the process for acceptable fields, None entries beyond the null spline table are out-of-range reads (negations proved). |
| C19 | partial | `construction_accepts_partial`, `knots_below_violates` | Exact characterisation of acceptance for every class and all properties; besides consistency the code asks for knots not below -1 (negation of the property proved) and supported dimensions. |
| C20 | proved | `construction_kind` | For every class and every set of properties it takes; constructors of the external classes are not modelled. |
| C21 | partial | `reads_latest_partial`, `rejected_assignment_violates`, `lost_assignment_violates` | Proved for every history without a raising call, with refinements for polynomial classes; false for rational splines right after a refinement and after rejected assignments (negations proved). |
| C22 | partial | `multi_index_fresh_partial`, `stale_multi_index_violates` | Proved for every history that does not assign degrees or knot vectors between a read of the multi index and the next reset or refinement; false otherwise (negation proved). |
| C23 | partial | `writes_like_record`, `polynomial_writes`, `zero_weight_violates` | Proved for every history of the eight write calls with nonzero weights over any field; a zero weight loses the control point (negation proved). |
| C24 | partial | `setitem_reaches_core_partial`, `setitem_weights_partial`, `in_place_reaches_core`, `setitem_reversed_violates`, `setitem_long_slice_violates`, `setitem_low_start_violates`, `setitem_bool_violates`, `setitem_weights_violates` | Proved for ints, id lists, masks, ellipsis, other keys, and slices with bounds in range (positive step, or negative step with both bounds given); false for the remaining slices, empty lists, booleans and negative id lists of weights (negations proved). |
| C25 | partial | `negative_ids_partial`, `negative_ids_weights_violates` | Proved for all control point calls and for set_row/set_rows of weights; sync_rows of weights reads in front of the array for negative ids (negation proved). |
| C26 | partial | `slice_assignment`, `assignments_partial`, `wrong_size_unchanged`, `assignment_not_atomic_violates` | Successful assignments are exact and keep the order, for every slice; rejected values are written before the check, so atomicity is false (negation proved). The check and the single knot update are external and enter by contract. |
| C27 | partial | `greville_sorted`, `greville_bounds`, `greville_distinct`, `greville_reproduces`, `bezier_greville`, `greville_unclamped_violates`, `greville_overclamped_violates` | Order, ends, bounds, separation of all duplicates and linear precision proved for every knot vector of degree >= 1; the bounds claim needs clamped ends and separation at most p+1 copies at the ends (negations proved otherwise). |
| C28 | proved | `solve_solves`, `solve_row_order`, `trivialKernel_iff_det` | Exact arithmetic in any ordered field, any size, any starting row order; rounding is not modelled. |
| C29 | proved | `proximity_in_bounds` | For every spline, solver, slsqp and k-d tree behaviour in exact arithmetic with a tree planted for the current bounds; NaN is not modelled. |
| C30 | proved | `newton_terminates`, `levenberg_marquart_terminates`, `query_terminates`, `query_terminates_slsqp` | Explicit bounds max_iter and 2*max_iter+17 for every objective and solver; the whole query with 60*max_iter+18 passes per loop when the calls of slsqp are those of the modelled routine (C131), for every solution of its subproblems. |
| C31 | partial | `proximity_consistent_partial`, `proximity_sample_hit`, `inconsistent_result_violates`, `worse_than_initial_violates` | Consistency proved for every exit but the last fallback without improvement, where it is false (negation proved); the result can be farther away than the initial guess (negation proved). |
| C32 | proved | `default_volume_exact`, `rule_weights_points`, `gauss2_ok`, `leggauss_exists`, `gauss_exists` | For every parametric dimension and degree, against the Lebesgue integral over the unit cube; exactness of leggauss enters as contract; rules that meet it exist for every order (leggauss_exists). |
| C33 | partial | `parametric_function_partial`, `parametric_function_elements_partial`, `parametric_function_value`, `knot_spans_violates` | Proved for unit elements; the size of the knot elements is missing in the sum, so the claim is false with interior knots (negation proved). |
| C34 | proved | `fit_knot_vector`, `params_increasing`, `fit_knots`, `fit_curve_knots`, `specifications_rejected_iff`, `collocation_injective`, `fit_solvable` | Every degree >= 1, number of points and control points; solvability by a full proof of the Schoenberg-Whitney theorem (total positivity by knot insertion). Exact arithmetic. |
| C35 | partial | `given_knot_vector_partial`, `fitting_spline_honoured`, `given_knot_vector_violates` | Only the length of the given knot vector is used (negation of the property proved); a fitting spline given instead is honoured. |
| C36 | proved | `coordinates_inside`, `coordinates_order`, `default_moves_little`, `user_spline_deforms` | For every mesh with at least one vertex and positive dimension, flat ones included. Bounds of the mesh are computed by gustaf, which is not in the repository, and modelled as column minima and maxima. |
| C37 | partial | `tiling_per_span`, `tiling_total_partial`, `tiling_shift_violates`, `tiling_nothing_to_do_violates` | Knot-span-wise tiling: proved in full. Total numbers: proved (with optimality of the distribution) if the directions needing new knots come first; otherwise the knots go to a wrong direction or the call raises. InsertKnot of BSplineLib enters as the contract Spec.InsertsNew. |
| C38 | proved | `cartesian_product_reverse`, `cartesian_product_plain`, `cartesian_product_complete`, `uniform_query_rows`, `uniform_query_rejects` | numpy views modelled as writes into an uninitialised table. |
| C39 | proved | `multi_index_get`, `multi_index_single`, `multi_index_bijective`, `multi_index_slice_exact`, `multi_index_all`, `multi_index_error_iff` | int32 overflow not modelled. |
| C40 | proved | `permute_accepts_iff`, `permute_spec`, `permute_comp`, `permute_id`, `permute_inverse`, `permute_evaluates_same`, `argsort_exists` | np.argsort enters as any function with the argsort contract. |
| C41 | partial | `flipKnots_get`, `flipKnots_bounds`, `flipKnots_involutive`, `flipKnots_sorted`, `flip_spec`, `flip_rejects`, `flip_involutive_partial`, `flip_evaluates_same`, `flip_duplicate_axis_violates` | Proved for axis lists without repetition; negation proved for repeated axes (control points reversed once, knot vector mirrored twice). |
| C42 | proved | `rational_partition_of_unity`, `rational_nonneg`, `rational_evaluates`, `rational_equal_weights`, `supportOf_exists` | For every valid rational spline (any number of directions, with or without knots, positive weights) and every parameter of the closed domain. The polynomial basis values and the first non-zero basis function are external (BSplineLib) and enter by their meaning; supports exist for every parameter. |
| C43 | proved | `rational_derivative` | For every number of directions, every multi-order and all functions smooth around the query, over the reals: the result is the mixed partial derivative of the quotient. Polynomial derivatives are external and enter by their meaning; overflow of the integer product of binomial coefficients is not modelled. |
| C44 | partial | `unique_multiplicities`, `unique_knots_exact`, `unique_knots_tolerance`, `unique_knots_repeat`, `unique_knots_unclamped_violates` | Proved for every non-decreasing knot vector and tolerance; repeating by multiplicities (external DetermineMultiplicities, entering as its specification) gives back clamped knot vectors, fails for unclamped ones (negation proved). |
| C45 | partial | `split_splines_partial`, `casteljau_halves`, `split_pieces_partial`, `pieces_meet`, `split_rejects`, `split_repeated_end_violates` | for Bezier splines of any number of directions, rational or not, with their points as in the definition (split_splines_partial), and for any kind of object (split_pieces_partial). The bezman routine splitting at one location enters as a contract, Spec.Halves resp. Spec.SplitsExactly; subdivision by de Casteljau meets it for every direction (casteljau_halves). Everything the library does around it (range check, sorting, re-scaling, order of pieces) is modelled. Partial because a location 1 given twice divides by zero (split_repeated_end_violates). |
| C46 | partial | `json_round_trip_partial`, `npz_round_trip_partial`, `npz_round_trip_typed_partial`, `npz_name_violates`, `json_spline_class_violates`, `json_moved_knots_violates` | Exact for every list of splines made by the constructors of the four kinds, with and without base64 (base64/frombuffer enter as decode (encode l) = l). Fails for objects of class Spline in json, for npz file names without extension, and for splines whose knots were moved below -1 after construction. |
| C47 | partial | `topology_round_trip_partial`, `topology_unlabeled`, `unlabeled_ids_violates` | Exact for every symmetric interface table and all boundary ids in the default mode. With labeled_boundaries=False all ids come back as 1 (unlabeled_ids_violates). Printing and parsing of integers is taken as the identity; the geometry part of the file is not modelled. |
| C48 | proved | `support_numbering`, `support_accepted_iff` | np.argsort(kind=stable) enters by its documented contract Spec.StableArgsort. |
| C49 | partial | `extruded_rejects_iff`, `extruded_valid`, `extruded_evaluates`, `embedded_rejects_iff`, `embedded_evaluates`, `box_evaluates`, `fromBounds_evaluates`, `parametricView_identity_partial`, `parametricView_rational_violates` | Extrusion, embedding, box, from_bounds are proved for all splines. parametric_view is the identity map except with conform=True on rational splines, where the copied weights change the map (violation with witness); elevate_degrees and insert_knots enter as operations that keep points. |
| C50 | proved | `revolved_evaluates`, `turned_distance_plane`, `turned_distance_space`, `revolved_rejects_iff`, `knotSpans_spec` | For every rational spline, axis, center, angle and number of knot spans, over the reals; gustaf's rotation matrix is not in the repository and is modelled by the formula of Rodrigues. |
| C51 | partial | `orientation_exact`, `orientation_swap`, `orientation_rejects_iff`, `orientation_zero_tolerance_violates`, `orientation_skewed_violates` | Exact over the reals for every dimension, every permutation and flips of the axes, if no two axes of a patch are parallel up to the tolerance; false for zero tolerance and for nearly parallel axes (negations proved). Jacobians (external evaluation) enter as inputs. |
| C52 | partial | `valid_queries_iff`, `valid_queries_raises_iff`, `valid_queries_above_names`, `valid_queries_below_names_violates`, `valid_queries_empty_violates`, `clamped_iff` | The decision is exact for every non-empty list of queries; the message for the lower bound may name a wrong dimension and an empty list raises (negations proved). |
| C53 | proved | `basis_physical`, `field_physical`, `basis_shape`, `field_rejects_iff`, `physical_exists`, `physical_unique`, `init_accepts_iff`, `basis_calls_physical`, `field_calls_physical`, `calls_succeed_iff` | Stated with Mathlib derivatives: for every query where geometry and basis functions are twice continuously differentiable and the Jacobian is invertible. The derivatives returned by the two splines and np.linalg.inv enter as contracts (Spec.Returns, Spec.Inverts). |
| C54 | proved | `matrix_entry`, `matrix_zero`, `dense_eq_sparse`, `matrix_times_cps`, `repeated_supports_differ` | scipy csr_array modelled as summing duplicates. |
| C55 | partial | `extract_interval`, `extract_interval_bezier`, `extract_section`, `extract_section_bezier`, `extract_rejects_axis`, `rejected_axes`, `negative_axis_violates`, `extract_jump_violates` | knot insertion of BSplineLib enters as the contract Spec.Inserted, required only for the splines that occur. Partial because the code violates two parts: negative axes pass the checks and reach the C++ core with a negative dimension (negative_axis_violates), and at an inner end b with more than degree repetitions the piece ends at the limit from the left, not at the point of the spline (extract_jump_violates). Everywhere else the interval is covered including both ends. |
| C56 | proved | `insert_knots_flags`, `py_insert_knots_range` | For every list of queries and every behaviour of the external insertion that adds at most the requested number of copies in order; distinct queries machine epsilon apart. |
| C57 | proved | `bezier_extraction_exact`, `chain_preserves` | Clamped knot vectors, degree >= 1, distinct knots at least the tolerance apart, parameters in the half-open span; multiplicities of the refined knot vector (external DetermineMultiplicities) enter as their specification. |
| C58 | partial | `flag_race_violates`, `flags_uninterrupted_partial` | Violated by the code: concurrent writes to neighbouring bits of std::vector<bool> lose updates (negation proved by an interleaving); without interference between the two halves of a bit write the flags are correct. |
| C59 | partial | `set_patches_not_atomic_violates`, `set_patches_partial` | Violated by the code: the rejected patches stay and fields are lost (negation proved); accepted lists are taken over completely. |
| C60 | proved | `boundaries_exact` |  |
| C61 | partial | `elevate_degrees_counts`, `elevate_degrees_not_atomic_violates`, `elevate_degrees_empty_violates`, `reduce_degrees_sequence`, `reduce_degrees_invalid_violates` | Counts proved for every list of valid directions; a list with an invalid direction may raise after elevating others, and an empty list is undefined behaviour (negations proved). The counterpart reduce_degrees applies the requests one after the other and answers in their order; it too raises after changes. |
| C62 | partial | `edit_reaches_spline_partial`, `edit_after_construction`, `edit_after_refinement`, `stale_parameter_space_violates` | Proved when the saved knot vectors do not belong to an earlier core, in particular after construction and refinement; false after assigning control points, weights or degrees (negation proved). |
| C63 | proved | `fit_interpolates`, `fit_endpoints`, `fit_minimises`, `fit_curve_interpolates`, `fit_curve_endpoints` | One coordinate at a time, under the contract that the linear solver returns a solution of the normal equations. |
| C64 | proved | `surface_control_points`, `surface_interpolates` | For every pair of line fits returning the right number of control points. |
| C65 | proved | `withKnotVectors_evaluates`, `withWeights_evaluates` |  |
| C66 | proved | `line_evaluates` |  |
| C67 | partial | `arc_evaluates`, `arc_rejects_iff`, `arc_near_half_turn_violates`, `circle_evaluates`, `disk_evaluates`, `sphere_evaluates` | All geometric statements hold; creation of an arc raises in a window of 1e-11 below half a turn, for which the negation is proved and the exact set characterised. |
| C68 | partial | `surfaceCircle_boundary`, `plate_eq`, `plate_radius_violates` | surface_circle is exact; the plate is smaller by the factor sqrt 2, which is proved as the violation. |
| C69 | partial | `torus_evaluates_partial`, `torus_degrees_ignored_violates`, `torus_quarter_violates`, `torus_solid_section_violates` | Holds for disk sections with angles in radians, both given or both omitted; violated if exactly one angle is given in degrees, and solid tori below half a turn cannot be created with the default number of knot spans. |
| C70 | proved | `normalize_evaluates` | KnotVector.scale is in BSplineLib (not in the repository) and enters by its documented meaning. |
| C71 | partial | `history_consistent`, `raise_keeps_state`, `history_usable_partial`, `setMesh_outcome`, `other_dimension_violates`, `other_dimension_always_violates`, `removed_spline_violates` | Consistency holds for every history. Usability fails after assigning a mesh of another dimension while a mesh is set (raises, and the spline is lost), and after removing the spline. |
| C72 | proved | `create_fields_aligned` | The tile enters as contract Spec.Creates (create_tile returns one list of derivatives per requested slice, as long as the tile); compose and composition_derivative are parameters. |
| C73 | partial | `create_macro_response_partial`, `macro_rational_violates`, `macro_polynomial` | Exact linear response for every control point and perturbation. Bezier composition (control points are linear in those of the outer patch, Spec.composed) and the knot insertion matrices enter as parameters; C114 proves what the matrices of the code give, in terms of basis functions. With a rational deformation function or tile the call always raises (macro_rational_violates): the fields are constructed without weights. |
| C74 | partial | `closing_tiles_partial`, `closing_tiles_violates` | Holds for at least two layers of elements in the closing direction; with a single layer no tile is closed at the upper end (closing_tiles_violates). |
| C75 | partial | `cross2D_derivatives`, `cross2D_closing_derivatives`, `double_lattice_derivatives`, `hollow_cube_derivatives`, `cross3D_derivatives`, `cross3D_linear_derivatives`, `cross3D_closing_derivatives`, `cross3D_linear_closing_derivatives`, `cube_void_derivatives_partial`, `cube_void_derivatives_violates`, `ellips_void_derivatives_partial`, `ellips_void_derivatives_violates`, `chi_derivatives_violates` | Proved in full for Cross2D, DoubleLattice, HollowCube, Cross3D and Cross3DLinear with their closing tiles. CubeVoid and EllipsVoid: proved for sensitivities without rotation about y, false for all others (with r_yz nonzero); Chi: false for every sensitivity other than 1 and -1. |
| C76 | partial | `cross2D_in_unit_square`, `double_lattice_in_unit_square`, `hollow_octagon_in_unit_square`, `snappy_in_unit_square_partial`, `snappy_in_unit_square_violates`, `hollow_cube_in_unit_cube`, `cross3D_in_unit_cube`, `cross3D_linear_in_unit_cube`, `chi_in_unit_square`, `cube_void_in_unit_cube_partial`, `cube_void_in_unit_cube_violates`, `ellips_void_in_unit_cube_partial`, `ellips_void_in_unit_cube_violates`, `armadillo_in_unit_cube`, `hollow_octagon_extrude_in_unit_cube`, `inverse_cross_3D_in_unit_cube_partial`, `inverse_cross_3D_in_unit_cube_violates` | Proved for all accepted arguments of Cross2D, DoubleLattice, HollowOctagon, HollowOctagonExtrude, Chi, HollowCube, Cross3D, Cross3DLinear, Armadillo with closing tiles. InverseCross3D: true for separator distances up to 1/2, false for every accepted larger one. Snappy: true for b <= 1/2, false for an accepted b > 1/2. CubeVoid and EllipsVoid do not check their radii: true for small radii and all angles, false in general. |
| C77 | partial | `cross2D_joins`, `double_lattice_joins`, `hollow_octagon_joins`, `snappy_joins_partial`, `snappy_joins_violates`, `hollow_cube_joins`, `cross3D_joins_partial`, `cross3DLinear_joins_partial`, `cross3D_joins_violates`, `armadillo_joins`, `hollow_octagon_extrude_joins_partial`, `hollow_octagon_extrude_joins_violates`, `inverse_cross_3D_joins_partial`, `inverse_cross_3D_default_joins`, `cube_void_joins_partial`, `ellips_void_joins_partial`, `cube_void_joins_violates`, `chi_joins` | Proved for Cross2D, DoubleLattice, HollowCube with closing tiles; HollowOctagon up to the direction in which some faces of closing tiles are numbered; Cross3D and Cross3DLinear for radii below the largest accepted one (at the largest one branches collapse onto the sides, cross3D_joins_violates); Snappy except for a = 0, b = 0 and b = 1/2 (snappy_joins_violates). Armadillo, HollowOctagonExtrude and InverseCross3D: up to the numbering of the control points of the common faces; Armadillo with all closing faces; HollowOctagonExtrude has one parameter for all sides, the sides in z agree only for equal parameters (…_violates); InverseCross3D with the default separator for all accepted parameters, with other separators if separator and middle stay below 1/2. Chi for all angles; CubeVoid and EllipsVoid for voids that stay inside of the cell for every rotation, false for voids that reach a side (cube_void_joins_violates). |
| C78 | partial | `cross2D_closes`, `hollow_octagon_closes`, `cross3D_closes_partial`, `cross3DLinear_closes_partial`, `cross3D_closes_violates`, `cross3DLinear_closes_violates`, `hollow_cube_closes_violates`, `hollow_octagon_closing_violates`, `armadillo_closes`, `hollow_octagon_extrude_closes_violates` | Full for Cross2D, HollowOctagon and Armadillo. Cross3D and Cross3DLinear: only for boundary_width <= 1/3, larger accepted widths leave a gap (…_violates). HollowCube and HollowOctagonExtrude take a closure and ignore it. The closing tiles of InverseCross3D are meant to leave the side open for the closed Cross3D tile. HollowOctagon refuses to close for contact parameters up to 0.01 for which it creates ordinary tiles. Tiles without closing tiles are otherwise not covered. |
| C79 | partial | `dof_mapping_order`, `dof_mapping_rejects`, `dof_mapping_violates` | All resolutions with at least two control points per direction; a direction with one control point (degree 0) gives repeated ids (dof_mapping_violates). |
| C80 | partial | `load_export`, `read_solution_partial`, `read_solution_violates` | Round trip of export and load: proved in full for files as lists of tokens. read_solution: control points are right, but the weights of the reference are permuted although they are in the order of splinepy already (read_solution_violates); they are right if all weights are equal (read_solution_partial). |
| C81 | proved | `export_cartesian_topology`, `export_cartesian_patches`, `export_cartesian_rejects` | close_rows of gustaf enters as the contract Spec.Numbers (equal numbers iff close). The text of the file is modelled as rows of numbers. |
| C82 | partial | `irit_round_trip_partial`, `irit_spline_class_violates`, `irit_dim_violates` | Exact for every list of splines of the four kinds with at most nine components per point and weights different from zero; the text is modelled as tokens. Objects of class Spline are lost without an error (irit_spline_class_violates); files with points of ten or more components cannot be loaded (irit_dim_violates). |
| C83 | partial | `expand_tabs_content`, `expand_tabs_violates`, `expand_tabs_copy_violates` | The code violates the property: the result of replace is discarded, and copies are written next to the directory. |
| C84 | partial | `cats_round_trip_partial`, `cats_round_trip_nurbs`, `cats_spline_class_violates` | Exact for every list of splines of the four kinds; text is modelled as lists of numbers. Objects of class Spline cannot be written (cats_spline_class_violates). That the converted splines are the same maps is C65. |
| C85 | proved | `gismo_round_trip` | For every list of splines of the four kinds in both encodings; bytes of float64 enter by the contract Spec.Float64, printed numbers are taken to be exact. Splines of class Spline are outside of the quantifier. That Bezier splines with knots are the same maps is C65. |
| C86 | partial | `options_round_trip_partial`, `options_stable`, `options_tag_violates`, `options_grow_violates` | Holds for trees of any depth if no top level tag starts with MultiPatch or Geometry; such options are lost (options_tag_violates). With labeled_boundaries=False the written boundary conditions come back as an additional option (options_grow_violates). |
| C87 | partial | `binary_reads_partial`, `binary_reads_violates` | Only float64 is read correctly; the type found for the declared format is not used (binary_reads_violates). |
| C88 | partial | `determinant_spline_evaluates_partial`, `determinant_spline_positive_partial`, `determinant_spline_knots_evaluates_partial`, `determinant_spline_knots_positive_partial`, `determinant_spline_rejects`, `determinant_spline_linear_violates` | Proved for Bezier splines and for splines with clamped knot vectors and continuous derivative, non-rational or with equal weights, in every dimension. Linear splines in one dimension violate the property: the determinant has degree 0 and the Greville abscissae divide by the degree (determinant_spline_linear_violates). Not covered: inner knots of multiplicity at least the degree (the Jacobian is not defined there), and distinct knots closer than the tolerances. The Jacobian enters by the derivatives of the spline (Spec.Jacobian, Spec.JacobianOn), the linear solver by the contract Spec.Solver; that both exist is proved (jacobian_exists, jacobianOn_exists, solver_exists). |
| C89 | partial | `boundary_restricts`, `boundaries_listed`, `curve_rejected`, `unclamped_boundary_violates` | Proved for every valid spline whose knot vector is clamped at the face (end knot exactly degree + 1 times; always for Bezier splines). The code does not check this, and the boundary of an unclamped spline is not on the spline (unclamped_boundary_violates). |
| C90 | proved | `edges_draw_knot_lines`, `edges_on_spline`, `curve_edges_draw` | range_to_edges and concat are functions of gustaf and enter by their documented results. Rounding of linspace is not modelled. |
| C91 | partial | `surface_faces_draw`, `patch_cells_draw`, `multipatch_faces_draw`, `volume_faces_on_boundary`, `multipatch_resolutions_violates`, `multipatch_volume_faces_draw` | Before merging of vertices (gustaf). make_quad_faces of gustaf enters by its documented result, make_hexa_volumes as any connectivity with numbers of the patch. For three parametric directions the knot vectors have to be clamped (see C89). A list of resolutions for a multipatch of surfaces is documented but raises, for every list (multipatch_resolutions_violates). |
| C92 | partial | `bases_graph`, `bases_view`, `bases_parametric`, `bases_partition`, `bases_ids`, `bases_rational_violates` | Full for parametric_view=False, and for the parametric view of polynomial splines (bases_parametric). The conforming view of rational splines does not evaluate to its parameters, so the statement fails there (bases_rational_violates). |
| C93 | proved | `png_round_trip`, `png_written_iff` | zlib enters by its documented results: decompress inverts compress, crc32 is the same function for reader and writer. The base64 encoding around the bytes is not modelled. |
| C94 | partial | `flip_evaluates`, `flip_jump_violates` | Proved for axes whose inner knots occur at most as often as the degree. At knots where the spline jumps the statement fails, because both splines take the value from the right (flip_jump_violates); axes listed twice: see C41. |
| C95 | partial | `curve_path_draws_partial`, `surface_path_draws_partial`, `cubic_path_violates` | Degree elevation and Bezier extraction enter by contracts on a class of curves (example_contracts shows that the Bezier family meets them; extraction is C57). Rational curves and degrees above three go through a least-squares fit and are only approximated (see C142); for degree three the code elevates by an empty list of directions, whose result is undefined (cubic_path_violates); coordinates are printed with finitely many digits. |
| C96 | proved | `spline_within_control_points`, `drawn_in_view`, `view_tight`, `window_exists` | Positions only: line widths, radii of circles, texts and arrows can stick out by their size (arrows: see C101). The path draws the spline itself by C95. |
| C97 | proved | `curve_mesh`, `surface_mesh` | Positions only; decimal representation not modelled. |
| C98 | partial | `scalar_bar_place`, `scalar_bar_below_iff`, `scalar_bar_violates`, `ticks_agree` | The place of the bar and the ticks are proved; that the bar does not cover the picture is false for wide pictures (scalar_bar_violates; scalar_bar_below_iff says exactly when). The colours themselves come from vedo. |
| C99 | proved | `colour_round_trip`, `colour_range_violates` | For colours in the documented range; outside of it the result is no colour (colour_range_violates). |
| C100 | partial | `crop_moves_partial`, `crop_some_iff`, `crop_violates` | The crop starts at the right row and column but always loses the last visible row and column (crop_violates). |
| C101 | partial | `arrows_drawn_partial`, `arrow_shape`, `arrow_tip`, `no_arrows_violates`, `arrow_outside_violates` | Full if an arrow colour is set or some vector is longer than the tolerance; otherwise the export raises (no_arrows_violates). Arrows can leave the picture (arrow_outside_violates). |
| C102 | partial | `export_keeps_options_partial`, `show_keeps_options_partial`, `failed_export_violates`, `failed_export_changes_violates` | Holds for calls that do not raise; a call that raises leaves the options of the call (failed_export_violates). |
| C103 | partial | `spline_field_matches`, `function_field_matches_partial`, `volume_field_matches`, `volume_function_violates`, `argument_name_violates`, `stale_bounds_violates`, `multipatch_field_matches`, `multipatch_function_violates`, `multipatch_volume_matches_partial`, `jump_violates`, `constant_violates` | Proved for spline data with the bounds of the spline (in three dimensions clamped), and for functions whose second parameter is called on, on curves and surfaces whose bounds have not changed. The other cases are false: see the violations. Multipatches of curves and surfaces: proved for a multipatch as data, false for functions, which are evaluated on the first patch only. Multipatches of volumes: proved if the data have the same outer faces as the multipatch; false otherwise, since the outer faces of the data are detected from their values (data that jump between the patches are sampled on inner faces, constant data raise). Fixed locations are in C140. |
| C104 | partial | `composition_derivative_chain`, `composition_derivative_sum`, `composition_derivative_accepts_iff`, `composition_derivative_rational_violates`, `operations_exist`, `composition_derivative_sample` | For every family of inner functions with the given derivative, what composition_derivative computes is the derivative of the composition at every parameter mapped into the unit cube (bezman's operations under a pointwise contract, which exact polynomial arithmetic meets: operations_exist). It is computed exactly under the conditions of composition_derivative_accepts_iff. Violated: for a rational outer function and a polynomial inner derivative it always raises (products need equal spline kinds). |
| C105 | partial | `product_values_partial`, `sum_values`, `product_commutes_violates`, `times_number_partial`, `times_number_values`, `times_number_rational_violates` | Products and sums are pointwise whenever computed, with the exact conditions. Violated: scalar * vector raises while vector * scalar works; RationalBezier * float always returns an object without a spline because the weights are left out; mixed kinds raise. |
| C106 | partial | `pyramid_evaluates`, `cone_solid_partial`, `cone_surface_partial`, `cone_tiny_violates` | Pyramids: proved in full. Cones: proved for every height above the tolerance of np.isclose (about 1e-8); for smaller heights, however large the base, all control points are moved to the apex (cone_tiny_violates). |
| C107 | partial | `cross2D_oriented`, `cross2D_closing_oriented`, `double_lattice_oriented`, `hollow_octagon_oriented`, `cross3D_oriented_partial`, `cross3DLinear_oriented_partial`, `cross3D_closing_oriented`, `cross3DLinear_closing_oriented`, `snappy_oriented_partial`, `cube_void_oriented_partial`, `cross3D_oriented_violates`, `snappy_oriented_violates`, `cube_void_oriented_violates`, `hollow_cube_oriented_violates`, `hollow_cube_tangled_violates`, `hollow_octagon_extrude_oriented`, `inverse_cross_3D_oriented_violates`, `inverse_cross_3D_tangled`, `armadillo_oriented`, `ellips_void_oriented_partial`, `ellips_void_oriented_violates` | Cross2D, DoubleLattice, HollowOctagon with all their closing faces, and the closing tiles of Cross3D and Cross3DLinear: proved for all accepted parameters. Cross3D and Cross3DLinear without closing face: proved when the middle does not fill the cell; with all radii at the accepted bound the arms have no volume (violates). Snappy: proved for positive a, b, r, which may be zero (violates). CubeVoid: proved without rotation for voids strictly inside of the cell; a rotation by pi tangles the patches (violates). HollowCube: for every accepted parameter the first patch has a negative determinant where the fifth has a positive one (violates), and a single patch may be tangled (violates). HollowOctagonExtrude and Armadillo with all closing tiles: proved for all accepted parameters (for Armadillo the determinants of the coded control nets at the extreme values of the two parameters are computed in the kernel, and every determinant is a combination of them with positive weights). InverseCross3D with the default separator: no accepted tile satisfies the property, the determinant is zero at a corner (violates) and negative if the radius is above 1/5 (inverse_cross_3D_tangled). EllipsVoid: proved without rotation for radii below 4 sqrt(3) / 7, where the void reaches the sides of the cell; above it a patch is turned inside out (violates). |
| C108 | partial | `export_load`, `convert_keeps_partial`, `convert_round_trip`, `extension_refused`, `failed_export_keeps_partial`, `load_svg_refused`, `convert_from_xml_violates`, `convert_to_mesh_violates`, `failed_export_violates` | Proved for json, npz and irit files as output and any input that loads as a list of splines or one spline. The code violates the rest: converting a gismo file always raises (load returns a pair), converting to an mfem file always raises (a list is handed over), a failed irit export has already truncated the output file. Contents of gismo, mfem, iges and svg files are abstract here. |
| C109 | partial | `inverse_cross_fits_cross_partial`, `inverse_cross_fits_cross_violates`, `inverse_cross_closing_fits_partial`, `inverse_cross_closing_violates` | Proved for ordinary tiles when no radius is larger than the radius of the middle: then no face of the two tiles together is free. For larger radii the inverse tile has faces that no patch of the cross tile has (violates). Closing tiles violate the property as stated with the default parameters (inverse_cross_closing_violates): the faces on the plate have different degrees. Up to degree elevation of faces they fit, for all accepted parameters with boundary_width at most 1/3, filling heights, expansions and separator distances (inverse_cross_closing_fits_partial). |
| C110 | partial | `armadillo_connected_partial`, `armadillo_x_min_connected_violates`, `hollow_octagon_extrude_connected`, `inverse_cross_3D_connected`, `cross2D_connected`, `double_lattice_connected`, `hollow_octagon_connected`, `snappy_connected`, `cross3D_connected_partial`, `cross3DLinear_connected_partial`, `chi_connected`, `cube_void_connected`, `ellips_void_connected`, `hollow_cube_connected_violates`, `cross3D_connected_violates`, `cross3DLinear_connected_violates` | Proved for Cross2D, DoubleLattice, HollowOctagon, HollowOctagonExtrude, InverseCross3D with their closing tiles, Snappy, Chi, CubeVoid, EllipsVoid, and for Armadillo except for the closing tile at x_min, one patch of which is attached to no other patch for every contact length other than twice the parameter (violates). Cross3D and Cross3DLinear: ordinary tiles and closing tiles with boundary_width up to 1/3; for all larger accepted widths the corner blocks are detached (violates). HollowCube: no two of its patches have a common face, for any accepted parameters (violates). |
| C111 | proved | `beziers_points`, `beziers_of_bezier`, `someInsert_inserts`, `missing_needed`, `runs_multiplicities` | BSplineLib's DetermineBezierExtractionKnots, InsertKnot and KnotMultiplicities by contract; the contracts are met by functions for all clamped splines (someInsert_inserts, missing_needed, runs_multiplicities). At the right end of a span whose knot occurs more than degree times (where the spline may jump) the patch is not compared with the spline. Distinct knots at least the tolerance apart. |
| C112 | partial | `microstructure_span_wise`, `microstructure_total_partial`, `neighbours_meet`, `contract_exists`, `composes_exists`, `microstructure_sample`, `microstructure_nothing_to_do_violates` | Proved for knot-span-wise tiling, and for total numbers of tiles when the first directions are those that need new knots. For the other total tilings the code violates the property: it raises if no direction needs knots (violates, for every deformation function), and it puts knots into the wrong direction (C37, tiling_shift_violates). knot insertion, Bezier extraction, evaluation and composition enter by contracts; all of them are shown to be satisfiable, composition for polynomial splines. Excluded: deformation functions that may jump (inner knots more often than the degree), knots closer than the tolerance. |
| C113 | proved | `volume_integral`, `volume_integral_bezier`, `integral_same_points`, `volume_raises`, `jacobians_exist` | Jacobians of Bezier patches, leggauss and the parts of BSplineLib behind extract.beziers enter by contracts, which are met by functions (jacobians_exist, C111, gauss2_ok for two points). The determinant is signed as in the code. Distinct knots at least the tolerance apart. |
| C114 | partial | `macro_fields_span_wise`, `macro_fields_total_partial`, `matrices_parts`, `fields_of_matrices`, `basis_composes_exists`, `macro_nothing_to_do_violates` | Proved for knot-span-wise tiling, and for total numbers of tiles when the first directions are those that need new knots; otherwise the code violates the property as in C112: it raises if no direction needs knots (violates), or puts knots into the wrong direction (C37). compose with compute_sensitivities enters by a contract, which is shown to be satisfiable for every tile patch (basis_composes_exists). Excluded: deformation functions that may jump, knots closer than the tolerance. |
| C115 | partial | `design_fields_span_wise`, `design_fields_total_partial`, `create_geometry`, `design_fields_sample`, `design_fields_rational_violates`, `design_fields_rational_sample`, `classes_exist`, `design_nothing_to_do_violates`, `tileAt`, `tiles_design_fields`, `cross2D_design_fields`, `double_lattice_design_fields`, `hollow_cube_design_fields`, `cross3D_design_fields`, `cross3D_linear_design_fields`, `cross2D_design_fields_sample` | Proved for non-rational deformation functions with knot-span-wise tiling, and for total numbers of tiles when the first directions are those that need new knots. Derivatives are two-sided on the set of steps for which the tile class accepts the moved parameters. Violated: with a rational deformation function create raises for every tile with non-rational derivatives (design_fields_rational_violates); it raises if no direction needs knots (design_nothing_to_do_violates). The tile class enters by a contract (Spec.TileAt), which is proved for Cross2D, DoubleLattice, HollowCube, Cross3D and Cross3DLinear with all closing tiles and every accepted parameter and sensitivity (cross2D_design_fields, ...), from C75 and C76; knot insertion, Bezier extraction, evaluation and composition by the contracts of C112 and C104. |
| C116 | partial | `watertight_prepared`, `seamless_of_fits`, `cross2D_watertight`, `double_lattice_watertight`, `hollow_octagon_watertight`, `hollow_cube_watertight`, `armadillo_watertight`, `cross3D_watertight_partial`, `cross3DLinear_watertight_partial`, `inverse_cross_3D_watertight_partial`, `hollow_octagon_extrude_watertight_partial`, `cube_void_watertight_partial`, `ellips_void_watertight_partial`, `chi_watertight`, `created`, `watertight_sample`, `cross3D_joins_violates`, `hollow_octagon_extrude_joins_violates`, `snappy_joins_violates`, `cube_void_joins_violates` | Whenever the microstructure is created. Full for Cross2D, DoubleLattice, HollowOctagon, HollowCube and Armadillo; Cross3D, Cross3DLinear and InverseCross3D for radii below the bound at which neighbours stop fitting, HollowOctagonExtrude for the same parameter everywhere: beyond that the tiles themselves do not fit (cross3D_joins_violates, hollow_octagon_extrude_joins_violates). Snappy tiles do not fit in y (snappy_joins_violates). Chi for all angles; CubeVoid and EllipsVoid for voids that stay inside of the cell for every rotation (false otherwise: cube_void_joins_violates). Library operations enter by the contracts of C112. Polynomial and rational deformation functions; total tilings as in C112. |
| C117 | partial | `evaluable_partial`, `calls_defined_partial`, `bezier_evaluable`, `rejected_control_points_violates`, `insert_nothing_violates`, `patch_assigned_violates` | Proved for all histories of Bezier splines. For B-splines proved for all histories of calls other than three, and each of the three is proved to make the next evaluation read freed memory, for all control points: assigning a wrong number of control points (the exception leaves the new array in the data of the spline and drops the one the core reads); insert_knots that inserts nothing (a knot at the bounds); assigning properties to a spline that is a patch of a multipatch. Memory of rational splines is in C138. Not modelled: deletions of splines and multipatches. |
| C118 | partial | `write_reaches_partial`, `write_defined_partial`, `array_kept_over_refinement_violates`, `bezier_array_kept_over_refinement_violates`, `same_count_violates`, `shared_core_violates`, `bezier_array_kept_over_assignment_violates` | Proved for all histories of connecting calls (Spec.Connecting). The excluded histories are proved to break the property for all data: an array kept while a B-spline is refined no longer reaches it, and for a Bezier spline writes to freed memory; refining and coming back to the same number of control points makes the next array write to freed memory, because cached pointers are compared by number only; of two splines with one core the array of one does not follow the other; an array of a Bezier spline kept while degrees are assigned shows values the spline is not evaluated with. Slices and other views of the array are in C25; rational splines are in C138. |
| C119 | partial | `read_stored_partial`, `field_numbers_stable`, `rejected_field_violates`, `new_patches_violates`, `rejected_adaptor_violates`, `derived_data`, `negative_field` | Proved for all histories of creating, deriving, adding fields and storing data, with any number of multipatches sharing lists of fields, as long as the multipatch is not given new patches after the assignment and the key is not assigned again. The rest is false, for all data: a rejected multipatch leaves its key, which then reads the next field that is added; new patches remove the fields but not the keys; a rejected adaptor is stored. Which fields are accepted is a parameter (see C18). |
| C120 | partial | `neighbours_connected_partial`, `class_connected_partial`, `connections_sound`, `centers_get`, `center_of_face`, `bezier_centers_get`, `chi_interfaces_violates` | For knot span wise tilings with the classes of C116, whenever no face center is close to two others (otherwise the detection raises, or closeness is not transitive, see C11). The patches made by composition are assumed to be Bezier splines with the parameters of the tile patches, a contract of the library. False for Chi: the four curves of a cell start in one point, so the detection always raises (chi_interfaces_violates). Classes that do not fit together (see C116) are not covered. |
| C121 | partial | `evaluate_batch`, `derivative_batch`, `jacobian_batch`, `support_batch`, `basis_batch`, `basis_and_support_batch`, `basis_derivative_batch`, `basis_derivative_and_support_batch`, `proximities_batch_partial`, `plantTree_spec`, `multipatch_batch_partial`, `multipatch_layout_violates`, `resolutions_layout_violates` | Proved for all functions of a spline and arrays of any layout, under the exact condition of C09 on queries and threads. Violated by Multipatch.evaluate (queries in Fortran order or in a strided view are read in the order of the memory) and by the resolutions passed to proximities; both proved for C-contiguous arrays. |
| C122 | partial | `single_thread_raises_partial`, `no_error_returns`, `threads_violates`, `multipatch_raises_partial`, `multipatch_violates`, `proximities_without_tree`, `proximities_refused`, `field_mismatch_raises`, `field_invalid_violates`, `proximities_with_tree`, `empty_threads_violates` | Proved for one thread, and for mismatching fields with any safe number of threads. With two or more threads an exception inside of a thread ends the process, proved for every schedule and every position of the failing item: lists with something that is no initialised spline, invalid lists of fields, proximities with a negative resolution before a tree exists. That an exception leaving a std::thread ends the process is the C++ contract. |
| C123 | partial | `counts_kept_partial`, `distinct_of_nodup`, `shared_object_violates` | Proved for every interleaving if no object is handled by two threads, in particular for lists without repetitions. A spline (or None) listed twice and handled by two threads can lose a reference: a concrete interleaving is given. That list accessors change the count by a load and a store is the contract of pybind11 and CPython. |
| C124 | partial | `settings_kept_partial`, `determine_uses_tolerance`, `tolerance_leaks_violates`, `threads_leak_violates`, `stored_interfaces_violates`, `second_tolerance_ignored_violates`, `orientations_violates`, `recomputed_orientations` | Proved for histories in which no call raises, and for determine_interfaces(tol, recompute=True). Violated, for all data: after an exception the tolerance (number of threads) of the call stays; stored interfaces and orientations are returned whatever the tolerance; after interface_orientations has raised the next call returns the unfinished array. |
| C125 | partial | `careful_reads_elements`, `contiguous_reads_elements_partial`, `strided_violates`, `layout_independent_iff`, `elements_unique` | Exact: layout_independent_iff says for which calls it holds. elevate_degrees, reduce_degrees, split, both knot assignments and the interfaces setter read strided arrays of the right dtype wrongly; proved for all calls with C-contiguous arrays. Queries are in C121. |
| C126 | partial | `property_current_partial`, `failed_reduction_violates`, `failed_elevation_violates`, `refused_first` | Proved for histories in which no call raises (a failed reduction is assumed to leave the core as it was). Violated by calls that raise after having changed a direction: stored properties are not cleared; for reduce_degrees proved for every spline. |
| C127 | partial | `create_uses_latest_partial`, `order_irrelevant`, `assignment_reports`, `create_made`, `refused_kept_violates`, `integer_tiling_violates`, `total_changes_tiling_violates`, `parametrization_stays_violates` | Proved: create uses the last values and works exactly if they fit, in every history with one parametric dimension per microstructure and tiles per knot span; the order is irrelevant if every setting is assigned once; errors are reported by the assignment. Fails: refused values are kept, an integer tiling is fixed to the first dimension, create with total numbers writes into the list of the user, a parametrization can not be removed. |
| C128 | proved | `copy_independent`, `apart_undisturbed`, `share_violates`, `beziers_violates` | For every history before and every interleaved history afterwards, for both kinds of classes. The two negations are about other ways to make a spline from a spline: type(s)(spline=s) and extract.beziers() of a Bezier spline give splines that are not independent. Not in the model: spline_data (documented as shallow), show_options, caches in _data. |
| C129 | partial | `index_bijective`, `frees_once`, `frees_all`, `write_read_partial`, `moved_from_violates`, `self_move_violates` | Index arithmetic, single free and absence of leaks are proved for all histories. Writing is proved for arrays that own their memory (views are only as long-lived as what they view). Negations: an array that was moved from keeps the pointer and may not even be assigned to, and moving an array into itself frees its elements. |
| C130 | partial | `printed_once`, `delivered_all`, `written_once_partial`, `earlier_file_violates` | Printing and the user's own handlers are proved for all histories; writing for the log file of the latest configure. Negation: every later configure silently removes the log file, because FileHandler is a StreamHandler. Python's logging is represented by its documented rules; the root logger is not modelled. |
| C131 | partial | `slsqp_stops`, `slsqp_inside`, `slsqp_descends`, `rank_one_update`, `bfgs_update`, `workspace_accepted`, `slsqp_points_inside`, `slsqp_updates`, `slsqp_remembers` | All statements for arbitrary values of the objective, arbitrary gradients of the right length and arbitrary results of the quadratic subproblem (slsqp_updates: results whose mode is not -1, which lsq never returns). Partial: exact arithmetic, and besides the BFGS update the matrix may be reset to the identity when there is no direction of descent (slsqp_updates). The solver of the subproblem enters as an arbitrary function here; the modelled one is in C133. |
| C132 | partial | `dumps_iff`, `roundtrip_partial`, `history_roundtrip_partial`, `created_rebuildable`, `read_knots_violates`, `moved_knots_violates`, `options_violates` | Whenever a spline can be pickled and its properties pass the checks of the constructor, which is so after every history without in-place changes of knots, loading gives the same spline. Violated: after reading knot_vectors no spline with knot vectors can be pickled (for every spline); a spline with knots below -1 is pickled but cannot be loaded; show options and spline data are lost. |
| C133 | partial | `direction_exact`, `attempt_exact`, `slsqp_reports`, `edge_ends`, `nnls_stops`, `nnls_optimal`, `nnls_defined`, `ldp_spec`, `lsi_spec`, `lsq_spec` | In exact arithmetic with an exact square root. Proved for all numbers of variables, bounds, positive definite models and gradients; memory of the work arrays is arbitrary. Partial: the solver may give up (mode 3: more than 3n exchanges; mode 5: a pivot below 2.22e-16), and then nothing is claimed about the step; the augmented problem of lsq is not modelled because it is shown not to be used; hfti and equations are not modelled. |
| C134 | partial | `of_answer`, `union_answer`, `intersection_answer`, `all_kinds_partial`, `all_kinds_violates`, `by_dim_answer`, `everything_answer`, `get_answer`, `answers_stay` | Proved for every history, except for union() and intersection() without arguments: they return the attribute of the class itself, so that a caller who changes the answer changes all later answers, and with them required_properties of splines of user defined classes (all_kinds_violates). Proved for them as long as no caller changes such an answer. |
| C135 | partial | `create_exact`, `null_lookup_exact`, `null_lookup_partial`, `null_more_violates` | Creation is proved in full for both builds. Placeholders: proved for the build without SPLINEPY_MORE; in the default build the sizes of the table are interchanged, and for all dimensions from 4 to 10 the table is left (undefined behaviour). |
| C136 | partial | `field_evaluate`, `field_unchecked_violates`, `field_sub_multipatch_violates`, `field_boundary_multipatch_violates`, `field_sub_multipatch_partial`, `field_boundary_multipatch_partial` | Evaluation is proved for every accepted field with the check of the dimensions (the default), in every order of the steps. Without it the zeros can be written beyond the array. Boundaries of a field with a left out patch are never available: KeyError, or an access outside of the table for curves; proved for fields without left out patches. |
| C137 | partial | `changes_only_shared`, `independent_partial`, `copy_unshared`, `boundary_refine_violates`, `boundary_edit_violates`, `assign_object_violates` | For all histories a call changes another spline only through a knot vector object both refer to, and a copy shares nothing. Independence and consistency are proved for histories without boundary extraction and without assignment of knot vector objects. Violated: a boundary of a B-spline or NURBS keeps the knot vector objects of its parent. After any refinement of the parent along the face the boundary has too few control points for its knots and evaluating it reads beyond them; any edit of the knots of the boundary changes the parent; and assigned knot vector objects stay shared. That refinement changes the knot vectors in place, and that the removed dimension leaves the others shared, is the contract of BSplineLib (as stated in the comment in extract.hpp). |
| C138 | partial | `arrays_reach_partial`, `rational_calls_defined_partial`, `rational_evaluable`, `refined_control_points_violates`, `refined_weights_violates`, `refined_back_violates`, `rejected_degrees_violates`, `weights_lost_violates` | Evaluation is proved for all histories. The arrays are proved for all histories of connecting calls (Spec.Connecting: numbers agree, weights are not zero, arrays are released before degrees or knots are assigned and before refinement, no refinement back to an earlier number). Proved to break the property: an array of control points or of weights kept over a refinement writes to freed memory; so do arrays read after refining and back; after a rejected assignment of degrees the weights become read-only; weights assigned after a refinement are lost. One spline object: sharing of cores is in C118 and C137. Over a field (exact arithmetic). Zero weights are outside (the code divides by them). |
| C139 | partial | `left_out_violates`, `complete_degrees_partial`, `complete_control_points_partial` | Holds for every class when the degrees are left out, and for Spline when the control points are. Violated by BSpline, NURBS, Bezier and RationalBezier: if control points, required knot vectors or required weights are left out, everything given before is forgotten, the degrees too, and the spline stays unusable through any sequence of other assignments. |
| C140 | partial | `spline_arrows`, `sequence_arrows`, `function_arrows_partial`, `construct_iff`, `check_iff`, `two_places_raise`, `multipatch_arrows`, `list_places_violates`, `argument_name_violates`, `type_error_violates`, `multipatch_sequence_violates` | Proved for splines as data (exactly when it raises), sequences, functions and multipatches. Violated: places given as a list or tuple, which the option accepts, always raise; functions with the documented parameter names raise with arrow_data_on; a TypeError inside of a function is taken for a wrong number of arguments, and the values of another call are shown; on multipatches a sequence with one value for each place has too few values. The evaluation of splines is a parameter; that gustaf refuses data of a wrong length is not modelled. |
| C141 | partial | `control_mesh_lines`, `multipatch_control_mesh_lines`, `control_mesh_none`, `control_mesh_flat_violates` | Proved for nets with at least two control points in each direction. With one control point in a direction (degree 0) there are no cells and no lines, although there are neighbours in the other direction (control_mesh_flat_violates). range_to_edges, make_quad_faces, make_hexa_volumes, concat and to_edges of gustaf enter by their documented results. |
| C142 | partial | `approximate_bspline`, `approximate_ok`, `refine_ok`, `fitCubic_ok`, `libraries_exist`, `corner_violates`, `domain_violates`, `unclamped_violates`, `needsFit_iff` | Proved for continuous curves with clamped knots and parameters from 0 to 1, except for corners. Corners are lost: the fit takes only the number of the prepared knots, so that every inner knot is simple (corner_violates). For other parameters the fit still lives on 0 to 1: samples lie outside of it, and with inner knots and parameters above 1 its knot vector is not sorted (domain_violates). For knot vectors that are not clamped the export raises (unclamped_violates). Exact arithmetic; basis functions and the solver enter by Spec.Libraries, shown to be satisfiable; the sampled curve is an arbitrary function. |
| C143 | partial | `plain_vertices`, `coloured_vertices_partial`, `labels_partial`, `ids_partial`, `control_parts`, `coloured_vertices_violates`, `labels_violates`, `ids_violates` | Control points of splines: proved for all options. Vertices: proved for one value and one label each. Violated: values with several components are flattened, so that vertices get colours of other vertices (coloured_vertices_violates); with too few labels the last vertices silently have none; vertex_ids=False exports the numbers. The colour map is an arbitrary function of a value. |
| C144 | partial | `shown_partial`, `showable_eq`, `multipatch_violates`, `panel_violates`, `ffd_shown_partial`, `ffd_gustaf_violates`, `ffd_alpha_violates`, `ffd_message_violates`, `window_panels` | Holds for splines (all options, keyword arguments and forms) and other calls for multipatches. Fails for multipatches with parametric space (raises) or places of arrows (ignored), for keyword arguments in the parametric panel (ignored), for FFD.show(return_gustaf=True) (backend objects), for the transparency of the FFD spline (overwritten) and for FFD objects without one of mesh and spline (attribute error). The sampling itself is the subject of other properties; gustaf and vedo are external. |
| C145 | partial | `shown_elements`, `effect`, `warning_violates` | Holds except for the warning: it says that the output file is ignored, but the picture is written (warning_violates). Loading and gustaf's window are external; objects are shown by make_showable (C144). |
| C146 | partial | `uniform_refine_partial`, `uniform_refine_all`, `uniform_refine_mismatch`, `partly_refined_violates`, `negative_direction_violates`, `negative_count` | Proved for every request whose directions exist. A direction that does not exist raises only after the directions before it have been refined; a negative direction passes all checks and reaches the core (undefined behaviour). |
| C147 | partial | `extract_planes_partial`, `extract_planes_bezier_partial`, `extract_planes_order`, `extract_planes_forms`, `extract_jump_violates` | Proved for splines with and without knot vectors, for planes not closer than the tolerance to other knots and sections of clamped directions. At the end of an interval where the spline jumps the result has the limit from the left (extract_jump_violates, the same for the call with one axis). insert_knots of BSplineLib enters by its contract, as in C55; negative axes are the subject of C55. |
| C148 | partial | `slice_reads`, `slice_reads_int`, `item_reads`, `array_reads`, `iterate_partial`, `refined_iteration_violates` | Proved except for one case: if knots are inserted or removed during an iteration, the iterator reads from storage that the vector has given back (undefined behaviour), refined_iteration_violates. Indexing, slices and copies are proved in full, for less than 2^63-1 knots (2^31 where the index is converted to int). That a refinement invalidates the pointers is the rule of std::vector. |
| C149 | partial | `curve_returns_partial`, `curve_returns_iff`, `surface_returns_partial`, `one_coordinate_violates`, `verbose_violates`, `listed_queries_violates` | Proved for several coordinates or without scipy; for curves the exact condition is given. Violated: with scipy, points with one coordinate raise in every interpolation and in every approximation with more than three control points; verbose_output=True always raises (splines have no knot_vector); fit.surface raises for parameters in the documented form of lists. That spsolve returns a vector for one column is scipy's documented rule. |
| C150 | partial | `extrude_closing_partial`, `extrude_closing_returns`, `extrude_closing_oriented`, `extrude_closing_is_plane`, `extrude_closing_dimension_violates`, `extrude_closing_contact_violates` | Violated: every patch of closing_tile is two-dimensional although the class announces three dimensions (for all accepted calls), and the contact length is not checked (2 leaves the unit cell). With a contact length in (0, 0.99) the result is the closing tile of the plane octagon: in the unit square, connected, right-handed, closing the named side. |
| C151 | partial | `sample_partial`, `sample_uniform`, `sample_rejects`, `multipatch_sample_partial`, `multipatch_sample_first_violates`, `multipatch_sample_size_violates`, `sample_layout_violates` | Proved for thread counts for which the chunks stay inside the arrays (Spec.Safe; C09 shows that others do not). Violated: a multipatch uses only the first of several resolutions; a view of an int array (dtype of C++ int, so that pybind11 does not copy) is read without its strides. gustaf enforce_len enters by its rule: numbers are repeated, arrays must have the length. |
| C152 | partial | `style_follows_partial`, `style_curve_knots`, `shown_knots`, `knot_width_violates`, `mesh_alpha_violates` | Every option decides its own attribute and nothing else, and the marks of curves are at exactly the images of the knots. Violated: an integer as knot_lw is rejected (ignored by show), as float is listed twice as its type; the transparency of the control mesh is read under names that are no options, so it is 0.8 in windows and 1 in svg files whatever is set. |
| C153 | partial | `history_saved`, `show_current`, `show_saved_partial`, `options_kept_partial`, `show_options_violates`, `show_stale_violates` | After every history the saved microstructure is the last one made, and show draws it, or a new one of the current settings. Violated: use_saved after a change of settings shows an outdated microstructure beside the new deformation function and tile; show switches off the control points of the multipatch that create returned. |
| C154 | partial | `field_shown_partial`, `field_white_violates`, `field_column_violates`, `field_row_violates`, `field_channels`, `field_place`, `field_written_iff` | Partial: the last drawn row and column are lost (see also C100), white drawn pixels become transparent, drawings in one column raise and drawings in one row give a picture without rows. Assumes that zlib decompresses what it compressed; what the plotter draws is a parameter. |
| C155 | partial | `mismatch_returned`, `edges_partial`, `edges_violates`, `lengths_violates` | Partial: the lengths are asked for with the result of the sampling as key instead of the name. So no call returns edges if gustaf raises for keys without data, and otherwise the lengths are not those of the named data. gustaf is a parameter. |
