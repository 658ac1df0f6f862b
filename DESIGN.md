# Design: a Lean 4 model of OmarDuran/nfempy

## 1. Approach

* Shallow model: every modelled Python function is one Lean function, branch by branch.
  Exceptions are values (`Res α = Except Err α`); Python `None` is `Option`; mutation of an
  object in an array is a function returning the new array; loops are folds or structural
  recursion; unbounded recursion takes fuel, and running out of it is `RecursionError`.
* `Verif/Prelude.lean`: Python/numpy/networkx primitives (insertion ordered dict, `DiGraph`,
  sorting, indexing that may raise).
* `Verif/Model/*.lean`: the model; every definition cites file and lines in `/repo`.
* `Verif/Spec/*.lean`: the small vocabulary used to *state* properties.
* `Verif/Lemmas/*.lean`: helper lemmas.
* `Verif/Props/*.lean`: the property theorems `Cxx_…`, each near an `example` (or a named
  concrete case) showing that its hypotheses can be met, and followed by `#print axioms`.
* Theorems with the suffix `_partial` prove less than the English property.  Where the code
  violates it, a theorem proves the negation, for all inputs or for a concrete witness.

## 2. Numbers

Node tags, cell ids and dof indices are unbounded `Nat`/`Int` (no int64 overflow).  Coordinates,
weights and matrix entries are exact: elements of a commutative monoid, ring or ordered field, or
real numbers.  IEEE rounding is not modelled.  Tolerances are explicit parameters or are the
rational `1e-10` of `globals.py`.  `nan` is `none` where the code can produce it and uses it
(facet normals); where a degenerate direction gives `nan` and then only false comparisons, the
model has the direction 0, which gives the same comparisons (cut normals).

## 3. Trusted base

* Lean's kernel with the axioms `propext`, `Classical.choice`, `Quot.sound`; Mathlib's
  definitions used in statements (`segment`, `Matrix`, `Real`, …).
* That the model mirrors the Python text.
* `Prelude.lean`: dictionaries keep insertion order, `nx.DiGraph.from_edgelist` keeps edges once,
  `predecessors`/`successors` raise for unknown nodes, `np.unique` sorts.
* Parameters, i.e. not trusted, the theorems hold for any value satisfying the stated
  hypothesis: basix elements (`num_entity_dofs`, tabulations, entity transformations), the weak
  forms in the assembly, `np.linalg.qr`, `np.linalg.lstsq`, `np.argsort`, the index choice of
  `np.unique(..., return_index)`, `equitable_color`, the combination of Python's tuple hashes, the
  test that a centroid is on a segment, the convexity test and the Delaunay triangulation of
  polygons, the boundary points of a wire.
* Trusted data: the reference simplices, the connectivity of their facets and the values of
  their degree one shape functions; a PETSc matrix is an `n × n` table with additive
  `setValue`; the calls to gmsh are recorded as a list; auto_diff evaluates the form in dual
  numbers (value and vector of partial derivatives).

## 4. Coverage

| properties | model | source |
|------------|-------|--------|
| C01–C05 | `MeshBuild` | mesh.py `build_conformal_mesh` and the four `insert_*`, mesh_cell.py |
| C06, C10 | `MeshStore` | mesh.py `insert_cell_data`, `append_cells`, `duplicate_entity` |
| C07–C09, C56 | `MeshGraph` | mesh.py graph builders, mesh_topology.py, topological_queries.py |
| C11–C15 | `DofMap` | dof_map.py |
| C16–C20 | `Space` | discrete_space.py, product_space.py, finite_element.py |
| C21–C23 | `Assembly` | ScatterFormData.py, SequentialAssembler.py |
| C24–C26 | `Projector`, `L2Form` | projectors.py, l2_projector_weak_form.py |
| C65, C66 | `Laplace` | laplace_dual_weak_form.py, laplace_primal_weak_form.py |
| C71, C72 | `Elasticity` | le_primal_weak_form.py, le_primal_stress_constraint_weak_form.py, le_taylor_hood_weak_form.py:189-237 |
| C73 | `Cosserat` | lce_primal_weak_form.py |
| C74 | `TaylorHood` | le_taylor_hood_weak_form.py |
| C75-C77 | `Degenerate` | degenerate_elliptic_weak_form.py, unscaled_elliptic_weak_form.py, scaled_to_physical_l2_projection.py |
| C78, C79 | `Dual` | lce_dual_weak_form.py, lce_scaled_dual_weak_form.py, lce_riesz_map_weak_form.py, lce_scaled_riesz_map_weak_form.py (without the boundary terms) |
| C80 | `DualBoundary` | lce_dual_weak_form.py:651-871, lce_scaled_dual_weak_form.py:702-917, le_dual_weak_form.py:513-644 |
| C81 | `DualLe` | le_dual_weak_form.py:12-511, le_riesz_map_weak_form.py:9-353 |
| C82 | `DivError` | l2_error_post_processor.py:120-421, solution_norms_post_processor.py:42-147 |
| C83 | `Vtk` | solution_post_processor.py:11-429 |
| C84 | `DiscreteDomain` | discrete_domain.py:7-310 |
| C85 | `Builder` | geometry_builder.py:7-238, geometry_cell.py:1-29 |
| C86 | `Builder` | conformal_mesher.py:27-35, 333-428, 518-522 |
| C87 | `Builder` | conformal_mesher.py:27-35, 430-499, 518-541; fracture_network.py:304-344 |
| C88 | `EdgeOps` | domain_operations.py:47-84 (dimension one) |
| C89 | `EdgeOps` | edge_operations.py:14-90, vertex_operations.py:37-61 |
| C90 | `Basis` | finite_element.py:157-187 |
| C91 | `BasisTrace` | basis_trace.py:9-70, finite_element.py:131-155, the search for the neighbour in product_space.py:139-144 and src/weak_forms |
| C92 | `BasisTrace` | basis_trace.py:9-28, finite_element.py:131-155 |
| C93 | `PrimalBoundary` | laplace_primal_weak_form.py:77-157 |
| C94 | `Polygon` | polygon_geometry_operations.py:6-82 |
| C95 | `Polygon`, `Triangulate` | polygon_geometry_operations.py:85-100, 128-150; scipy's `Delaunay` is a parameter |
| C96 | `MdBox` | domain_market.py:172-301 |
| C97 | `TriangleTriangle` | triangle_triangle_intersection_test.py:14-19, 148-443 |
| C98 | `PolygonPolygon` | polygon_polygon_intersection_test.py:10-15, 43-113 |
| C99 | `EmbedVertex` | shape_manipulation.py:115-122, 137-145, 148-194 |
| C100 | `IntersectEdges` | shape_manipulation.py:115-122, 197-289 |
| C101 | `LinesBox` | domain_market.py:305-370, domain.py:48-65, 79-84 |
| C102 | `StrongCosserat1` | examples/cosserat_elasticity/strong_solution_cosserat_elasticity_example_1.py |
| C103 | `StrongCosserat2` | examples/cosserat_elasticity/strong_solution_cosserat_elasticity_example_2.py |
| C104 | `StrongCosserat3` | examples/cosserat_elasticity/strong_solution_cosserat_elasticity_example_3.py |
| C105 | `StrongCauchy1` | examples/cauchy_elasticity/strong_solution_elasticity_example_1.py (and the copy in cosserat_ecmor) |
| C106 | `StrongCauchy2` | examples/cauchy_elasticity/strong_solution_elasticity_example_2.py (and the copy in cosserat_ecmor) |
| C107 | `StrongEcmor` | examples/cosserat_ecmor/strong_solution_cosserat_elasticity_example_3.py |
| C108 | `StrongArbogast` | examples/degenerate_elliptic_scalar/strong_solutions_TArbogast.py |
| C109 | `MdElliptic` | examples/md_elliptic_scalar/exact_functions.py |
| C110 | `Coupling` | examples/md_elliptic_scalar/CouplingWeakForm.py |
| C111 | `InterfaceCoupling` | examples/md_degenerate_elliptic_scalar/InterfaceCouplingWeakForm.py |
| C112 | `MdLift`, `MdScaled` | examples/md_degenerate_elliptic_scalar/exact_functions.py |
| C113 | `MdDegenerate` | examples/md_degenerate_elliptic_scalar/degenerate_exact_functions.py |
| C114 | `Manipulation` | src/topology/shape_manipulation.py, shape.py, vertex.py |
| C115 | `FractureOpening` | src/mesh/mesh.py `compute_fracture_normals`, `apply_visual_opening`, `cut_conformity_on_fractures`, `harvest_duplicates_from_vertex`; mesh_cell.py |
| C116 | `PlaneNetwork` | src/geometry/fracture_network.py `insert_fracture_cell`, `intersect_2D_fractures`; the test of two polygons is a parameter |
| C117 | `MeshWriter` | src/mesh/mesh.py `write_vtk`, `conformal_mesh_write_vtk`, the summary of `write_data`; `meshio` compares lengths and concatenates blocks, `equitable_color` is a parameter |
| C118 | `Planes` | src/topology/domain_market.py `read_fractures_file`, `build_disjoint_planes`, `build_box_3D_with_planes`; a file is the list of its rows of numbers |
| C119 | `Multiplier` | examples/degenerate_elliptic_scalar/LMWeakForm.py `LMgWeakForm`; sides as in C111, numbers that are not finite are `none` |
| C120 | `Transport` | examples/parabolic_diffusive_problem/SundusWeakForm.py `SundusDualWeakForm` and its Dirichlet form; conventions of `Laplace` |
| C121 | `TransportExact` | examples/parabolic_diffusive_problem/mixed_transport_model.py exact functions, at a point; shapes of arrays left out |
| C122 | `Oden` | examples/oden_problem/oden_dual_weak_form.py, examples/oden_problem/oden_primal_weak_form.py; conventions of `Laplace` |
| C123 | `OdenExact` | examples/oden_problem/oden_rates_primal_dual_ad.py exact functions, at a point; shapes of arrays left out |
| C124 | `MdCosserat` | examples/md_cosserat_elasticity/exact_functions.py, examples/md_cosserat_elasticity/ContactWeakForm.py |
| C125 | `TimeLoop` | examples/parabolic_diffusive_problem/mixed_transport_model.py time loop; assembly, norm and solver are parameters |
| C126 | `ThreeFieldsExact` | examples/geothermal_flow/three_fields_advection_diffusion.py exact functions and data, examples/geothermal_flow/ThreeFieldsAdvectionDiffusionWeakForm.py Robin condition, at a point; shapes of arrays left out |
| C127 | `ThreeFieldsForm` | examples/geothermal_flow/ThreeFieldsAdvectionDiffusionWeakForm.py advection forms in dimension one after the traces, examples/geothermal_flow/three_fields_advection_diffusion.py and examples/geothermal_flow/hydrothermal_system.py sequences of facets |
| C128 | `Hydrothermal` | examples/geothermal_flow/HydrothermalWeakForms.py integrands in a point, examples/geothermal_flow/hydrothermal_system.py data |
| C129 | `ThreeFieldsDiffusion` | examples/geothermal_flow/ThreeFieldsAdvectionDiffusionWeakForm.py `ThreeFieldsDiffusionWeakForm`, after the tabulation |
| C130 | `Quadrature` | src/spaces/product_space.py and md_product_space.py, `_define_integration_order_and_quadrature` |
| C131 | `MdProduct` | src/spaces/md_product_space.py, whole file |
| C132 | `ElementData` | src/basis/element_data.py; src/basis/finite_element.py lines 98-153; src/geometry/mapping.py `store_mapping` |
| C133 | `FvTransfer` | `ecmor_fv_postprocessing` of six example drivers up to the transfer |
| C134 | `DriverAssembly` | `scatter_form_data`, `scatter_riesz_form_data`, `scatter_bc_form` and the loops of the drivers of mixed, primal and Taylor-Hood elements |
| C135 | `Rates` | `perform_convergence_postprocessing`, `perform_ecmor_postprocessing` and the tables of the other drivers; logarithms of real numbers |
| C136 | `ExampleDomain` | `build_line_1D` and `build_surface_2D` of the degenerate examples |
| C137 | `FieldSplit` | index sets of the field split of the drivers, its result with given solvers, and the zeros of the assembled matrix |
| C138 | `FileNames` | names of the files of the drivers of elasticity; the vectors, residuals and pictures that a run writes and reads |
| C139 | `MergedTables` | the tables with errors and rates side by side and the rows of errors of the drivers of scalar elliptic problems |
| C140 | `DriverSpaces` | `create_product_space` and `method_definition` of the drivers: families, orders, components, continuity and physical tags of the fields |
| C141 | `Torsion` | the torsion test: spaces, data, boundary forms of the faces, moments and table |
| C142 | `DriverData` | the functions that the drivers set for the weak forms, their material data and who reads it |
| C143 | `StressRecovery` | stress in the nodes of the constrained elasticity drivers, Lamé parameters, cells and facets of the forms |
| C144 | `ErrorTriangle` | triangle of the expected rate in the error plots |
| C145 | `ReproduceScenarios` | the script that runs both degenerate scenarios and their plots: codes, order, options, folders |
| C146 | `ScenarioPlots` | plotting scripts of the degenerate scenarios: files, names, labelled curves, triangle |
| C147 | `ErrorPlots` | error plots of the elasticity examples: files, columns, labels, triangles |
| C148 | `ShapeAssignment` | assignment of shapes of all classes, orientation of assigned wires |
| C149 | `ShapeTests` | the repository's tests of shapes, run in the model |
| C150 | `LineArgsort` | order of points along a segment, tests of points and lines |
| C151 | `CaseNames` | names of the files of the mixed-dimensional drivers, runs of the drivers |
| C152 | `GraphOperations` | cut and coupling of graphs of subdomains |
| C153 | `Frame` | motions of space and the geometry operations |
| C154 | `ContactDriver` | spaces, assembly and contact pairs of the mixed-dimensional Cosserat driver |
| C155 | `PolygonFrame` | polygon normals, convexity and winding numbers in moved frames; test_polygon_geometry_operations.py |
| C156 | `VertexTests` | the tests of vertex and edge operations: tests/test_topology/test_vertex_shapes_intersection.py, test_edge_shapes_intersection.py |
| C157 | `Betti` | Betti numbers and rebuilt graphs of tests/test_topology/test_domain_operations.py |
| C158 | `ArbogastPlots` | file names of examples/degenerate_elliptic_scalar/degenerate_mixed_flow_model.py and plotting_for_Arbogast_problem.py |
| C159 | `GeometryTests` | the tests without lines of tests/test_geometry/test_geometry.py |
| C160 | `ProjectorTests` | the tests of tests/test_projectors/test_projectors.py, with `ProductSpace` and `l2_error` as modelled elsewhere |
| C161 | `MeshingTests` | the fracture networks of tests/test_meshing/*.py |
| C162 | `FracturedLine` | examples/domains/conformal_md_domain_1d.py |
| C163 | `ShapesPlotter` | examples/domains/shapes_plotter.py, graphical_shape.py `draw_vertex_sequence` |
| C164 | `FieldFigures` | examples/cosserat_elasticity/graphical_example_3*.py, examples/oden_problem/figure_constructor.py, the names of the files of their drivers |
| C67 | `L2Error` | l2_error_post_processor.py, solution_norms_post_processor.py (L2 parts) |
| C27 | `Trace` | parametric_transformation.py, mapping.py |
| C28, C29 | `Orientation` | permute_and_transform.py |
| C30–C33, C58 | `MeshOps`, `MeshCut` | mesh_operations.py |
| C34 | `EmbedCut` | mesh.py `cut_conformity_on_embed_shapes`, `cut_conformity_on_fractures_mds_ec` |
| C35 | `Skin` | mesh.py `circulate_internal_bc(_from_domain)` |
| C36, C37 | `MeshMetrics` | mesh_coloring.py, mesh_metrics.py |
| C38–C40, C59 | `Shape` | shape.py and its subclasses |
| C41–C44 | `Domain`, `Retag` | domain.py, domain_operations.py `create_domain` |
| C45–C47 | `VertexOps` | vertex_operations.py |
| C68, C69 | `DomainOps` | domain_operations.py `domain_difference`, `domain_union` (dimension one) |
| C70 | `DomainMarket` | domain_market.py `build_box_1D`, `build_box_2D`, `build_box_3D` (38-169) |
| C48 | `Mesher` | conformal_mesher.py |
| C49, C54, C64 | `FractureNetwork` | fracture_network.py (one-dimensional part) |
| C50, C60, C61, C53 | `PointGeometry` | point_geometry_operations.py, triangulation |
| C51, C52, C63 | `LineGeometry` | line_geometry_operations.py |
| C52, C62 | `TriangleTest` | triangle_triangle_intersection_test.py (basic tests) |
| C55 | `Normal` | compute_normal.py |
| C57 | `Mapping` | mapping.py |

## 5. Where the code disagrees with the stated property

| id | disagreement | theorem |
|----|--------------|---------|
| C04 | a point used by no element leaves an empty slot | `C04_*` witness |
| C06 | the decimal key merges different cells; on built meshes the new id is not the position | `C06_*` |
| C10 | ids of appended cells need not be positions | `C10_*` |
| C24 | entries near zero are dropped; a non-zero shift argument always raises | `C24_*` |
| C28 | boundary faces 1 and 3 are always reflected | `C28_boundary_overridden_violated` |
| C32 | replacing a node by itself deletes it | `C32_same_node_violated` |
| C34 | copies of vertices name their node tag, not themselves, as sub-cell; the new tags `scale·tag ± 1` may equal an existing tag | `C34_vertex_copies_violated` |
| C35 | the function never answers False: True or an exception; long skins hit the recursion limit | `C35_terminates` |
| C36 | the colouring raises on every input | `C36_*` |
| C38 | equality ignores boundaries and is not symmetric | `C38_*` |
| C40 | the seed vertex may be the wrong end, giving wrong signs | `C40_wrong_start` |
| C42 | with immersed shapes two edges can get one tag | `C42_*` |
| C44 | `hash(-1) = hash(-2)` loses a shape | `C44_shape_lost` |
| C45 | the parts of a split edge have separate vertices, with different tags, at a joint | `C45_joint` |
| C47 | tags collide from one edge to the next; `ValueError` for an edge without intersection | `C47_collides`, `C47_no_intersection` |
| C48 | a physical tag on a composite curve makes a group of a curve never created; 0-dimensional domains raise `IndexError` | `C48_*` |
| C49 | unpairing takes the square root without rounding down | `C49_unpair_fails` |
| C51 | `False` is kept among the results of lines against a triangle | `C51_false_kept` |
| C52 | a contained segment is missed; collinear disjoint segments are reported | `C52_contained_missed`, `C52_test_*` |
| C54 | an end point shared by two fractures is stored twice | `C54_shared_end_twice` |
| C56 | lower neighbours are searched in the wrong graph | `C56_*` |
| C59 | a shape listed twice is reported absent | `C59_*` |
| C65 | the argument `alpha` is overwritten: the residual is always the one in 0 | `C65_alpha_ignored_violated` |
| C66 | raises on every product space; third gradient component dropped on tilted triangles | `C66_raises_violated`, `C66_tilted_violated` |
| C67 | components beyond the dimension are left out of the error | `C67_components_ignored_violated` |
| C69 | a vertex shared by two edges is replaced in the first one only; the other edge loses an end | `C69_shared_violated` |
| C72 | slanted facets: the normal displacement is not the prescribed one | `C72_normal_violated` |
| C75 | the boundary datum is scaled by delta/sqrt(phi) where the porosity is positive, but by one where it vanishes; the divergence has the factor zero there | `C75_boundary_violated` |
| C76 | a negative porosity is replaced by the threshold in the matrix, but the load takes its square root, so all pressure residuals are nan | `C76_negative_violated` |
| C80 | the Neumann terms in lce_scaled_dual_weak_form.py and le_dual_weak_form.py always raise: they read `mapping.x`, which is never stored, and call `evaluate_basis` with one of its four arguments | `C80_neumann_violated` |
| C81 | `evaluate_form` in le_dual_weak_form.py:34 and le_riesz_map_weak_form.py:30 unpacks the list of four quadratures into two variables and always raises | `C81_raises_violated` |
| C82 | an exact divergence with scalar values makes a row of values, so that `div_error` compares all pairs of points | `C82_scalar_violated`, `C82_scalar_witness_violated` |
| C82 | `grad_error` calls `evaluate_basis` with one of its four arguments and always raises | `C82_grad_violated` |
| C82 | `devia_l2_error` and `devia_l2_norm` unpack the list of four quadratures into two variables and always raise | `C82_deviator_violated` |
| C82 | in dimension one `div_error` reports the Lagrange fields, `div_norm` the vector fields | `C82_dimension_one_violated` |
| C83 | `write_vtk_file_with_exact_solution` selects the cells of the file by the tags of the last field, after the loop; with cell centred data of all cells and other tags nothing is written | `C83_cells_violated`, `C83_cells_witness_violated` |
| C83 | `write_vtk_file_pointwise_l2_error` subtracts a column from a one dimensional array, so that all pairs of components are compared | `C83_error_violated`, `C83_error_witness_violated` |
| C83 | scalar families are cut to `dim` components, while the rows have `n_comp`: with more components than dimensions the assignment raises, in dimension one all entries are the first component | `C83_components_violated` |
| C84 | the steps for volumes read `surface_stride` and `curve_stride`, which are never assigned: every three dimensional domain raises `NameError` | `C84_three_violated`, `C84_three` |
| C84 | the strides include the own dimension, so they start one dimension too late and leave gaps or overlaps: on a line the second vertex and the line both get the tag 4 | `C84_ranges_violated` |
| C84 | the shapes immersed in a curve that is immersed in a surface are taken for curves; a vertex there makes gmsh embed a curve that does not exist | `C84_immersed_vertex_violated` |
| C84 | the group of a composite surface (a shell) lists a surface that was not made | `C84_shell_violated` |
| C85 | `build_box_1D` accepts more than two points and leaves the further ones outside of the line and of the graph | `C85_line_violated` |
| C85 | a second `build_box_2D` on the same builder counts its ids from zero again and joins the corners of the first polygon | `C85_again_violated` |
| C85 | `build_box` accepts more than eight points; the fixed ids of edges are then positions of other cells | `C85_points_violated` |
| C86 | the default tags name four sides; a polygon with more raises `TypeError` in gmsh | `C86_default_violated` |
| C87 | the default tags of the sides (2 to 5) and of the fractures (from 1) name the same groups of gmsh | `C87_default_violated` |
| C87 | with the default of `build_grahp` each piece of a divided fracture gets a group of its own with the same name | `C87_pieces_violated` |
| C87 | the code of the crossing of the fractures 1 and 2 is 5, the tag of the fifth fracture; the crossing becomes a vertex of that fracture | `C87_code_violated` |
| C87 | `write_mesh` undoes the shift of the ids of points only; a graph built again from the network has ids out of range | `C87_again_violated` |
| C88 | the tags of the next edge start at the last tag of the edge before, so `create_domain` replaces that vertex | `C88_lost_violated` |
| C89 | `edge_edge_intersection` passes the tolerance in the place of the tag; vertices made at an end of the tool have the tag 1e-10 | `C89_tag_violated`, `C89_corner_violated` |
| C89 | a crossing inside of both edges becomes a `Vertex` whose point is an array with one row | `C89_row_violated` |
| C89 | an object inside of the tool on the same line is not found, of overlapping edges one point is returned | `C89_contained_violated`, `C89_overlap_violated` |
| C89 | `edge_with_same_geometry_q` compares the ends in the order of tags only | `C89_reversed_violated` |
| C90 | on edges, the functions of RT, BDM and N1E are multiplied with the first component of the unit tangent, so that they are zero on edges orthogonal to the first axis | `C90_vertical_violated` |
| C90 | on edges, factors that belong to points are multiplied along the axis of the functions; other numbers of points than functions raise `ValueError` | `C90_points_violated` |
| C91 | `neigh_list[k]` is a pair (dimension, id) and is looked up among ids in the traces and in three boundary forms: `KeyError` for every facet | `C91_by_index_violated`, `C91_trace_violated`, `C91_product_violated` |
| C92 | only the functions of the facet itself are selected, not those of its edges and vertices: linear Lagrange functions have an empty trace | `C92_linear_violated` |
| C93 | the form raises `KeyError` for every facet, because the pair (dimension, id) is looked up among ids | `C93_raises_violated` |
| C93 | only the first function of every entity is used; from order three on the shapes do not match (`ValueError`) | `C93_cubic_violated` |
| C94 | the three points that span the plane of a parallelogram with different diagonals are on one line; the normal is zero and the polygon is not convex | `C94_parallelogram_violated` |
| C94 | a star that crosses itself passes the convexity test | `C94_star_violated` |
| C95 | the triangles of a polygon that is not convex cover points outside, because its edges are ignored | `C95_hull_violated` |
| C96 | a fracture that ends inside the last side of the box: its parts are sorted against the direction of the wire, which is not closed | `C96_last_side_violated`, `C96_square_violated` |
| C96 | sides with the same physical tag, or without one: the wire has their edges twice | `C96_same_tag_violated`, `C96_default_tags_violated` |
| C97 | coplanar triangles, also equal ones, are reported not to intersect | `C97_coplanar_violated` |
| C97 | a triangle that touches another one in a corner: no intersection reported; the code for this is never reached | `C97_touching_violated`, `C97_answers` |
| C97 | the common segment goes through a corner and the opposite side: three crossings, no intersection reported | `C97_corner_violated` |
| C97 | `intersections[0] - [1]` compares a crossing with (1,1,1): a common segment that begins there is missed | `C97_one_violated` |
| C97 | an end on the extension of a side is given as a common point | `C97_extension_violated` |
| C98 | only the first four corners of a polygon are used: a pentagon whose tip is cut off is reported not to intersect | `C98_pentagon_violated`, `C98_first_four` |
| C98 | a quadrilateral is always cut along the diagonal from its second to its fourth corner; where that is outside, a segment outside the quadrilateral is given | `C98_reflex_violated` |
| C99 | `embed_vertex_in_edge` compares distances from the first end only: vertices behind it or beside the line are embedded (the test says it "will filter points not in the line") | `C99_off_violated` |
| C99 | the tolerance for distances is relative to the length of the edge, that for the ends is not: a vertex between the two is neither put at the end nor embedded | `C99_lost_violated` |
| C100 | `intersect_edges` uses only the first of the two points that `line_line_intersection` returns for overlapping edges: one of them is not cut, and the pieces overlap | `C100_overlap_violated` |
| C100 | edges on one line that have no point in common are taken to intersect: a vertex is made and replaces the first end of the second edge | `C100_apart_violated` |
| C101 | `build_box_2D_with_lines` cuts the last side, which is stored against the direction of the walk, and the pieces are oriented from the first to the last side: if the last side is cut, an edge of the wire is counted twice and the signed edges are no closed chain | `C101_last_side_violated` |
| C101 | for a line that passes through the first corner a new vertex is made at that corner, and the old one stays as the boundary of the wire: two vertices at one point, so `lookup_vertex`, `np.unique` and meshing see a repeated point | `C101_vertices_violated` |
| C101 | `retag_shapes` numbers the lines embedded in the face after the face, as 1, 2, ..., since it compares the dimension of the face and not of the line: with at least as many lines as sides and parts of sides, a line and the wire have one tag and are one node of the graph | `C101_tags_violated` |
| C106 | `displacement`, `rotation`, `stress` and `rhs` of the second elasticity example ignore their arguments `m_lambda` and `m_mu`; they belong to the given material only if both are one | `C106_constants` |
| C108 | In dimension one `f_d_phi` is `x²/√μ` on the left of the origin too, but `f_grad_d_phi` returns zero there, and `nan` at the origin (0/0, the mask is `x < 0`) | `C108_gradient_violated`, `C108_origin_violated` |
| C108 | In dimension two `v_exact` ignores its argument `m_mu`; `f_d_phi * v_exact` is the flux only for viscosity one | `C108_viscosity_violated` |
| C109 | The load of the fracture is `u_f' + exchange`; what leaves the bulk enters the fracture, so it should be `u_f' - exchange`. The coupling form has the same sign, so the runs do not see it | `C109_conservation_violated` |
| C109 | The exact pressure has no jump, so the law of Robin `δ/(2κ) u·n + p_f = p` of the coupling form fails wherever a flux leaves the bulk | `C109_robin_violated` |
| C110 | The exchange enters the balance `div u_f - f` of the fracture with the sign plus ("self-adjoint"); beside `-p div w` and `+div u q` of the mixed form it has to be minus. The energy of the form is indefinite | `C110_conservation_violated`, `C110_energy_violated` |
| C111 | The factor of the fluxes is `sqrt(phi) d / alpha`; in the unscaled variables the law of Robin needs `d^2 / alpha` | `C111_robin_violated` |
| C111 | Porosities in `(0, 1e-8]` are taken as zero and get the exchange factor `d` instead of `d / sqrt(phi)` | `C111_threshold_violated` |
| C111 | The exchange enters the balance of the fracture with the sign plus, as in C110 | `C111_conservation_violated` |
| C112 | The load of the fracture has the exchange with the wrong sign; the form of C111 has the same sign, so the runs do not see it | `C112_conservation_violated` |
| C112 | The exact pressure has no jump, so the law of Robin fails wherever a flux leaves the bulk | `C112_robin_violated` |
| C113 | The mask `np.isclose(x, 0.0)` covers a strip right of the origin; at its end the pressure jumps from zero, for every exponent | `C113_jump_violated` |
| C113 | Sign of the exchange in the load of the fracture, and no jump of the pressure, as in C112 | `C113_conservation_violated`, `C113_robin_violated` |
| C114 | `point_line_intersection` ignores the coordinates in which the two points agree, so on an axis-parallel line points far away are accepted; the ends are not tested | `C114_off_line_violated` |
| C114 | `vertex_edge_intersection` tests the two ends twice and never the inside of the edge | `C114_inside_violated` |
| C114 | `collapse_vertex` does not pass `eps` to the strong equality; `vertex_with_same_geometry` is neither symmetric nor transitive | `C114_eps_violated`, `C114_equivalence_violated` |
| C115 | with the default of `build_grahp` the middle stored for a divided fracture is that of its last piece | `C115_pieces_violated` |
| C115 | between `set_points` and `write_mesh` the normals cannot be computed (`IndexError`): the numbers of points are those of the mesher | `C115_shift_violated` |
| C115 | the crossing of the fractures 0 and 1 has the tag 1, and the opening of the fracture 1 raises `ValueError` | `C115_code_violated` |
| C115 | `cut_conformity_on_fractures` reads `cells_ids`, which no cell has | `C115_old_cut_violated` |
| C115 | `harvest_duplicates_from_vertex` writes the new node into the original edge | `C115_harvest_violated` |
| C116 | the vertices of the second and later polygons have the number of the cell as number of their point | `C116_points_violated`, `C116_quads_violated` |
| C116 | a fracture with two or more lines, one of which meets no other one, is an `IndexError` | `C116_separate_violated`, `C116_parallel_violated` |
| C116 | a triangle that meets a later polygon is an `IndexError` (its fourth point is read) | `C116_triangle_violated` |
| C116 | where three fractures meet, the line of the second and third is not split | `C116_triple_violated` |
| C117 | tagged and untagged cells of dimension three: the tags are not filtered, `ValueError`, no file | `C117_mixed_violated` |
| C117 | `coloring_mesh_q=True` raises for every mesh with a tagged cell of positive dimension | `C117_colors_violated` |
| C117 | `conformal_mesh_write_vtk` needs vertices with tags: otherwise `ValueError` after two files | `C117_conformal_violated` |
| C117 | `write_data` raises in its summary for a mesh without tags | `C117_data_violated` |
| C118 | `build_box_3D_with_planes` calls `intersect_faces`, which is not imported: `NameError` for every input | `C118_intersect_violated` |
| C118 | surfaces of planes are numbered from seven, those of the box from eighteen: twelve planes repeat a number | `C118_tags_violated` |
| C118 | a blank line in the file of the planes is a `ValueError` | `C118_blank_violated` |
| C119 | the multiplier acts on the neighbour of the degenerate region divided by the root of the porosity, while its own row has no such factor: the matrix is symmetric only for porosity one | `C119_symmetric_violated` |
| C120 | both slices of the boundary form have the step `mp_components` | `C120_boundary_violated` |
| C121 | in dimension two the source of the concentration is computed with `c_exact(t, x, y, z)`, the arguments in the wrong order | `C121_arguments_violated`, `C121_plane_violated` |
| C122 | the primal form and its Dirichlet form read `u_cell`, which is not defined | `C122_primal_violated` |
| C124 | the flux of the bulk does not contain `kappa` | `C124_darcy_violated` |
| C124 | the contact form reads `iel_c0`, which is not defined | `C124_contact_violated` |
| C125 | after `n_iterations` the state is accepted without a test and without a message | `C125_silent_violated` |
| C126 | at the left end the exact functions satisfy the Robin condition with the wrong sign of the flux | `C126_left_violated` |
| C126 | for zero velocity the exact functions are 0/0 | `C126_still_violated` |
| C127 | the interface form asks for the flux times the first component of the normal of the first cell: negative if that cell is on the right | `C127_orientation_violated` |
| C127 | `np.isclose` makes inflow below 1e-8 take the inner value | `C127_small_violated` |
| C127 | the forms unpack `space.quadrature` and `space.bc_quadrature`, lists of four, into two names | `C127_raises_violated` |
| C127 | the interior facets are looked up by graph node instead of cell id: `KeyError` | `C127_interior_violated`, `C127_lines_violated` |
| C127 | the hydrothermal example asks for the predecessors of a cell id, but the nodes are pairs: `NetworkXError` | `C127_hydro_violated` |
| C128 | temperature 523.15 and enthalpy 2000 at the inflow, but the closure is `t = h / 4` | `C128_inlet_violated` |
| C128 | `xi_eta_map` is 0 on the faces `z = 0` and `z = lz`, where the Robin form divides by it | `C128_box_violated` |
| C128 | `build_structures` is called with one argument instead of two | `C128_space_violated` |
| C129 | the form has no equation for the advective flux: zero rows | `C129_row_violated`, `C129_singular_violated` |
| C129 | the slice of the derivative layers ends with the number of functions instead of the dimension | `C129_layers_violated` |
| C129 | `points, weights = self.space.quadrature` unpacks a list of four | `C129_raises_violated` |
| C130 | fields on points ask for a boundary rule of dimension -1: `KeyError` | `C130_points_violated` |
| C131 | product spaces for the dimensions 0 to 3 are refused, one for dimension 7 is taken | `C131_limit_violated` |
| C131 | `DiscreteSpace` is not imported: `NameError`, and no call leads to a destination | `C131_name_violated`, `C131_unreachable_violated` |
| C131 | numbers collected before an exception are used afterwards | `C131_stale_violated` |
| C132 | `_fill_element_dof_data` adds to the number of degrees of freedom | `C132_dofs_violated` |
| C132 | `evaluate_mapping` without storage replaces `mapping.phi` only | `C132_stale_violated` |
| C132 | `store_mapping` and `storage_basis` raise in every state | `C132_store_violated` |
| C132 | class methods `copy` read attributes the classes do not have | `C132_copies_violated`, `C132_object_copies_violated` |
| C133 | stresses are multiplied by the sign of the face with the number of the partner before the permutation, it should be after | `C133_sign_violated` |
| C133 | the key of a point repeats the first coordinate instead of using the third | `C133_space_violated` |
| C133 | obtuse triangles with sides up to 1e-4 are not reported | `C133_obtuse_small_violated` |
| C134 | entries of element matrices up to 1e-8 are dropped, whatever the scale of the others | `C134_small_violated` |
| C134 | `rg[dest] += r_el` counts a repeated destination once | `C134_repeat_violated` |
| C135 | `perform_ecmor_postprocessing` divides by the step of column 2, which is the displacement error; the mesh size is column 1 | `C135_ecmor_violated` |
| C135 | `sol_norms` is unbound without refinement levels | `C135_norms_violated` |
| C135 | th_elasticity_example_1.py writes 5 and 2 columns under 4 and 1 names | `C135_headers_violated` |
| C135 | the header of the solution norms has names for projected fields that are not in the array | `C135_norm_names_violated` |
| C136 | `build_line_1D` tags the vertex at position 2 as the end: IndexError for two points, an inner vertex for more than three | `C136_line_short_violated`, `C136_line_end_violated` |
| C136 | `build_surface_2D` numbers the edges from 3, whatever tags the dictionary gives to the regions | `C136_surface_tags_violated` |
| C138 | the second Cosserat example names its files with `lambda` and `gamma`, but its parameters have `lambda_s`, ...: `KeyError` after the first solve | `C138_cosserat_two_violated` |
| C138 | names of the Cauchy examples lack the order, so runs with another order replace the vectors | `C138_order_violated` |
| C138 | names of the pictures lack the level, so only the last level is left | `C138_pictures_violated`, `C138_pictures_cosserat_violated` |
| C138 | names of the finite volume results keep the exponent only: parameters 1 and 2 share the files | `C138_fv_violated` |
| C139 | degenerate_mixed_flow_model.py:318 hands the scaled space to `l2_error_projected`, so the column `proj p` has the projected error of the flux | `C139_flow_violated` |
| C139 | the header of the enhanced table ends with a comma in two drivers: one name more than columns | `C139_comma_violated` |
| C140 | the three drivers of cosserat_ecmor call `build_structures` with one argument: TypeError | `C140_ecmor_violated` |
| C140 | th_elasticity_example_1.py:243 takes the pressure of order `k_order - 2` where its comment says k-1, and line 31 says that both fields are continuous while the pressure is not; for k = 1 the order is negative | `C140_pressure_violated`, `C140_pressure_order_violated` |
| C140 | darcy_elliptic_degenerate_scenario_2.py on lines builds the multiplier on dimension 0, for which there is no finite element space: KeyError | `C140_scenario_two_line_violated` |
| C140 | md_elliptic_scalar.py:26-41 has a method for points without flux, which `create_product_space` (44-86) asks for: KeyError | `C140_md_point_violated` |
| C140 | cg_elasticity_example_1.py:17-43 gives three components to the displacement on lines | `C140_line_components_violated` |
| C141 | cosserat_torsion_test_primal_dual.py:335-341 sets `lambda`, `mu`, `kappa`, `gamma`; `LCEDualWeakForm` reads `lambda_s`, ...: KeyError in the first element | `C141_dual_data_violated` |
| C141 | cosserat_torsion_test_primal_dual.py:202-204 uses `bc_weak_form_top` on the held end and on the side too, so the side is not free | `C141_primal_faces_violated`, `C141_side_violated` |
| C141 | cosserat_torsion_test_primal_dual.py:532 takes `s_h[2, 1]` and `s_h[2, 0]`; the traction on the end is made of `s_h[1, 2]` and `s_h[0, 2]`, and the stress is not symmetric | `C141_strain_violated` |
| C142 | mfe_cosserat_elasticity_example_2.py:129-137 calls `lce.displacement(material_data, dim)`, but the function takes `(m_lambda, m_mu, m_kappa, m_gamma, dim)`: TypeError; `lce.get_material_functions` does not exist | `C142_example_two_calls_violated` |
| C142 | mfe_cosserat_elasticity_example_2.py:26-28, 334-337, 423-426, 634-635 read `lambda`, `mu`, `kappa`, `gamma`; the material data has `lambda_s`, ..., `l` | `C142_example_two_violated` |
| C142 | cosserat_ecmor/mfe_cosserat_elasticity_example_3.py:132-158 sets `lambda`, `mu`, `kappa`, `gamma`, `grad_gamma`; the scaled forms read `lambda_s`, ..., `l`, `grad_l` | `C142_scaled_violated` |
| C142 | md_primal_cosserat.py:296, 299 set `u` and `r` for a boundary form that reads `u` and `t` | `C142_forms_violated` |
| C143 | cg_elasticity_example_2.py:197-199 compare `cell.material_id` with a list (`mat_ids["well_1"]` is `[8]`), so the three lists of facets are empty for every mesh | `C143_facets_by_name_violated` |
| C143 | The table of the layers gives the reservoir 25 GPa, the comment above it 12 GPa; the reservoir is the layer in use (cg_elasticity_example_1.py:421-433) | `C143_materials_violated` |
| C144 | A triangle with rate 0 passes `validate_input`, but `dire` is the zero vector and its label gets a `nan` position (error_plots.py:90-95) | `C144_rate_zero_violated` |
| C145 | Without `--figures`, and as long as the folder does not exist, the pictures go to examples/degenerate_elliptic_scalar/examples/degenerate_elliptic_scalar/figures_scenario_1 (plotting_for_darcy_darcy_scenario_1.py:412-413, 527), not to figures_scenario_1/ beside the script as documented (darcy_elliptic_degenerate_reproduce_scenarios.py:3-8, 47-52) | `C145_default_figures_violated` |
| C145 | `check_folder` accepts a folder that is there from an earlier run, so a run that writes nothing can succeed | `C145_stale_violated` |
| C146 | `generate_convergence_plots` loops over the levels although a table belongs to no level: every picture is drawn once per level, and `--levels` without values suppresses them (plotting_for_darcy_darcy_scenario_1.py:495-502) | `C146_levels_violated` |
| C146 | `--dim 1` is accepted, but the default materials contain none of the one-dimensional ones, so nothing is drawn (plotting_for_darcy_darcy_scenario_1.py:421-423, 529, 532; plotting_for_darcy_darcy_scenario_2.py:622) | `C146_dim_violated` |
| C147 | A table with one level becomes an array with one axis, and the plot raises `IndexError` (cauchy_elasticity/error_plots.py:294-300) | `C147_single_violated` |
| C147 | The filter is looked for anywhere in the name: with tables for 1.0 and 1.05 the curve of 1.0 raises `AssertionError` (error_plots.py:281-286) | `C147_prefix_violated` |
| C147 | `render_figures_example_1` of the Cosserat script asks for two methods and three lengths; its driver runs one of each, so the first curve raises `AssertionError` (cosserat_error_plots.py:636-644, mfe_cosserat_elasticity_example_1.py:1157-1195) | `C147_cosserat_one_violated` |
| C147 | `painter_ex_2` of the Cosserat script calls the inherited `filter_composer` with keywords `m_lambda` and `m_eps` that it does not have: `TypeError` (cosserat_error_plots.py:433-435, 223) | `C147_cosserat_two_violated` |
| C148 | `shape_assignment` does not copy `orientation`: after `w0.shape_assignment(w1)` of the repository's own test `boundary_points` gives two different points for a closed wire (shape.py:182-196, wire.py:75-89) | `C148_orientation_violated` |
| C148 | A wire takes the parts that the other wire shows and then shows the parts of these: with an edge that is divided twice the two wires are not equal after the assignment (wire.py:20-29, shape.py:196) | `C148_divided_violated` |
| C150 | Points are sorted by their distance from `a`: a point of the line before `a` is put behind points of the segment (point_geometry_operations.py:92; the repository's test expects this) | `C150_outside_violated` |
| C150 | The array of no points raises `ValueError` in the difference (point_geometry_operations.py:90, 92) | `C150_nothing_violated` |
| C151 | `k_order` is read but not put in the name: runs with two orders write the same files (md_degenerate_elliptic_scalar.py:613, 640-668; md_elliptic_scalar.py:441, 454-472) | `C151_order_violated` |
| C151 | The parameters are taken from `list(m_data.values())` by position: a dictionary with the entries `rho_2`, `rho_1` in this order gets the name of another material (md_degenerate_elliptic_scalar.py:618-634) | `C151_keys_violated` |
| C151 | `case_names_by_co_dim` has one entry for each co-dimension and method, but is read at `co_dim`: with a second method the tables of co-dimension 1 get a name of co-dimension 0 (md_degenerate_elliptic_scalar.py:636-676, 716) | `C151_methods_violated` |
| C152 | The coupling edges go from the fracture to its duplicates, so the fracture `(1, 3)` of the non-conformal graph is not reached from `(0, 1)` as in the conformal one (graph_operations.py:72-83) | `C152_reached_violated` |
| C152 | A fracture that has no edge in the coupling is removed and not added again (graph_operations.py:38-47) | `C152_lone_violated` |
| C153 | `np.isclose` with a relative tolerance on coordinates makes the collapse of points depend on the origin: shifted by 10^10 a point at distance 1 from a segment is found on it (point_geometry_operations.py:29-36) | `C153_point_line_violated` |
| C153 | For the same reason two segments at distance 1 are found to meet after a shift (line_geometry_operations.py:19-25) | `C153_line_line_violated` |
| C154 | The assembly looks up the field "q", the weak forms "u" and "t", and the space has two fields only: KeyError for every choice of names (md_primal_cosserat.py:362, lce_primal_weak_form.py:15-16) | `C154_names_violated`, `C154_main_violated` |
| C154 | `exact_functions` is not bound in the driver (md_primal_cosserat.py:434): it never returns | `C154_returns_violated` |
| C154 | The fracture space has the tag 50 of the clones instead of 10, so it has both sides of each fracture cell and not the cell; the boundary tags of the bulk leave out 50 (md_primal_cosserat.py:63-66) | `C154_tags_violated`, `C154_twice_violated` |
| C154 | The contact form is given the fracture element as its negative side; n_c0_idx is not used (md_primal_cosserat.py:391-394) | `C154_pairs_violated` |
| C156 | `test_edge_edge_intersection` asserts that the vertex found with the tag 2 differs from `v2`, which has the tag 2 and the same point; this holds only since the tolerance is passed in the place of the tag (test_edge_shapes_intersection.py:84, edge_operations.py:80) | `C156_meant_violated` |
| C157 | `__betti_numbers` counts strongly connected components of an acyclic graph: for one edge it gives (3, 2) instead of (1, 0) (test_domain_operations.py:335); the assertions on them are commented out (375-376) | `C157_betti_violated`, `C157_edge_violated` |
| C158 | plotting_for_Arbogast_problem.py filters the parameter 1 (line 223) while the driver runs the parameter 2 alone (degenerate_mixed_flow_model.py:432), so nothing is drawn; its folder `output` (197) is not the driver's `output_arbogast_taicher` (476) | `C158_nothing_violated`, `C158_missing_violated` |
| C158 | `methods` is a `zip`, used up by the first call of the plots; a second call draws nothing. The name of a figure tells neither level nor suffix | `C158_second_violated`, `C158_figure_violated` |
| C159 | `test_domain_2d` takes `domain.shapes[0][0]`, a vertex, for the face (test_geometry.py:118); the assertion holds because both have the tag 0. Likewise in the later tests of the file | `C159_face_violated` |
| C160 | The tests of the projectors give empty lists of physical tags (test_projectors.py:112-114, 157-159, 202-204), for which `build_graph_on_physical_tags` selects no cell: the spaces have no unknowns, the errors are 0, and the assertions hold for any projector and any function | `C160_vacuous_violated` |
| C160 | `k_order` is raised inside the loops and kept (test_projectors.py:143-144, 188-189): BDM and N2E are never run with the order of the function, and the continuous RT runs are two orders above | `C160_order_violated` |
| C160 | `np.any` in the assertions accepts one small error among several | `C160_any_violated` |
| C161 | The crossing of the fractures with tags 10 and 11 has the tag 131 of the pairing, and so have the vertices and edges of one side of the cut fracture 13 (mesh.py:1042, 1120) | `C161_side_violated` |
| C162 | The end of the first edge is (1, 0, 1) and not (1, 0, 0) (conformal_md_domain_1d.py:17), so that it does not meet the second | `C162_apart_violated` |
| C162 | `generate_mesh` is called with two arguments (conformal_md_domain_1d.py:73) but takes one, a dictionary: the script stops with a TypeError | `C162_mesh_violated` |
| C164 | graphical_example_3_epsilon.py:16-24 looks for `*_gamma_scale_ex_3.vtk` with `wc_bdm_k1_d3` in the name; the driver writes `wc_bdm_k1_3d_lc_scale_ex_3.vtk`, with the field `l_e` and not `gamma_e` (line 62): `AssertionError`. | `C164_epsilon_violated`, `C164_epsilon_names_violated` |
| C164 | graphical_example_3.py:16 reads `m2_dnc_k2_d3_four_fields_scaled_ex_3.vtk`; the methods are `wc_rt` and `wc_bdm` with orders 0 and 1: `FileNotFoundError`. | `C164_fields_violated` |
| C164 | figure_constructor.py:14-21 reads `geometric_mesh_2d.vtk`; the driver of the problem of Oden runs in dimension one (oden_rates_primal_dual_ad.py:542) and writes no such file: `FileNotFoundError`. | `C164_oden_violated` |
| C164 | graphical_example_3_epsilon_jan.py:33-34 label the regions between the squares `ℓ = x_1` and `ℓ = x_2`; the function is `3 x_1 - 1` and `3 x_2 - 1`. | `C164_labels_violated` |
| C62 | points on the extension of a side are accepted | `C62_extension_accepted` |

## 6. Simplifications

Stated at the head of each model file; the main ones:

* No aliasing between Python objects, except in `Retag` and `VertexOps`, which have a store.
* No numpy broadcasting in slice additions; array shapes and ragged `np.array` results are left
  out; global dof shifts are non-negative.
* Where two errors are possible in one statement their order may be simplified; every accepted
  input is treated exactly.
* Vertices have one node tag.  Graph builders are used with a co-dimension not above the dimension.
* Timing, printing, colours, names and drawing are left out.

## 7. Not modelled

gmsh itself, meshio, basix, PETSc solvers, matplotlib; file formats; floating point;
parallel element construction (`joblib`, order-preserving).

## 8. Testing the theorems

`seeded/LOG.jsonl` lists wrong programs made by editing one definition of the model, with the
theorems that then fail.
