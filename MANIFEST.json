{
 "claims": [
  {
   "property": "C01",
   "status": "proved",
   "theorems": [
    "Verif.MeshBuild.C01_accepts_exactly",
    "Verif.MeshBuild.C01_ids_are_positions"
   ],
   "note": "Full, for every simplicial mesh file; acceptance is characterised exactly, including which exception is raised."
  },
  {
   "property": "C02",
   "status": "proved",
   "theorems": [
    "Verif.MeshBuild.C02_sub_entities"
   ],
   "note": "Full."
  },
  {
   "property": "C03",
   "status": "proved",
   "theorems": [
    "Verif.MeshBuild.C03_one_cell_per_node_set",
    "Verif.MeshBuild.C03_shared_face_same_id",
    "Verif.MeshBuild.C03_stored_iff_face"
   ],
   "note": "Full: uniqueness, shared face ids, and exact characterisation of the stored cells."
  },
  {
   "property": "C04",
   "status": "partial",
   "theorems": [
    "Verif.MeshBuild.C04_unused_point_leaves_empty_slot",
    "Verif.MeshBuild.C04_every_slot_filled_partial",
    "Verif.MeshBuild.C04_every_slot_filled_of_tagged_partial"
   ],
   "note": "False as stated: an unused point leaves an empty slot (witness theorem). The exact condition for all slots being filled is proved."
  },
  {
   "property": "C05",
   "status": "proved",
   "theorems": [
    "Verif.MeshBuild.C05_material_is_last_tag"
   ],
   "note": "Full."
  },
  {
   "property": "C06",
   "status": "partial",
   "theorems": [
    "Verif.MeshStore.C06_violated",
    "Verif.MeshStore.C06_position_violated",
    "Verif.MeshStore.C06_duplicate_entity_violated",
    "Verif.MeshStore.C06_partial",
    "Verif.MeshStore.C06_rejects"
   ],
   "note": "False as stated: the decimal concatenation key merges different entities (witness), and on built meshes the new id is not the position (witness, also through duplicate_entity). Proved for every sequence of insertions on an empty mesh when all tags have the same number of digits."
  },
  {
   "property": "C07",
   "status": "proved",
   "theorems": [
    "Verif.MeshGraph.C07_build_graph",
    "Verif.MeshGraph.C07_build_graph_on_physical_tags",
    "Verif.MeshGraph.C07_build_graph_from_cell_ids",
    "Verif.MeshGraph.C07_build_graph_on_materials",
    "Verif.MeshGraph.C07_codimension_zero",
    "Verif.MeshGraph.C07_empty_slot_rejected"
   ],
   "note": "Full, for all four builders, with the rejected inputs (negative target dimension, empty slot, id out of range, wrong container)."
  },
  {
   "property": "C08",
   "status": "proved",
   "theorems": [
    "Verif.MeshGraph.C08_topology_dimension",
    "Verif.MeshGraph.C08_entities_on_tags",
    "Verif.MeshGraph.C08_entities"
   ],
   "note": "Full."
  },
  {
   "property": "C09",
   "status": "proved",
   "theorems": [
    "Verif.MeshGraph.C09_higher_neighbours"
   ],
   "note": "Full, with the rejected cells."
  },
  {
   "property": "C10",
   "status": "partial",
   "theorems": [
    "Verif.MeshStore.C10_accepts",
    "Verif.MeshStore.C10_no_reuse",
    "Verif.MeshStore.C10_rejects",
    "Verif.MeshStore.C10_positions_violated",
    "Verif.MeshStore.C10_positions_partial"
   ],
   "note": "No accepted batch reuses an id (full, with exact acceptance). The second half is false as stated: the exact condition under which ids stay positions is proved."
  },
  {
   "property": "C11",
   "status": "proved",
   "theorems": [
    "Verif.Dof.C11_blocks_tile",
    "Verif.Dof.C11_partition"
   ],
   "note": "Full for well formed meshes and reference elements with one dof list per dimension (as basix provides); basix itself is not modelled, num_entity_dofs is a parameter."
  },
  {
   "property": "C12",
   "status": "proved",
   "theorems": [
    "Verif.Dof.C12_dof_number",
    "Verif.Dof.C12_rejects"
   ],
   "note": "Full for well formed meshes and reference elements with one dof list per dimension (as basix provides); basix itself is not modelled, num_entity_dofs is a parameter."
  },
  {
   "property": "C13",
   "status": "proved",
   "theorems": [
    "Verif.Dof.C13_destinations",
    "Verif.Dof.C13_length",
    "Verif.Dof.C13_rejects"
   ],
   "note": "Full, with rejected cells; the length is stated for uniform entity dofs (simplices)."
  },
  {
   "property": "C14",
   "status": "proved",
   "theorems": [
    "Verif.Dof.C14_shared_iff_common_entity",
    "Verif.Dof.C14_discontinuous_disjoint"
   ],
   "note": "Full; discontinuous spaces are reference elements whose dofs are all interior (assumption on basix)."
  },
  {
   "property": "C15",
   "status": "proved",
   "theorems": [
    "Verif.Dof.C15_boundary_destinations",
    "Verif.Dof.C15_points_rejected"
   ],
   "note": "Full; spaces of dimension 0 are shown to raise."
  },
  {
   "property": "C16",
   "status": "proved",
   "theorems": [
    "Verif.Space.C16_intervals",
    "Verif.Space.C16_fields_disjoint",
    "Verif.Space.C16_covers",
    "Verif.Space.C16_rejects"
   ],
   "note": "Full, through construction (ProductSpace(data), make_subspaces_discontinuous, build_structures) for any fields on well formed meshes; covering is stated for fields with equally many elements, as the function only answers for indices valid in every field. basix is a parameter that returns one dof list per dimension."
  },
  {
   "property": "C17",
   "status": "proved",
   "theorems": [
    "Verif.Space.C17_setter",
    "Verif.Space.C17_history",
    "Verif.Space.C17_translation"
   ],
   "note": "Full: any history of assignments; translation including error cases."
  },
  {
   "property": "C18",
   "status": "proved",
   "theorems": [
    "Verif.Space.C18_boundary_destinations",
    "Verif.Space.C18_rejects"
   ],
   "note": "Full, with the error cases; the neighbour is the first predecessor in the incidence graph."
  },
  {
   "property": "C19",
   "status": "proved",
   "theorems": [
    "Verif.Space.C19_elements",
    "Verif.Space.C19_boundary_elements",
    "Verif.Space.C19_points_rejected"
   ],
   "note": "Full, with the rejected case of a space of points."
  },
  {
   "property": "C20",
   "status": "proved",
   "theorems": [
    "Verif.Space.C20_family",
    "Verif.Space.C20_boundary",
    "Verif.Space.C20_names",
    "Verif.Space.C20_elements"
   ],
   "note": "Full decision table, and carried to the elements of built spaces."
  },
  {
   "property": "C21",
   "status": "proved",
   "theorems": [
    "Verif.Assembly.C21_scatter",
    "Verif.Assembly.C21_untouched",
    "Verif.Assembly.C21_distinct",
    "Verif.Assembly.C21_rejects"
   ],
   "note": "Exact arithmetic over any commutative additive monoid; residual as a list, Jacobian as an n by n PETSc matrix with setValue(addv=True). Covers repeated destinations, untouched entries, distinct destinations and the out-of-range error."
  },
  {
   "property": "C22",
   "status": "proved",
   "theorems": [
    "Verif.Assembly.C22_sum",
    "Verif.Assembly.C22_order",
    "Verif.Assembly.C22_reorderings",
    "Verif.Assembly.C22_destinations_fit"
   ],
   "note": "The weak form is a parameter (space and evaluate_form). Order independence is over forms and over the entries of each sequence; holds in exact arithmetic."
  },
  {
   "property": "C23",
   "status": "proved",
   "theorems": [
    "Verif.Assembly.C23_dispatch",
    "Verif.Assembly.C23_unknown",
    "Verif.Assembly.C23_no_inputs"
   ],
   "note": "All six form types, the unknown-type KeyError, the tuple-size ValueError and the missing-inputs AttributeError."
  },
  {
   "property": "C24",
   "status": "partial",
   "theorems": [
    "Verif.Projector.C24_assembled_partial",
    "Verif.Projector.C24_exact_partial",
    "Verif.Projector.C24_shift_rejected",
    "Verif.Projector.C24_small_entries_dropped"
   ],
   "note": "False as stated: entries within about 1e-8 of zero are dropped (witness theorem). The assembled system is characterised exactly, and equals the mass matrix when only zero entries are dropped. A non-zero dof_shift argument always raises and leaves the space with shift 0. The linear solve (PETSc) is not modelled."
  },
  {
   "property": "C25",
   "status": "proved",
   "theorems": [
    "Verif.L2Form.C25_slice",
    "Verif.L2Form.C25_partition",
    "Verif.L2Form.C25_numbering"
   ],
   "note": "Full."
  },
  {
   "property": "C26",
   "status": "proved",
   "theorems": [
    "Verif.L2Form.C26_entries",
    "Verif.L2Form.C26_rejects",
    "Verif.L2Form.C26_symmetric",
    "Verif.L2Form.C26_consistent",
    "Verif.L2Form.C26_positive_semidefinite",
    "Verif.L2Form.C26_positive_definite"
   ],
   "note": "Full in exact arithmetic, plus positive definiteness and uniqueness of the coefficients for a unisolvent quadrature; element tabulation is a parameter."
  },
  {
   "property": "C27",
   "status": "proved",
   "theorems": [
    "Verif.Trace.C27_same_points",
    "Verif.Trace.C27_built_facets",
    "Verif.Trace.C27_rejects"
   ],
   "note": "Exact arithmetic over any commutative ring; reference simplices, facet connectivity and degree one shapes of basix are trusted data. C27_built_facets discharges the hypotheses for built meshes."
  },
  {
   "property": "C28",
   "status": "partial",
   "theorems": [
    "Verif.Orient.C28_code_partial",
    "Verif.Orient.C28_codes_distinct",
    "Verif.Orient.C28_boundary_overridden_violated",
    "Verif.Orient.C28_transformation",
    "Verif.Orient.C28_sorted_functions_partial",
    "Verif.Orient.C28_shared_face_partial"
   ],
   "note": "Holds for all faces except boundary faces 1 and 3, which lines 102-105 force to be reflected: C28_boundary_overridden_violated proves the violation. basix enters as a representation T of the vertex permutations."
  },
  {
   "property": "C29",
   "status": "proved",
   "theorems": [
    "Verif.Orient.C29_aligned",
    "Verif.Orient.C29_shared_edge",
    "Verif.Orient.C29_reflected",
    "Verif.Orient.C29_same_functions",
    "Verif.Orient.C29_tetrahedron_edges"
   ],
   "note": "For every built mesh; basix enters as a reflection matrix of order two."
  },
  {
   "property": "C30",
   "status": "proved",
   "theorems": [
    "Verif.MeshOps.C30_copies",
    "Verif.MeshOps.C30_fresh",
    "Verif.MeshOps.C30_rejects"
   ],
   "note": "Copies are numbered from the start id; freshness w.r.t. the mesh and acceptance by append_cells in C30_fresh. Originals unmodified: clone() is a deep copy, so the model copies by value."
  },
  {
   "property": "C31",
   "status": "proved",
   "theorems": [
    "Verif.MeshOps.C31_points",
    "Verif.MeshOps.C31_coincide",
    "Verif.MeshOps.C31_rejects"
   ],
   "note": "np.argsort is a parameter assumed to return a permutation of positions. C31_points covers non-zero bumps, C31_coincide the zero bump; exact real arithmetic."
  },
  {
   "property": "C32",
   "status": "partial",
   "theorems": [
    "Verif.MeshOps.C32_edges_partial",
    "Verif.MeshOps.C32_nodes",
    "Verif.MeshOps.C32_absent",
    "Verif.MeshOps.C32_same_node_violated",
    "Verif.MeshOps.C32_list"
   ],
   "note": "Replacing a node by itself deletes it (C32_same_node_violated); the edge theorem needs new different from old (an edge from the old node to itself is lost as well). C32_list covers replace_nodes_in_grahp on incidence graphs."
  },
  {
   "property": "C33",
   "status": "proved",
   "theorems": [
    "Verif.MeshOps.C33_replaces",
    "Verif.MeshOps.C33_keeps_mesh",
    "Verif.MeshOps.C33_rejects"
   ],
   "note": "For well-formed meshes with node tags agreeing with vertices; UpdateOK states what the pairs must satisfy. Absent old cells raise NetworkXError (C33_rejects)."
  },
  {
   "property": "C34",
   "status": "partial",
   "theorems": [
    "Verif.EmbedCut.C34_cut",
    "Verif.EmbedCut.C34_success",
    "Verif.EmbedCut.C34_unused_edge",
    "Verif.EmbedCut.C34_untagged",
    "Verif.EmbedCut.C34_tags",
    "Verif.EmbedCut.C34_own_copies",
    "Verif.EmbedCut.C34_separated",
    "Verif.EmbedCut.C34_connected",
    "Verif.EmbedCut.C34_fresh",
    "Verif.EmbedCut.C34_geometry",
    "Verif.EmbedCut.C34_vertex_copies_violated",
    "Verif.EmbedCut.C34_all_partial",
    "Verif.EmbedCut.C34_kept",
    "Verif.EmbedCut.C34_embedded_partial",
    "Verif.EmbedCut.C34_side",
    "Verif.EmbedCut.C34_refused"
   ],
   "note": "Separation, own copies, fresh ids, geometry and the whole loop are proved for every mesh in order of dimension two (CutOK); the copies of vertices name their node tag instead of themselves as sub-entity (C34_vertex_copies_violated), so the last clause fails. Success and the errors (cut edge in no triangle, missing tag, wrong domain) are characterised. The boundary points of an immersed wire are a parameter."
  },
  {
   "property": "C35",
   "status": "proved",
   "theorems": [
    "Verif.Skin.C35_sound",
    "Verif.Skin.C35_from_domain",
    "Verif.Skin.C35_terminates",
    "Verif.Skin.C35_complete",
    "Verif.Skin.C35_circulate",
    "Verif.Skin.C35_no_seed"
   ],
   "note": "The function has no path returning False: it returns True or raises (AssertionError for a skin that is not closed, IndexError without a seed, RecursionError for a skin longer than the recursion limit). C35_sound: True implies a closed cycle; C35_complete / C35_circulate: a manifold skin gives True."
  },
  {
   "property": "C36",
   "status": "partial",
   "theorems": [
    "Verif.MeshMetrics.C36_violated",
    "Verif.MeshMetrics.C36_violated_valueError",
    "Verif.MeshMetrics.C36_renumbering_partial"
   ],
   "note": "False as stated: the function raises for every input (witness theorem for all meshes). The renumbering and grouping of a non-empty list of coloured elements is proved correct."
  },
  {
   "property": "C37",
   "status": "proved",
   "theorems": [
    "Verif.MeshMetrics.C37_cell_diam",
    "Verif.MeshMetrics.C37_cell_diam_total",
    "Verif.MeshMetrics.C37_mesh_size",
    "Verif.MeshMetrics.C37_mesh_size_total",
    "Verif.MeshMetrics.C37_built"
   ],
   "note": "Full, over the reals: the diameter of the spanned simplex, min <= mean <= max, and the rejected inputs."
  },
  {
   "property": "C38",
   "status": "partial",
   "theorems": [
    "Verif.Topology.C38_reflexive",
    "Verif.Topology.C38_equal_partial",
    "Verif.Topology.C38_vertices",
    "Verif.Topology.C38_wire_edges",
    "Verif.Topology.C38_not_wire",
    "Verif.Topology.C38_edges",
    "Verif.Topology.C38_symmetric_partial",
    "Verif.Topology.C38_boundary_ignored",
    "Verif.Topology.C38_not_symmetric",
    "Verif.Topology.C38_vertex_and_edge"
   ],
   "note": "Reflexive; equality of equals is established for what the code compares (dimension, tag, immersed shapes). The comparison of boundary shapes is overwritten (shape.py:144), so boundaries are ignored and equality is not symmetric: both proved with witnesses. Shapes are modelled as trees."
  },
  {
   "property": "C39",
   "status": "proved",
   "theorems": [
    "Verif.Topology.C39_boundary_shapes",
    "Verif.Topology.C39_admissible",
    "Verif.Topology.C39_constructors",
    "Verif.Topology.C39_immersed_rejected"
   ],
   "note": "np.argsort is the stable insertion sort of the tags in the constructors' examples; the theorem holds for any argsort."
  },
  {
   "property": "C40",
   "status": "partial",
   "theorems": [
    "Verif.Topology.C40_wire_partial",
    "Verif.Topology.C40_wrong_start",
    "Verif.Topology.C40_rejects"
   ],
   "note": "Proved when the first edge's seed vertex is the start of the chain; with the other choice of the code the signs are wrong (C40_wrong_start). Coordinates are compared with numpy isclose in exact rational arithmetic."
  },
  {
   "property": "C41",
   "status": "proved",
   "theorems": [
    "Verif.Topology.C41_append",
    "Verif.Topology.C41_rejects",
    "Verif.Topology.C41_history",
    "Verif.Topology.C41_max_tag",
    "Verif.Topology.C41_physical_tags"
   ],
   "note": ""
  },
  {
   "property": "C42",
   "status": "partial",
   "theorems": [
    "Verif.Topology.C42_retag",
    "Verif.Topology.C42_in_order_partial",
    "Verif.Topology.C42_distinct",
    "Verif.Topology.C42_other_dimension_changed",
    "Verif.Topology.C42_edges_collide",
    "Verif.Topology.C42_all_partial",
    "Verif.Topology.C42_rejects"
   ],
   "note": "Proved for domains without immersed shapes, and exactly what happens otherwise. The guard in domain.py:58 tests the wrong shape, so immersed shapes of lower dimension are retagged and two edges can end with the same tag (witnesses). Shapes are mutable objects in a store here."
  },
  {
   "property": "C43",
   "status": "proved",
   "theorems": [
    "Verif.Topology.C43_graph",
    "Verif.Topology.C43_rejects"
   ],
   "note": ""
  },
  {
   "property": "C44",
   "status": "partial",
   "theorems": [
    "Verif.Topology.C44_create_partial",
    "Verif.Topology.C44_hash",
    "Verif.Topology.C44_no_minus_one",
    "Verif.Topology.C44_nonnegative_tags",
    "Verif.Topology.C44_shape_lost",
    "Verif.Topology.C44_rejects"
   ],
   "note": "Proved when the Python hashes of (dimension, tag) do not collide; hash(-1) = hash(-2) makes the code lose a shape (C44_shape_lost). The combination of the hashes of a tuple is a parameter. Non-negative tags are free of this under an injective combination."
  },
  {
   "property": "C45",
   "status": "proved",
   "theorems": [
    "Verif.VertexOps.C45_none",
    "Verif.VertexOps.C45_split",
    "Verif.VertexOps.C45_tags",
    "Verif.VertexOps.C45_joint"
   ],
   "note": "Tolerances: tools are at an end or on the edge, or not within the tolerances (Clear). C45_joint: the new edges share no vertex at their joints."
  },
  {
   "property": "C46",
   "status": "proved",
   "theorems": [
    "Verif.VertexOps.C46_tags"
   ],
   "note": "Under the same hypothesis on the tools (Clear) for every edge."
  },
  {
   "property": "C47",
   "status": "partial",
   "theorems": [
    "Verif.VertexOps.C47_edge_partial",
    "Verif.VertexOps.C47_exact_partial",
    "Verif.VertexOps.C47_snap_partial",
    "Verif.VertexOps.C47_no_intersection",
    "Verif.VertexOps.C47_collides",
    "Verif.VertexOps.C47_witness"
   ],
   "note": "Fails as stated: C47_collides and C47_witness (the next edge starts with the last tag of the edge before), C47_no_intersection (ValueError). Partial: distinct tags within one edge."
  },
  {
   "property": "C48",
   "status": "proved",
   "theorems": [
    "Verif.Mesher.C48_geo",
    "Verif.Mesher.C48_calls",
    "Verif.Mesher.C48_lines",
    "Verif.Mesher.C48_groups",
    "Verif.Mesher.C48_ranges",
    "Verif.Mesher.C48_occ",
    "Verif.Mesher.C48_embed",
    "Verif.Mesher.C48_curve_groups",
    "Verif.Mesher.C48_no_curves",
    "Verif.Mesher.C48_composite_group"
   ],
   "note": "Both variants of transfer_domain are modelled as the list of gmsh calls they make. For complete domains the transfer succeeds, tags are positive and distinct, every call refers to entities made before; the calls, groups and embeddings are characterised; ranges of different dimensions do not overlap. Disagreement recorded: a physical tag on a composite curve makes a group of a curve that is never created (C48_composite_group)."
  },
  {
   "property": "C49",
   "status": "partial",
   "theorems": [
    "Verif.Fracture.C49_injective",
    "Verif.Fracture.C49_unpair_partial",
    "Verif.Fracture.C49_unpair_fails"
   ],
   "note": "Injectivity is proved for all pairs (Szudzik pairing). unpair_intergers takes the square root without rounding down, so in exact arithmetic it recovers a pair exactly when its first number is 0 (C49_unpair_partial; C49_unpair_fails: the code of (1,2) is decoded as (0, sqrt 5))."
  },
  {
   "property": "C50",
   "status": "proved",
   "theorems": [
    "Verif.Geometry.C50_accepts",
    "Verif.Geometry.C50_rejects",
    "Verif.Geometry.C50_exact"
   ],
   "note": "Segments are Mathlib's segment; accept for every tolerance, reject for all small tolerances, exact equivalence at tolerance zero. Exact real arithmetic."
  },
  {
   "property": "C51",
   "status": "partial",
   "theorems": [
    "Verif.Geometry.C51_lines_triangle_partial",
    "Verif.Geometry.C51_lines_polygon",
    "Verif.Geometry.C51_false_kept",
    "Verif.Geometry.C51_points_line",
    "Verif.Geometry.C51_points_triangle",
    "Verif.Geometry.C51_points_polygon"
   ],
   "note": "Proved for points against a line, a triangle and a polygon and for lines against a polygon. For lines against a triangle the property fails: False is kept among the results though unmarked (C51_false_kept); partial theorem under the hypothesis that no line gives False. lines_lines_intersection returns no mask."
  },
  {
   "property": "C52",
   "status": "partial",
   "theorems": [
    "Verif.Geometry.C52_exact",
    "Verif.Geometry.C52_accepts",
    "Verif.Geometry.C52_rejects",
    "Verif.Geometry.C52_contained_missed",
    "Verif.Geometry.C52_test_exact",
    "Verif.Geometry.C52_test_partial",
    "Verif.Geometry.C52_test_collinear_disjoint"
   ],
   "note": "line_line_intersection is proved exact for non-parallel segments (any least squares solver). For parallel segments a contained segment is missed (C52_contained_missed). The segment test of TriangleTriangleIntersectionTest is exact for segments of a plane that are not on one line (C52_test_exact, C52_test_partial); segments on one line are reported as intersecting even when disjoint (C52_test_collinear_disjoint)."
  },
  {
   "property": "C53",
   "status": "proved",
   "theorems": [
    "Verif.Geometry.C53_triangles",
    "Verif.Geometry.C53_area",
    "Verif.Geometry.C53_rejects"
   ],
   "note": "Vector areas over the reals; the triangle list and error for fewer than three points are also given."
  },
  {
   "property": "C54",
   "status": "partial",
   "theorems": [
    "Verif.Fracture.C54_insert",
    "Verif.Fracture.C54_network_partial",
    "Verif.Fracture.C54_rejected",
    "Verif.Fracture.C54_shared_end_twice"
   ],
   "note": "One insertion is fully described. The whole construction never fails and keeps vertices and points in correspondence; the stored points are apart exactly when the end points of the fractures are, because end points are stored without looking for an existing vertex (C54_shared_end_twice)."
  },
  {
   "property": "C55",
   "status": "proved",
   "theorems": [
    "Verif.Normal.C55_vertex",
    "Verif.Normal.C55_edge",
    "Verif.Normal.C55_face",
    "Verif.Normal.C55_convex",
    "Verif.Normal.C55_unique",
    "Verif.Normal.C55_degenerate"
   ],
   "note": "Exact arithmetic; nan results are modelled as none. The normal is characterised uniquely (C55_unique): unit, orthogonal to the facet, in the space of the cell, opposite node strictly behind; proved for facets of non-degenerate segments, triangles and tetrahedra with any node orders."
  },
  {
   "property": "C56",
   "status": "partial",
   "theorems": [
    "Verif.MeshGraph.C56_lower_neighbours_are_self_or_none_partial",
    "Verif.MeshGraph.C56_lower_neighbours_violated"
   ],
   "note": "False as stated: the wrong graph is searched. The exact result (the cell itself, or nothing) is proved."
  },
  {
   "property": "C57",
   "status": "proved",
   "theorems": [
    "Verif.Mapping.C57_determinant_and_inverse",
    "Verif.Mapping.C57_rejects_degenerate",
    "Verif.Mapping.C57_jacobian",
    "Verif.Mapping.C57_edge_length"
   ],
   "note": "np.linalg.qr is a parameter: the statements hold for every reduced QR decomposition."
  },
  {
   "property": "C58",
   "status": "proved",
   "theorems": [
    "Verif.MeshOps.C58_cut",
    "Verif.MeshOps.C58_separates",
    "Verif.MeshOps.C58_geometry",
    "Verif.MeshOps.C58_copies_geometry",
    "Verif.MeshOps.C58_conforming",
    "Verif.MeshOps.C58_rejects",
    "Verif.MeshOps.C58_lines",
    "Verif.MeshOps.C58_side"
   ],
   "note": "exact real arithmetic; the test that an edge is on the segment (onLine) and numpy's argsort are parameters, the former arbitrary, the latter any sorting permutation; conforming needs a mesh that follows the line (FollowsLine)"
  },
  {
   "property": "C59",
   "status": "partial",
   "theorems": [
    "Verif.Topology.C59_contains_partial",
    "Verif.Topology.C59_twice_is_absent"
   ],
   "note": "Proved when no two of the boundary or immersed shapes are equal to the other shape; one listed twice is reported absent (count == 1)."
  },
  {
   "property": "C60",
   "status": "proved",
   "theorems": [
    "Verif.Geometry.C60_accepts",
    "Verif.Geometry.C60_rejects",
    "Verif.Geometry.C60_exact",
    "Verif.Geometry.C60_close"
   ],
   "note": "Also for degenerate triangles where stated in the theorem."
  },
  {
   "property": "C61",
   "status": "proved",
   "theorems": [
    "Verif.Geometry.C61_accepts",
    "Verif.Geometry.C61_rejects",
    "Verif.Geometry.C61_error"
   ],
   "note": "The triangulation is a parameter; covering of the polygon by the convex fan is C53 (area)."
  },
  {
   "property": "C62",
   "status": "partial",
   "theorems": [
    "Verif.Geometry.C62_accepts",
    "Verif.Geometry.C62_rejects_partial",
    "Verif.Geometry.C62_extension_accepted"
   ],
   "note": "Every point of the triangle is accepted. Points of the plane off the lines through the sides are rejected by all small tolerances; a point beyond the end of a side, on the line through it, is accepted (C62_extension_accepted)."
  },
  {
   "property": "C63",
   "status": "proved",
   "theorems": [
    "Verif.Geometry.C63_line_plane"
   ],
   "note": ""
  },
  {
   "property": "C64",
   "status": "proved",
   "theorems": [
    "Verif.Fracture.C64_split"
   ],
   "note": "np.argsort is a parameter (any sorting permutation). Exact arithmetic; general position is the hypothesis FracOK, shown satisfiable by the two diagonals of a square."
  },
  {
   "property": "C65",
   "status": "partial",
   "theorems": [
    "Verif.Laplace.C65_system",
    "Verif.Laplace.C65_derivative",
    "Verif.Laplace.C65_saddle",
    "Verif.Laplace.C65_energy",
    "Verif.Laplace.C65_components_refused",
    "Verif.Laplace.C65_unset_refused",
    "Verif.Laplace.C65_missing_data",
    "Verif.Laplace.C65_boundary",
    "Verif.Laplace.C65_alpha_ignored_violated"
   ],
   "note": "The residual is always the one in 0: the argument alpha is overwritten (C65_alpha_ignored_violated). In 0 the residual and the matrix are right, and the differentiated form has the right value and derivative in every alpha (C65_derivative)."
  },
  {
   "property": "C66",
   "status": "partial",
   "theorems": [
    "Verif.Laplace.C66_quadrature",
    "Verif.Laplace.C66_raises_violated",
    "Verif.Laplace.C66_system_partial",
    "Verif.Laplace.C66_components_refused",
    "Verif.Laplace.C66_symmetric",
    "Verif.Laplace.C66_flat_partial",
    "Verif.Laplace.C66_tilted_violated"
   ],
   "note": "evaluate_form raises on every product space because it unpacks the list of four quadratures into two (C66_raises_violated). With that repaired the system is right (C66_system_partial) except that the third gradient component is dropped on tilted triangles (C66_tilted_violated)."
  },
  {
   "property": "C67",
   "status": "partial",
   "theorems": [
    "Verif.L2Error.C67_error_partial",
    "Verif.L2Error.C67_projected_partial",
    "Verif.L2Error.C67_norm_partial",
    "Verif.L2Error.C67_zero_iff",
    "Verif.L2Error.C67_reduces",
    "Verif.L2Error.C67_pythagoras",
    "Verif.L2Error.C67_best_partial",
    "Verif.L2Error.C67_refused",
    "Verif.L2Error.C67_columns_refused",
    "Verif.L2Error.C67_no_rule",
    "Verif.L2Error.C67_components_ignored_violated"
   ],
   "note": "Scalar fields with more components than the dimension are cut to the first dim components, so their error is wrong (C67_components_ignored_violated); all other fields are right."
  },
  {
   "property": "C68",
   "status": "proved",
   "theorems": [
    "Verif.DomainOps.C68_difference",
    "Verif.DomainOps.C68_parts",
    "Verif.DomainOps.C68_points"
   ],
   "note": "Hypotheses: tools and edges clear of each other up to the tolerances (Clear), start tag above all tags in use, tags identify vertices. C68_difference: result edge by edge, vertices are the ends of the edges, tags distinct and new tags from the start tag on. C68_points, C68_parts: same points, no tool inside an edge, physical tags kept."
  },
  {
   "property": "C69",
   "status": "partial",
   "theorems": [
    "Verif.DomainOps.C69_union",
    "Verif.DomainOps.C69_mergeable",
    "Verif.DomainOps.C69_difference_union",
    "Verif.DomainOps.C69_shared_violated"
   ],
   "note": "C69_union: under Mergeable (a replaced vertex is the end of one edge only) the union is the first domain with all vertices near a tool replaced. C69_mergeable, C69_difference_union: this holds after a difference with separated tools, and parts meeting at a tool share it. C69_shared_violated: a vertex shared by two edges is replaced in the first edge only and the other edge loses an end, so the property fails in general. Edges and unmatched vertices of the second domain never enter the result."
  },
  {
   "property": "C70",
   "status": "proved",
   "theorems": [
    "Verif.Topology.C70_line",
    "Verif.Topology.C70_line_rejects",
    "Verif.Topology.C70_polygon",
    "Verif.Topology.C70_polygon_transfer",
    "Verif.Topology.C70_polygon_rejects",
    "Verif.Topology.C70_box",
    "Verif.Topology.C70_box_transfer",
    "Verif.Topology.C70_box_rejects"
   ],
   "note": "The graph stored by build_grahp is left to C43. The sharing of Python objects between the shapes of a domain is not modelled (shapes are trees)."
  },
  {
   "property": "C71",
   "status": "proved",
   "theorems": [
    "Verif.Elasticity.C71_system",
    "Verif.Elasticity.C71_energy",
    "Verif.Elasticity.C71_rigid",
    "Verif.Elasticity.C71_rigid_motions",
    "Verif.Elasticity.C71_kernel",
    "Verif.Elasticity.C71_components_refused",
    "Verif.Elasticity.C71_unset_refused",
    "Verif.Elasticity.C71_constraint",
    "Verif.Elasticity.C71_constraint_consistent"
   ],
   "note": "In exact arithmetic, for the values tabulated in the quadrature points; automatic differentiation is evaluation in dual numbers."
  },
  {
   "property": "C72",
   "status": "partial",
   "theorems": [
    "Verif.Elasticity.C72_penalty",
    "Verif.Elasticity.C72_dirichlet",
    "Verif.Elasticity.C72_dirichlet_exact",
    "Verif.Elasticity.C72_neumann",
    "Verif.Elasticity.C72_normal_partial",
    "Verif.Elasticity.C72_normal_diagonal",
    "Verif.Elasticity.C72_normal_refused",
    "Verif.Elasticity.C72_normal_violated"
   ],
   "note": "The normal Dirichlet term is right only for facets across a coordinate axis (C72_normal_partial). C72_normal_violated: for the normal (3/5, 4/5) the system of the term has one solution, whose normal displacement is twice the prescribed one, because the products of different normal components are missing from the matrix."
  },
  {
   "property": "C73",
   "status": "proved",
   "theorems": [
    "Verif.Cosserat.C73_system",
    "Verif.Cosserat.C73_energy",
    "Verif.Cosserat.C73_rigid",
    "Verif.Cosserat.C73_rigid_motions",
    "Verif.Cosserat.C73_kernel",
    "Verif.Cosserat.C73_components_refused",
    "Verif.Cosserat.C73_unset_refused",
    "Verif.Cosserat.C73_dirichlet"
   ],
   "note": "Exact arithmetic; tabulations, determinants, pseudo-inverses and data in the quadrature points are parameters; scalar basis functions."
  },
  {
   "property": "C74",
   "status": "proved",
   "theorems": [
    "Verif.TaylorHood.C74_system",
    "Verif.TaylorHood.C74_symmetric",
    "Verif.TaylorHood.C74_elimination",
    "Verif.TaylorHood.C74_stability",
    "Verif.TaylorHood.C74_kernel",
    "Verif.TaylorHood.C74_refused",
    "Verif.TaylorHood.C74_unset_refused"
   ],
   "note": "Exact arithmetic; a point with lambda + mu = 0 gives infinite values in the code and is excluded where the quotient matters. The Dirichlet term of this file is the one of C72."
  },
  {
   "property": "C75",
   "status": "partial",
   "theorems": [
    "Verif.Degenerate.C75_system",
    "Verif.Degenerate.C75_energy",
    "Verif.Degenerate.C75_decoupled",
    "Verif.Degenerate.C75_boundary_partial",
    "Verif.Degenerate.C75_boundary_violated",
    "Verif.Degenerate.C75_components_refused",
    "Verif.Degenerate.C75_unset_refused",
    "Verif.Degenerate.C75_missing_data"
   ],
   "note": "Disagreement: on facets without porosity the boundary datum is taken with the factor one, where the interior has the factor zero (C75_boundary_violated). The square root is a parameter."
  },
  {
   "property": "C76",
   "status": "partial",
   "theorems": [
    "Verif.Degenerate.C76_threshold",
    "Verif.Degenerate.C76_system_partial",
    "Verif.Degenerate.C76_negative_violated",
    "Verif.Degenerate.C76_components_refused",
    "Verif.Degenerate.C76_energy",
    "Verif.Degenerate.C76_scaling"
   ],
   "note": "Disagreement: a negative porosity is replaced by the threshold in the matrix, but makes every residual of the pressure nan (C76_negative_violated). The square root is a parameter with root^2 = phi where needed."
  },
  {
   "property": "C77",
   "status": "proved",
   "theorems": [
    "Verif.Degenerate.C77_system",
    "Verif.Degenerate.C77_projection"
   ],
   "note": "The square root is a parameter. Where the porosity is not positive the code leaves the scaled fields as they are."
  },
  {
   "property": "C78",
   "status": "proved",
   "theorems": [
    "Verif.Dual.C78_system",
    "Verif.Dual.C78_vectorized",
    "Verif.Dual.C78_law",
    "Verif.Dual.C78_saddle",
    "Verif.Dual.C78_components_refused",
    "Verif.Dual.C78_unset_refused"
   ],
   "note": ""
  },
  {
   "property": "C79",
   "status": "proved",
   "theorems": [
    "Verif.Dual.C79_system",
    "Verif.Dual.C79_vectorized",
    "Verif.Dual.C79_inner_product"
   ],
   "note": ""
  },
  {
   "property": "C80",
   "status": "partial",
   "theorems": [
    "Verif.Dual.C80_dirichlet",
    "Verif.Dual.C80_dirichlet_le",
    "Verif.Dual.C80_neumann_partial",
    "Verif.Dual.C80_neumann_energy",
    "Verif.Dual.C80_refused",
    "Verif.Dual.C80_unset_refused",
    "Verif.Dual.C80_neumann_violated"
   ],
   "note": "The Dirichlet terms and the Neumann terms of lce_dual_weak_form.py are as stated; those of lce_scaled_dual_weak_form.py and le_dual_weak_form.py always raise (C80_neumann_violated). The scaled Dirichlet term multiplies the rotation by l + 1e-16, which the theorem states."
  },
  {
   "property": "C81",
   "status": "partial",
   "theorems": [
    "Verif.Dual.C81_vectorized",
    "Verif.Dual.C81_law",
    "Verif.Dual.C81_saddle",
    "Verif.Dual.C81_riesz",
    "Verif.Dual.C81_inner_product",
    "Verif.Dual.C81_unset_refused",
    "Verif.Dual.C81_raises_violated"
   ],
   "note": "Proved for evaluate_form_vectorized. evaluate_form always raises, because it unpacks the list of four quadratures into two variables (C81_raises_violated)."
  },
  {
   "property": "C82",
   "status": "partial",
   "theorems": [
    "Verif.DivError.C82_error_partial",
    "Verif.DivError.C82_scaled_partial",
    "Verif.DivError.C82_unscaled",
    "Verif.DivError.C82_norm",
    "Verif.DivError.C82_zero_iff",
    "Verif.DivError.C82_relative",
    "Verif.DivError.C82_missing",
    "Verif.DivError.C82_shape",
    "Verif.DivError.C82_no_rule",
    "Verif.DivError.C82_fields",
    "Verif.DivError.C82_scalar_violated",
    "Verif.DivError.C82_grad_violated",
    "Verif.DivError.C82_deviator_violated",
    "Verif.DivError.C82_dimension_one_violated",
    "Verif.DivError.C82_scalar_witness_violated"
   ],
   "note": "Errors and norms are as stated for exact divergences with an array of n_comp values. Scalar values are compared over all pairs of points (C82_scalar_violated, C82_scalar_witness_violated); grad_error, devia_l2_error and devia_l2_norm always raise (C82_grad_violated, C82_deviator_violated); in dimension one errors and norms speak of different fields (C82_dimension_one_violated)."
  },
  {
   "property": "C83",
   "status": "partial",
   "theorems": [
    "Verif.Vtk.C83_average",
    "Verif.Vtk.C83_continuous",
    "Verif.Vtk.C83_between",
    "Verif.Vtk.C83_write_partial",
    "Verif.Vtk.C83_write_exact_partial",
    "Verif.Vtk.C83_cells_violated",
    "Verif.Vtk.C83_error_partial",
    "Verif.Vtk.C83_write_errors_partial",
    "Verif.Vtk.C83_write_spaces_partial",
    "Verif.Vtk.C83_missing",
    "Verif.Vtk.C83_alien",
    "Verif.Vtk.C83_exact_only",
    "Verif.Vtk.C83_error_violated",
    "Verif.Vtk.C83_error_witness_violated",
    "Verif.Vtk.C83_components_violated",
    "Verif.Vtk.C83_cells_witness_violated"
   ],
   "note": "Means, centre values and exact values are as stated. The cells written by write_vtk_file_with_exact_solution are those with the tags of the last field (C83_cells_violated, C83_cells_witness_violated); pointwise errors of one dimensional exact values compare all pairs of components (C83_error_violated, C83_error_witness_violated); scalar families with more components than dimensions are refused or lose components (C83_components_violated)."
  },
  {
   "property": "C84",
   "status": "partial",
   "theorems": [
    "Verif.DiscreteDomain.C84_transfer_partial",
    "Verif.DiscreteDomain.C84_calls",
    "Verif.DiscreteDomain.C84_groups",
    "Verif.DiscreteDomain.C84_refined",
    "Verif.DiscreteDomain.C84_embed",
    "Verif.DiscreteDomain.C84_loop_partial",
    "Verif.DiscreteDomain.C84_three_violated",
    "Verif.DiscreteDomain.C84_three",
    "Verif.DiscreteDomain.C84_no_wire",
    "Verif.DiscreteDomain.C84_ranges_partial",
    "Verif.DiscreteDomain.C84_left_out",
    "Verif.DiscreteDomain.C84_places",
    "Verif.DiscreteDomain.C84_ranges_violated",
    "Verif.DiscreteDomain.C84_immersed_vertex_violated",
    "Verif.DiscreteDomain.C84_shell_violated"
   ],
   "note": "Holds in the dimensions zero to two, with tags that are distinct in each dimension (C84_transfer_partial, C84_calls, C84_groups, C84_refined, C84_embed; loops as in C40). In three dimensions NameError is raised (C84_three_violated); the tags of different dimensions may coincide (C84_ranges_violated); vertices immersed in an embedded curve are taken for curves (C84_immersed_vertex_violated); the group of a shell refers to a surface that does not exist (C84_shell_violated)."
  },
  {
   "property": "C85",
   "status": "partial",
   "theorems": [
    "Verif.Builder.C85_polygon",
    "Verif.Builder.C85_line",
    "Verif.Builder.C85_box",
    "Verif.Builder.C85_rejects",
    "Verif.Builder.C85_tags",
    "Verif.Builder.C85_line_violated",
    "Verif.Builder.C85_again_violated",
    "Verif.Builder.C85_points_violated"
   ],
   "note": "Holds for one box per builder with the right number of points (C85_line, C85_polygon, C85_box, C85_rejects). Further points of a line are isolated and missing in the graph (C85_line_violated), a second box on the same builder takes the vertices of the first (C85_again_violated), and a box of nine points gets vertices in place of edges (C85_points_violated)."
  },
  {
   "property": "C86",
   "status": "partial",
   "theorems": [
    "Verif.Builder.C86_polygon",
    "Verif.Builder.C86_polygon_valid",
    "Verif.Builder.C86_line",
    "Verif.Builder.C86_box",
    "Verif.Builder.C86_box_valid",
    "Verif.Builder.C86_rejects",
    "Verif.Builder.C86_untagged",
    "Verif.Builder.C86_default_violated"
   ],
   "note": "Holds when every side has a tag (C86_polygon, C86_polygon_valid, C86_line, C86_box, C86_box_valid, C86_rejects, C86_untagged). With the default tags a polygon of more than four corners raises TypeError (C86_default_violated)."
  },
  {
   "property": "C87",
   "status": "partial",
   "theorems": [
    "Verif.Builder.C87_network",
    "Verif.Builder.C87_valid",
    "Verif.Builder.C87_groups",
    "Verif.Builder.C87_rejects",
    "Verif.Builder.C87_write",
    "Verif.Builder.C87_again_violated",
    "Verif.Builder.C87_default_violated",
    "Verif.Builder.C87_pieces_violated",
    "Verif.Builder.C87_code_violated"
   ],
   "note": "Holds for a network whose graph was built with all edges and was not meshed before (C87_network, C87_valid, C87_groups, C87_write, C87_rejects), if the tags of sides, fractures and crossings differ. They do not by default (C87_default_violated, C87_code_violated), the default graph gives each piece a group of the same name (C87_pieces_violated), and write_mesh leaves the shifted ids of cells, so that a new graph of the same network raises IndexError (C87_again_violated)."
  },
  {
   "property": "C88",
   "status": "partial",
   "theorems": [
    "Verif.EdgeOps.C88_empty",
    "Verif.EdgeOps.C88_sound",
    "Verif.EdgeOps.C88_one_edge_partial",
    "Verif.EdgeOps.C88_lost_violated"
   ],
   "note": "Holds for one edge (C88_one_edge_partial) and no vertex is wrong for many (C88_sound, C88_empty). With two edges tags collide and vertices are lost (C88_lost_violated); an edge without tool raises ValueError (C88_one_edge_partial)."
  },
  {
   "property": "C89",
   "status": "partial",
   "theorems": [
    "Verif.EdgeOps.C89_collapse_vertex",
    "Verif.EdgeOps.C89_collapse_edge",
    "Verif.EdgeOps.C89_vertex_vertex",
    "Verif.EdgeOps.C89_exact_partial",
    "Verif.EdgeOps.C89_accepts_partial",
    "Verif.EdgeOps.C89_rejects",
    "Verif.EdgeOps.C89_tag_violated",
    "Verif.EdgeOps.C89_corner_violated",
    "Verif.EdgeOps.C89_row_violated",
    "Verif.EdgeOps.C89_contained_violated",
    "Verif.EdgeOps.C89_overlap_violated",
    "Verif.EdgeOps.C89_reversed_violated"
   ],
   "note": "Holds for the place (C89_exact_partial, C89_accepts_partial, C89_rejects) of edges that are not parallel and for collapses (C89_collapse_vertex, C89_collapse_edge, C89_vertex_vertex). The tag of a vertex at an end is the tolerance (C89_tag_violated, C89_corner_violated), a crossing is stored as a row (C89_row_violated), contained and overlapping edges are missed or reduced to one point (C89_contained_violated, C89_overlap_violated), and edges with opposite orders of tags are never the same (C89_reversed_violated)."
  },
  {
   "property": "C90",
   "status": "partial",
   "theorems": [
    "Verif.Basis.C90_point",
    "Verif.Basis.C90_mapped",
    "Verif.Basis.C90_scalar",
    "Verif.Basis.C90_rejects",
    "Verif.Basis.C90_flux",
    "Verif.Basis.C90_flux_triangle",
    "Verif.Basis.C90_circulation",
    "Verif.Basis.C90_line_partial",
    "Verif.Basis.C90_line_rejects",
    "Verif.Basis.C90_vertical_violated",
    "Verif.Basis.C90_points_violated"
   ],
   "note": "Holds in dimensions 0, 2 and 3 (C90_point, C90_mapped, C90_scalar, C90_flux_triangle, C90_circulation, C90_rejects), with fluxes of the opposite sign on tetrahedra of negative orientation (C90_flux). On edges the vector families are scaled with the first component of the tangent (C90_line_partial): they vanish on vertical edges (C90_vertical_violated) and are refused unless there are as many points as functions or one point (C90_line_rejects, C90_points_violated)."
  },
  {
   "property": "C91",
   "status": "partial",
   "theorems": [
    "Verif.BasisTrace.C91_by_id_partial",
    "Verif.BasisTrace.C91_rejects",
    "Verif.BasisTrace.C91_by_index_violated",
    "Verif.BasisTrace.C91_trace_violated",
    "Verif.BasisTrace.C91_product_violated"
   ],
   "note": "Holds where the id is taken from the pair of dimension and id (C91_by_id_partial, C91_rejects). In basis_trace.py:45, laplace_primal_weak_form.py:109, le_dual_weak_form.py:613 and lce_scaled_dual_weak_form.py:855, 873 the pair itself is looked up among the ids, which always raises KeyError (C91_by_index_violated, C91_trace_violated, C91_product_violated)."
  },
  {
   "property": "C92",
   "status": "partial",
   "theorems": [
    "Verif.BasisTrace.C92_points",
    "Verif.BasisTrace.C92_selected",
    "Verif.BasisTrace.C92_rejects",
    "Verif.BasisTrace.C92_numbers",
    "Verif.BasisTrace.C92_two_sides",
    "Verif.BasisTrace.C92_linear_violated"
   ],
   "note": "Holds for elements whose functions on a facet all belong to the facet itself, such as RT, BDM and discontinuous ones (C92_points, C92_selected, C92_numbers, C92_two_sides, C92_rejects). Functions of the vertices and edges of the facet are not selected: for linear Lagrange functions on a triangle the result is empty (C92_linear_violated)."
  },
  {
   "property": "C93",
   "status": "partial",
   "theorems": [
    "Verif.PrimalBoundary.C93_numbers_partial",
    "Verif.PrimalBoundary.C93_system_partial",
    "Verif.PrimalBoundary.C93_rejects",
    "Verif.PrimalBoundary.C93_form_partial",
    "Verif.PrimalBoundary.C93_raises_violated",
    "Verif.PrimalBoundary.C93_cubic_violated"
   ],
   "note": "Proved for the code with the element of the neighbour given and at most one function per entity, i.e. Lagrange elements up to order two (C93_numbers_partial, C93_system_partial, C93_rejects). In the code the search for the neighbour raises KeyError on every built space (C93_raises_violated), and only the first function of each entity is used, so that from order three on the shapes do not match (C93_cubic_violated)."
  },
  {
   "property": "C94",
   "status": "partial",
   "theorems": [
    "Verif.Polygon.C94_normal_partial",
    "Verif.Polygon.C94_turns",
    "Verif.Polygon.C94_small",
    "Verif.Polygon.C94_convex_partial",
    "Verif.Polygon.C94_equidistant",
    "Verif.Polygon.C94_quadrilateral",
    "Verif.Polygon.C94_parallelogram_violated",
    "Verif.Polygon.C94_star_violated"
   ],
   "note": "The normal is a unit normal or zero (C94_normal_partial); the test is characterised (C94_turns, C94_small), sound for quadrilaterals (C94_quadrilateral) and complete where the normal is not zero (C94_convex_partial), in particular for vertices at the same distance from the mean (C94_equidistant). For parallelograms with different diagonals of ratio below three the normal is zero and they are not convex for the program (C94_parallelogram_violated); a star with five points passes (C94_star_violated)."
  },
  {
   "property": "C95",
   "status": "partial",
   "theorems": [
    "Verif.Polygon.C95_kept",
    "Verif.Polygon.C95_kept_iff",
    "Verif.Polygon.C95_hull_violated",
    "Verif.Polygon.C95_winding",
    "Verif.Polygon.C95_defined",
    "Verif.Polygon.C95_reverse",
    "Verif.Polygon.C95_outside",
    "Verif.Polygon.C95_inside",
    "Verif.Polygon.C95_inside_small",
    "Verif.Polygon.C95_cut"
   ],
   "note": "Everything about the winding number is proved (C95_winding, C95_defined, C95_reverse, C95_outside, C95_inside, C95_inside_small, C95_cut), and which triangles are kept (C95_kept, C95_kept_iff). That they cover the polygon and nothing else is false: Delaunay's method ignores the edges (C95_hull_violated, with a polygon of five vertices all of whose Delaunay triangles are kept)."
  },
  {
   "property": "C96",
   "status": "partial",
   "theorems": [
    "Verif.MdBox.C96_box",
    "Verif.MdBox.C96_restrict",
    "Verif.MdBox.C96_sides",
    "Verif.MdBox.C96_closed_partial",
    "Verif.MdBox.C96_last_side_violated",
    "Verif.MdBox.C96_square_violated",
    "Verif.MdBox.C96_same_tag_violated",
    "Verif.MdBox.C96_default_tags_violated",
    "Verif.MdBox.C96_rejects",
    "Verif.MdBox.C96_tools"
   ],
   "note": "The box and its sides are read off as they should (C96_box), the vertices at which shapes are cut are those where fractures meet each other or a side (C96_tools), the restriction keeps what is in the box (C96_restrict), and if the physical tags tell the sides apart the face is bounded by the sides in turn, each in order from its first to its second end (C96_sides). The wire is a closed loop if no fracture ends on the last side (C96_closed_partial). If one ends inside the last side it is never closed (C96_last_side_violated, C96_square_violated for the unit square). Sides with equal physical tags share their edges (C96_same_tag_violated), as the default tags give for six or more corners (C96_default_tags_violated). Error branches: C96_rejects."
  },
  {
   "property": "C97",
   "status": "partial",
   "theorems": [
    "Verif.Geometry.C97_segment_partial",
    "Verif.Geometry.C97_triangles_partial",
    "Verif.Geometry.C97_answers",
    "Verif.Geometry.C97_coplanar_violated",
    "Verif.Geometry.C97_touching_violated",
    "Verif.Geometry.C97_corner_violated",
    "Verif.Geometry.C97_one_violated",
    "Verif.Geometry.C97_extension_violated"
   ],
   "note": "For triangles in general position the answer describes the common points exactly (C97_triangles_partial), as does the answer for a segment in the plane of a triangle (C97_segment_partial). There is always an answer, and the cases for corners and sides in the plane are never reached (C97_answers). Outside general position: coplanar triangles are never found to intersect (C97_coplanar_violated), a triangle that touches is missed (C97_touching_violated), a common segment through a corner is missed (C97_corner_violated), one that begins at (1,1,1) is missed (C97_one_violated), and a point on the extension of a side is given as common (C97_extension_violated)."
  },
  {
   "property": "C98",
   "status": "partial",
   "theorems": [
    "Verif.Geometry.C98_quads_partial",
    "Verif.Geometry.C98_convex_partial",
    "Verif.Geometry.C98_corners",
    "Verif.Geometry.C98_first_four",
    "Verif.Geometry.C98_answers",
    "Verif.Geometry.C98_pentagon_violated",
    "Verif.Geometry.C98_reflex_violated"
   ],
   "note": "For convex quadrilaterals in general position the answer is exactly the segment of common points (C98_convex_partial); for plane quadrilaterals it spans the common points of the two triangles each is cut into (C98_quads_partial). With four corners there is an answer or, where a pair of triangles gives one point, a ValueError (C98_answers); fewer corners are an IndexError (C98_corners) and further corners are ignored (C98_first_four). So the test is wrong for polygons with more corners (C98_pentagon_violated), and for quadrilaterals whose second diagonal is outside (C98_reflex_violated)."
  },
  {
   "property": "C99",
   "status": "partial",
   "theorems": [
    "Verif.VertexOps.C99_split_partial",
    "Verif.VertexOps.C99_edge_partial",
    "Verif.VertexOps.C99_off_violated",
    "Verif.VertexOps.C99_lost_violated"
   ],
   "note": "Away from the tolerances the chosen vertices, the new ends and the chain of new edges are as stated, with the distance from the first end in place of being on the edge (C99_split_partial); for vertices on the edge the new edges cover it exactly and no vertex is lost (C99_edge_partial). Vertices behind the first end or beside the line are embedded as well (C99_off_violated), and a vertex on the edge near its second end may be left out (C99_lost_violated)."
  },
  {
   "property": "C100",
   "status": "partial",
   "theorems": [
    "Verif.VertexOps.C100_cut_partial",
    "Verif.VertexOps.C100_conforming_partial",
    "Verif.VertexOps.C100_overlap_violated",
    "Verif.VertexOps.C100_apart_violated"
   ],
   "note": "For edges in a plane that are pairwise not collinear, with nothing within the tolerances, the vertices, the pieces and all tags are as stated (C100_cut_partial) and the result conforms (C100_conforming_partial). Of edges that overlap only one end of the common part is found, so the pieces still overlap (C100_overlap_violated); edges on one line that are apart get a vertex (C100_apart_violated)."
  },
  {
   "property": "C101",
   "status": "partial",
   "theorems": [
    "Verif.LinesBox.C101_domain_partial",
    "Verif.LinesBox.C101_vertices_partial",
    "Verif.LinesBox.C101_tags_partial",
    "Verif.LinesBox.C101_conforming_partial",
    "Verif.LinesBox.C101_wire_partial",
    "Verif.LinesBox.C101_last_side_violated",
    "Verif.LinesBox.C101_rejects",
    "Verif.LinesBox.C101_tags_violated",
    "Verif.LinesBox.C101_vertices_violated"
   ],
   "note": "For drawings as in C100 the domain is built (C101_domain_partial), its vertices are as stated if no line passes through the first corner (C101_vertices_partial), the tags are distinct exactly if there are fewer lines than sides and parts of sides (C101_tags_partial), the pieces conform (C101_conforming_partial) and the wire is one closed chain if the last side is not cut (C101_wire_partial). Errors: C101_rejects. A cut last side leaves a wire that is oriented wrongly (C101_last_side_violated); a line that ends at the first corner leaves two vertices there (C101_vertices_violated); four lines inside a square share a tag with the wire (C101_tags_violated)."
  },
  {
   "property": "C102",
   "status": "proved",
   "theorems": [
    "Verif.Strong.Cosserat1.C102_gradients",
    "Verif.Strong.Cosserat1.C102_laws",
    "Verif.Strong.Cosserat1.C102_divergences",
    "Verif.Strong.Cosserat1.C102_balance2",
    "Verif.Strong.Cosserat1.C102_balance3",
    "Verif.Strong.Cosserat1.C102_boundary",
    "Verif.Strong.Cosserat1.C102_weak2",
    "Verif.Strong.Cosserat1.C102_weak3"
   ],
   "note": "Derivatives (C102_gradients, C102_divergences), laws of the material (C102_laws), balances (C102_balance2, C102_balance3), boundary values (C102_boundary) and the mixed weak form of C78 with arbitrary test fields, up to the divergence of a flux that vanishes on the boundary (C102_weak2, C102_weak3; the compliances must exist)."
  },
  {
   "property": "C103",
   "status": "proved",
   "theorems": [
    "Verif.Strong.Cosserat2.C103_gradients",
    "Verif.Strong.Cosserat2.C103_laws",
    "Verif.Strong.Cosserat2.C103_divergences",
    "Verif.Strong.Cosserat2.C103_balance",
    "Verif.Strong.Cosserat2.C103_boundary",
    "Verif.Strong.Cosserat2.C103_mixed",
    "Verif.Strong.Cosserat2.C103_primal"
   ],
   "note": "Derivatives (C103_gradients, C103_divergences), laws of the material for every m_lambda (C103_laws), balances (C103_balance), boundary values (C103_boundary), and the mixed form of C78 and the primal form of C73 with arbitrary test fields, up to the divergence of a flux (C103_mixed, C103_primal)."
  },
  {
   "property": "C104",
   "status": "proved",
   "theorems": [
    "Verif.Strong.Cosserat3.C104_length",
    "Verif.Strong.Cosserat3.C104_gradient_of_length",
    "Verif.Strong.Cosserat3.C104_kink",
    "Verif.Strong.Cosserat3.C104_gradients",
    "Verif.Strong.Cosserat3.C104_laws",
    "Verif.Strong.Cosserat3.C104_divergences",
    "Verif.Strong.Cosserat3.C104_balance",
    "Verif.Strong.Cosserat3.C104_boundary",
    "Verif.Strong.Cosserat3.C104_weak"
   ],
   "note": "Values and continuity of the length (C104_length), its gradient away from the kinks (C104_gradient_of_length), why the kinks are left out (C104_kink), derivatives (C104_gradients, C104_divergences), laws (C104_laws), balances (C104_balance), boundary values (C104_boundary) and the scaled mixed form of C78 with arbitrary test fields, up to the divergence of a flux (C104_weak)."
  },
  {
   "property": "C105",
   "status": "proved",
   "theorems": [
    "Verif.Strong.Cauchy1.C105_gradient",
    "Verif.Strong.Cauchy1.C105_law",
    "Verif.Strong.Cauchy1.C105_balance",
    "Verif.Strong.Cauchy1.C105_boundary",
    "Verif.Strong.Cauchy1.C105_weak",
    "Verif.Strong.Cauchy1.C105_dimension"
   ],
   "note": "Gradient (C105_gradient), laws for every first constant (C105_law), divergence and balance (C105_balance), boundary values (C105_boundary), the weak forms of C71, C74 and C81 with arbitrary test fields, up to the divergence of a flux (C105_weak), and the refused dimensions (C105_dimension)."
  },
  {
   "property": "C106",
   "status": "proved",
   "theorems": [
    "Verif.Strong.Cauchy2.C106_material",
    "Verif.Strong.Cauchy2.C106_displacement",
    "Verif.Strong.Cauchy2.C106_law",
    "Verif.Strong.Cauchy2.C106_balance",
    "Verif.Strong.Cauchy2.C106_weak",
    "Verif.Strong.Cauchy2.C106_constants",
    "Verif.Strong.Cauchy2.C106_dimension"
   ],
   "note": "Material function (C106_material), continuity, interface and gradient (C106_displacement), laws with both constants equal to xi (C106_law), balance (C106_balance), the weak forms of C71, C74 and C81 (C106_weak), refused dimensions (C106_dimension); C106_constants shows that the arguments m_lambda and m_mu are ignored, so that the formulas are those of the given material only if both are one."
  },
  {
   "property": "C107",
   "status": "proved",
   "theorems": [
    "Verif.Strong.Ecmor.C107_length",
    "Verif.Strong.Ecmor.C107_gradients",
    "Verif.Strong.Ecmor.C107_laws",
    "Verif.Strong.Ecmor.C107_balance",
    "Verif.Strong.Ecmor.C107_weak",
    "Verif.Strong.Ecmor.C107_dimension"
   ],
   "note": "Length (C107_length), gradients and boundary values (C107_gradients), laws (C107_laws), divergences and balance (C107_balance), the scaled mixed form of C78 for constants of the couples with the sum one (C107_weak), refused dimensions (C107_dimension)."
  },
  {
   "property": "C108",
   "status": "partial",
   "theorems": [
    "Verif.Strong.Arbogast.C108_defined1",
    "Verif.Strong.Arbogast.C108_coefficients1",
    "Verif.Strong.Arbogast.C108_law1",
    "Verif.Strong.Arbogast.C108_scaled1",
    "Verif.Strong.Arbogast.C108_balance1",
    "Verif.Strong.Arbogast.C108_weak1",
    "Verif.Strong.Arbogast.C108_zero1",
    "Verif.Strong.Arbogast.C108_flux1",
    "Verif.Strong.Arbogast.C108_gradient_violated",
    "Verif.Strong.Arbogast.C108_origin_violated",
    "Verif.Strong.Arbogast.C108_undefined1",
    "Verif.Strong.Arbogast.C108_defined2",
    "Verif.Strong.Arbogast.C108_coefficients2",
    "Verif.Strong.Arbogast.C108_law2",
    "Verif.Strong.Arbogast.C108_scaled2",
    "Verif.Strong.Arbogast.C108_viscosity_violated",
    "Verif.Strong.Arbogast.C108_balance2",
    "Verif.Strong.Arbogast.C108_weak2",
    "Verif.Strong.Arbogast.C108_zero2",
    "Verif.Strong.Arbogast.C108_dimension",
    "Verif.Strong.Arbogast.C108_test"
   ],
   "note": "Dimension one: every function returns numbers (C108_defined1), coefficients and their derivatives (C108_coefficients1), law with first and second derivative of the pressure (C108_law1), scaled fields (C108_scaled1), balance (C108_balance1), the form of C75 (C108_weak1), continuity and zeros of the flux (C108_flux1), zeros on the left (C108_zero1), values that are not numbers (C108_undefined1). Dimension two likewise. C108_dimension and C108_test cover the refused dimensions and the two test functions. Disagreements: the gradient of the root of the mobility is zero for x < 0 and nan at the origin (C108_gradient_violated, C108_origin_violated), and the scaled flux in dimension two ignores the viscosity (C108_viscosity_violated)."
  },
  {
   "property": "C109",
   "status": "partial",
   "theorems": [
    "Verif.Strong.MdElliptic.C109_bulk",
    "Verif.Strong.MdElliptic.C109_weak",
    "Verif.Strong.MdElliptic.C109_pressure",
    "Verif.Strong.MdElliptic.C109_fracture",
    "Verif.Strong.MdElliptic.C109_conservation_violated",
    "Verif.Strong.MdElliptic.C109_robin_violated",
    "Verif.Strong.MdElliptic.C109_dispatch"
   ],
   "note": "Bulk law and balance (C109_bulk), the form of C65 at every point (C109_weak), continuity, trace and boundary values (C109_pressure), law and load of the fracture with the fluxes as one-sided limits (C109_fracture), dictionaries and refused codimensions (C109_dispatch). Disagreements: the load of the fracture has the exchange with the wrong sign (C109_conservation_violated), and without a jump of the pressure the law of Robin holds only where no flux leaves the bulk (C109_robin_violated)."
  },
  {
   "property": "C110",
   "status": "partial",
   "theorems": [
    "Verif.Coupling.C110_form",
    "Verif.Coupling.C110_coefficient",
    "Verif.Coupling.C110_symmetric",
    "Verif.Coupling.C110_bilinear",
    "Verif.Coupling.C110_exchange",
    "Verif.Coupling.C110_conservation_violated",
    "Verif.Coupling.C110_energy",
    "Verif.Coupling.C110_tables",
    "Verif.Coupling.C110_vectors",
    "Verif.Coupling.C110_errors",
    "Verif.Coupling.C110_energy_violated"
   ],
   "note": "Residual and matrix (C110_form), the coefficient (C110_coefficient), symmetry, bilinearity, the exchange as integral over both fluxes, the energy, and every error branch (C110_errors). The traces, normals and tables enter as data. Disagreements: the exchange has the sign plus in the balance of the fracture (C110_conservation_violated), so the energy is indefinite (C110_energy_violated, concrete sides)."
  },
  {
   "property": "C111",
   "status": "partial",
   "theorems": [
    "Verif.Interface.C111_form",
    "Verif.Interface.C111_undefined",
    "Verif.Interface.C111_factors",
    "Verif.Interface.C111_symmetric",
    "Verif.Interface.C111_variables",
    "Verif.Interface.C111_robin_violated",
    "Verif.Interface.C111_threshold_violated",
    "Verif.Interface.C111_conservation_violated",
    "Verif.Interface.C111_errors"
   ],
   "note": "Residual and matrix with the two factors (C111_form, C111_factors), no result where a factor is no number (C111_undefined), symmetry, the unscaled variables (C111_variables), every error branch (C111_errors). The traces, normals and tables enter as data. Disagreements: the factor of the fluxes is sqrt(phi) d / alpha and not d^2 / alpha (C111_robin_violated), porosities in (0, 1e-8] get the factor d instead of d / sqrt(phi) (C111_threshold_violated), the exchange has the wrong sign (C111_conservation_violated)."
  },
  {
   "property": "C112",
   "status": "partial",
   "theorems": [
    "Verif.Strong.MdScaled.C112_defined",
    "Verif.Strong.MdScaled.C112_coefficients",
    "Verif.Strong.MdScaled.C112_bulk",
    "Verif.Strong.MdScaled.C112_weak",
    "Verif.Strong.MdScaled.C112_fracture",
    "Verif.Strong.MdScaled.C112_weak_fracture",
    "Verif.Strong.MdScaled.C112_sides",
    "Verif.Strong.MdScaled.C112_pressure",
    "Verif.Strong.MdScaled.C112_conservation_violated",
    "Verif.Strong.MdScaled.C112_robin_violated",
    "Verif.Strong.MdScaled.C112_dispatch",
    "Verif.Strong.MdScaled.C112_dictionaries"
   ],
   "note": "All functions return numbers for positive data (C112_defined); gradients, scaled law and balance (C112_coefficients, C112_bulk), the form of the scaled problem at every point (C112_weak, C112_weak_fracture), the fracture with the exchange as the file computes it (C112_fracture), limits of the fluxes (C112_sides), continuity and trace (C112_pressure), dispatch and dictionaries. Disagreements: the exchange has the wrong sign (C112_conservation_violated); without a jump of the pressure the law of Robin fails (C112_robin_violated)."
  },
  {
   "property": "C113",
   "status": "partial",
   "theorems": [
    "Verif.Strong.MdDegenerate.C113_defined",
    "Verif.Strong.MdDegenerate.C113_coefficients",
    "Verif.Strong.MdDegenerate.C113_bulk",
    "Verif.Strong.MdDegenerate.C113_weak",
    "Verif.Strong.MdDegenerate.C113_fracture",
    "Verif.Strong.MdDegenerate.C113_weak_fracture",
    "Verif.Strong.MdDegenerate.C113_sides",
    "Verif.Strong.MdDegenerate.C113_pressure",
    "Verif.Strong.MdDegenerate.C113_zero",
    "Verif.Strong.MdDegenerate.C113_values",
    "Verif.Strong.MdDegenerate.C113_jump_violated",
    "Verif.Strong.MdDegenerate.C113_conservation_violated",
    "Verif.Strong.MdDegenerate.C113_robin_violated",
    "Verif.Strong.MdDegenerate.C113_dispatch",
    "Verif.Strong.MdDegenerate.C113_dictionaries"
   ],
   "note": "All functions return numbers for positive data (C113_defined); zero behind the mask (C113_zero), porosity and pressure right of it (C113_values), coefficients, law, balance and scaled form (C113_coefficients, C113_bulk, C113_weak), the fracture with the exchange as the file computes it, limits of the fluxes, trace, dispatch and dictionaries. Disagreements: the pressure jumps at 1e-8, the end of the mask (C113_jump_violated); sign of the exchange (C113_conservation_violated); the law of Robin without jump of the pressure (C113_robin_violated)."
  },
  {
   "property": "C114",
   "status": "partial",
   "theorems": [
    "Verif.Manip.C114_same_geometry",
    "Verif.Manip.C114_equivalence_violated",
    "Verif.Manip.C114_collapse",
    "Verif.Manip.C114_collapse_again",
    "Verif.Manip.C114_eps_violated",
    "Verif.Manip.C114_point_line",
    "Verif.Manip.C114_line",
    "Verif.Manip.C114_off_line_violated",
    "Verif.Manip.C114_ends",
    "Verif.Manip.C114_vertex_edge",
    "Verif.Manip.C114_inside_violated",
    "Verif.Manip.C114_face",
    "Verif.Manip.C114_face_errors"
   ],
   "note": "Same geometry (C114_same_geometry), collapse (C114_collapse, C114_collapse_again), the exact answer of point_line_intersection (C114_point_line) and its agreement with the line where all coordinates differ (C114_line), ends of an edge (C114_ends, C114_vertex_edge), the face boundary (C114_face), error branches (C114_ends, C114_face_errors). Disagreements: the relation is neither symmetric nor transitive (C114_equivalence_violated); eps is not passed to the strong equality (C114_eps_violated); coordinates constant along the line and the ends of the segment are ignored (C114_off_line_violated); the inside of an edge is never tested (C114_inside_violated)."
  },
  {
   "property": "C115",
   "status": "partial",
   "theorems": [
    "Verif.FracOpen.C115_rotation",
    "Verif.FracOpen.C115_axis",
    "Verif.FracOpen.C115_index",
    "Verif.FracOpen.C115_normal",
    "Verif.FracOpen.C115_normals",
    "Verif.FracOpen.C115_errors",
    "Verif.FracOpen.C115_index_errors",
    "Verif.FracOpen.C115_restore",
    "Verif.FracOpen.C115_pieces_violated",
    "Verif.FracOpen.C115_shift_violated",
    "Verif.FracOpen.C115_opening",
    "Verif.FracOpen.C115_bump",
    "Verif.FracOpen.C115_gap",
    "Verif.FracOpen.C115_ends",
    "Verif.FracOpen.C115_code_violated",
    "Verif.FracOpen.C115_old_cut",
    "Verif.FracOpen.C115_old_cut_violated",
    "Verif.FracOpen.C115_harvest_violated"
   ],
   "note": "Rotations (C115_rotation, C115_axis), positions (C115_index), the normal of one fracture (C115_normal) and the dictionary (C115_normals, C115_errors), independent of the numbering by the mesher (C115_restore), the opening (C115_opening, C115_bump, C115_gap) and its error (C115_ends), the first cut without edges of fractures (C115_old_cut). Disagreements: with the default graph the middle is that of the last piece (C115_pieces_violated); before write_mesh the call fails (C115_shift_violated); fractures numbered from 0 (C115_code_violated); the first cut always fails on a fracture that is in the mesh, cells have no attribute cells_ids (C115_old_cut_violated); copying the edges at a vertex changes the edges themselves (C115_harvest_violated)."
  },
  {
   "property": "C116",
   "status": "partial",
   "theorems": [
    "Verif.PlaneNet.C116_planes",
    "Verif.PlaneNet.C116_first",
    "Verif.PlaneNet.C116_points_violated",
    "Verif.PlaneNet.C116_quads_violated",
    "Verif.PlaneNet.C116_single",
    "Verif.PlaneNet.C116_lines",
    "Verif.PlaneNet.C116_separate_violated",
    "Verif.PlaneNet.C116_triangle_violated",
    "Verif.PlaneNet.C116_parallel_violated",
    "Verif.PlaneNet.C116_run_partial",
    "Verif.PlaneNet.C116_apart",
    "Verif.PlaneNet.C116_two",
    "Verif.PlaneNet.C116_triple",
    "Verif.PlaneNet.C116_triple_violated"
   ],
   "note": "The separate polygons (C116_planes) and the points of the first one (C116_first), one line (C116_single), several lines in general position that all meet others (C116_lines), the fractures without intersections (C116_apart), two fractures (C116_two), three fractures (C116_triple) and the exact condition for the run to succeed when the lines of each fracture are in general position (C116_run_partial). The property fails: points of all polygons but the first (C116_points_violated, C116_quads_violated), lines that meet no other one on the fracture (C116_separate_violated, C116_parallel_violated), triangles (C116_triangle_violated), common points of three fractures (C116_triple_violated)."
  },
  {
   "property": "C117",
   "status": "partial",
   "theorems": [
    "Verif.MeshWriter.C117_vtk",
    "Verif.MeshWriter.C117_aligned",
    "Verif.MeshWriter.C117_mixed_violated",
    "Verif.MeshWriter.C117_colors_violated",
    "Verif.MeshWriter.C117_empty_slot",
    "Verif.MeshWriter.C117_conformal",
    "Verif.MeshWriter.C117_conformal_violated",
    "Verif.MeshWriter.C117_conformal_dimension",
    "Verif.MeshWriter.C117_data",
    "Verif.MeshWriter.C117_data_violated",
    "Verif.MeshWriter.C117_errors",
    "Verif.MeshWriter.C117_blocks"
   ],
   "note": "The files without colours when no cell of dimension three lacks a tag (C117_vtk, C117_aligned), the files of the mesher (C117_conformal, C117_conformal_dimension), the summary (C117_data) and empty slots (C117_empty_slot) are proved. The tags of the three-dimensional cells are not filtered, so a mesh with tagged and untagged cells of dimension three is an exception and gives no file (C117_mixed_violated); colours always raise (C117_colors_violated, from C36); a file without vertices leaves two files and raises (C117_conformal_violated); the summary raises without tagged cells (C117_data_violated). meshio is represented by its comparison of lengths and the concatenation of blocks."
  },
  {
   "property": "C118",
   "status": "partial",
   "theorems": [
    "Verif.Topology.C118_read",
    "Verif.Topology.C118_blank_violated",
    "Verif.Topology.C118_planes",
    "Verif.Topology.C118_planes_rejects",
    "Verif.Topology.C118_box",
    "Verif.Topology.C118_tags_violated",
    "Verif.Topology.C118_intersect_violated",
    "Verif.Topology.C118_read_rejects"
   ],
   "note": "The accepted files (C118_read), the planes (C118_planes, C118_planes_rejects) and the box with the planes before their intersection (C118_box) are proved. A blank line is refused (C118_blank_violated). The surfaces of the planes are numbered from seven and those of the box from eighteen, so that twelve planes repeat a number (C118_tags_violated). The function for the box calls `intersect_faces`, which its module does not import, and never succeeds (C118_intersect_violated)."
  },
  {
   "property": "C119",
   "status": "partial",
   "theorems": [
    "Verif.Multiplier.C119_factors",
    "Verif.Multiplier.C119_form",
    "Verif.Multiplier.C119_undefined",
    "Verif.Multiplier.C119_conservation",
    "Verif.Multiplier.C119_symmetric",
    "Verif.Multiplier.C119_symmetric_violated",
    "Verif.Multiplier.C119_errors"
   ],
   "note": "Residual and matrix (C119_form), the conservation of the flux (C119_conservation), the domain of the factors (C119_factors, C119_undefined) and the errors (C119_errors) are proved. The matrix is symmetric for porosity one (C119_symmetric); for another constant porosity the multiplier acts on the neighbour divided by the root of the porosity, so it is not one pressure of both sides and the matrix is not symmetric (C119_symmetric_violated)."
  },
  {
   "property": "C120",
   "status": "partial",
   "theorems": [
    "Verif.Transport.C120_system",
    "Verif.Transport.C120_expansion",
    "Verif.Transport.C120_newton",
    "Verif.Transport.C120_derivative",
    "Verif.Transport.C120_mass",
    "Verif.Transport.C120_components",
    "Verif.Transport.C120_errors",
    "Verif.Transport.C120_boundary",
    "Verif.Transport.C120_boundary_violated",
    "Verif.Transport.C120_boundary_rejects"
   ],
   "note": "Residual and Jacobian (C120_system), the expansion of the residual, the Newton step and the derivative (C120_expansion, C120_newton, C120_derivative), the mass balance (C120_mass), the errors (C120_components, C120_errors) and the boundary form (C120_boundary) are proved. Both boundary slices have the step of `mp`, so that two components of `mp` with one of `mc` raise a ValueError (C120_boundary_violated)."
  },
  {
   "property": "C121",
   "status": "partial",
   "theorems": [
    "Verif.Transport.Exact.C121_solutions",
    "Verif.Transport.Exact.C121_arguments_violated",
    "Verif.Transport.Exact.C121_plane_violated",
    "Verif.Transport.Exact.C121_vanish",
    "Verif.Transport.Exact.C121_euler",
    "Verif.Transport.Exact.C121_dimension"
   ],
   "note": "Proved for the pressure in all dimensions and for the concentration in one and three (C121_solutions), with the vanishing on the boundary and at time zero (C121_vanish), the exactness of the implicit Euler step in the form of C120 (C121_euler) and the rejection of other dimensions (C121_dimension). In dimension two the source calls `c_exact(t, x, y, z)`, so in the plane of the mesh the concentration solves its equation only on the boundary, at time zero or without reaction (C121_arguments_violated, C121_plane_violated)."
  },
  {
   "property": "C122",
   "status": "partial",
   "theorems": [
    "Verif.Oden.C122_system",
    "Verif.Oden.C122_energy",
    "Verif.Oden.C122_unique",
    "Verif.Oden.C122_components",
    "Verif.Oden.C122_errors",
    "Verif.Oden.C122_boundary",
    "Verif.Oden.C122_primal_violated"
   ],
   "note": "For the dual form residual and matrix (C122_system), the energy and the uniqueness of the solution in the quadrature points (C122_energy, C122_unique), the refusal of several components (C122_components), the errors (C122_errors) and the Dirichlet form (C122_boundary) are proved. The primal form reads the name `u_cell`, which is not defined, and never returns; neither does its Dirichlet form (C122_primal_violated)."
  },
  {
   "property": "C123",
   "status": "proved",
   "theorems": [
    "Verif.Oden.Exact.C123_solves",
    "Verif.Oden.Exact.C123_boundary",
    "Verif.Oden.Exact.C123_weak",
    "Verif.Oden.Exact.C123_dimension"
   ],
   "note": "C123_solves, C123_boundary and C123_dimension; C123_weak connects the solutions with the mixed form."
  },
  {
   "property": "C124",
   "status": "partial",
   "theorems": [
    "Verif.Strong.MdCosserat.C124_bulk",
    "Verif.Strong.MdCosserat.C124_darcy_violated",
    "Verif.Strong.MdCosserat.C124_fracture",
    "Verif.Strong.MdCosserat.C124_line",
    "Verif.Strong.MdCosserat.C124_dispatch",
    "Verif.Strong.MdCosserat.C124_contact_violated"
   ],
   "note": "The fluxes and loads (C124_bulk, C124_fracture), the behaviour on a line (C124_line) and the selection by codimension (C124_dispatch) are proved. The flux of the bulk does not contain `kappa` (C124_darcy_violated), and the contact form reads the name `iel_c0`, which is not defined, and never returns (C124_contact_violated)."
  },
  {
   "property": "C125",
   "status": "partial",
   "theorems": [
    "Verif.TimeLoop.C125_newton",
    "Verif.TimeLoop.C125_accepted",
    "Verif.TimeLoop.C125_linear",
    "Verif.TimeLoop.C125_silent_violated",
    "Verif.TimeLoop.C125_times",
    "Verif.TimeLoop.C125_run",
    "Verif.TimeLoop.C125_errors"
   ],
   "note": "The iteration is Newton's method (C125_newton), it ends below the tolerance if one of its first iterates is (C125_accepted), for equations without reaction always (C125_linear); the times (C125_times), the chain of states (C125_run) and the errors (C125_errors) are proved. An iteration that does not converge is accepted in silence (C125_silent_violated)."
  },
  {
   "property": "C126",
   "status": "partial",
   "theorems": [
    "Verif.ThreeFields.C126_solves",
    "Verif.ThreeFields.C126_dimension",
    "Verif.ThreeFields.C126_ends",
    "Verif.ThreeFields.C126_right",
    "Verif.ThreeFields.C126_left",
    "Verif.ThreeFields.C126_left_violated",
    "Verif.ThreeFields.C126_weak",
    "Verif.ThreeFields.C126_defect",
    "Verif.ThreeFields.C126_still_violated",
    "Verif.ThreeFields.C126_unique"
   ],
   "note": "C126_solves, C126_ends, C126_right, C126_dimension and C126_unique are proved. At the left end the exact functions satisfy the condition with the flux to the right instead of the outward one: the condition of the Robin form holds only if the flux vanishes (C126_left), not for the data of the example (C126_left_violated); C126_weak gives what remains of the equation of the flux and C126_defect bounds it. Without velocity numerator and denominator vanish (C126_still_violated)."
  },
  {
   "property": "C127",
   "status": "partial",
   "theorems": [
    "Verif.ThreeFields.C127_upwind",
    "Verif.ThreeFields.C127_small_violated",
    "Verif.ThreeFields.C127_interface",
    "Verif.ThreeFields.C127_left",
    "Verif.ThreeFields.C127_right",
    "Verif.ThreeFields.C127_orientation_violated",
    "Verif.ThreeFields.C127_boundary",
    "Verif.ThreeFields.C127_raises_violated",
    "Verif.ThreeFields.C127_interior_violated",
    "Verif.ThreeFields.C127_sequences",
    "Verif.ThreeFields.C127_hydro_violated",
    "Verif.ThreeFields.C127_lines_violated",
    "Verif.ThreeFields.C127_trace",
    "Verif.ThreeFields.C127_errors"
   ],
   "note": "C127_interface, C127_left, C127_boundary, C127_upwind and C127_sequences are proved in dimension one. Where the first neighbour is on the right, the form asks for the negative flux (C127_right, C127_orientation_violated); inflow below 1e-8 takes the inner value (C127_small_violated). On every product space the forms raise (C127_raises_violated); the sequences raise on every mesh with an interior facet (C127_interior_violated), those of the hydrothermal example on every mesh with a facet (C127_hydro_violated, C127_lines_violated)."
  },
  {
   "property": "C128",
   "status": "partial",
   "theorems": [
    "Verif.Hydrothermal.C128_layout",
    "Verif.Hydrothermal.C128_closure",
    "Verif.Hydrothermal.C128_mobility",
    "Verif.Hydrothermal.C128_fluxes",
    "Verif.Hydrothermal.C128_balances",
    "Verif.Hydrothermal.C128_steady",
    "Verif.Hydrothermal.C128_initial",
    "Verif.Hydrothermal.C128_inlet_violated",
    "Verif.Hydrothermal.C128_robin",
    "Verif.Hydrothermal.C128_rectangle",
    "Verif.Hydrothermal.C128_box_violated",
    "Verif.Hydrothermal.C128_interface",
    "Verif.Hydrothermal.C128_inflow",
    "Verif.Hydrothermal.C128_space_violated",
    "Verif.Hydrothermal.C128_phases",
    "Verif.Hydrothermal.C128_data"
   ],
   "note": "C128_layout, C128_closure, C128_mobility, C128_fluxes, C128_balances, C128_steady, C128_initial, C128_robin, C128_rectangle, C128_interface and C128_inflow are proved. The temperature and the enthalpy at the inflow contradict the closure (C128_inlet_violated), in dimension three the Robin coefficient vanishes on two faces and the form raises (C128_box_violated), and the product space is never built because `build_structures` is called with one argument (C128_space_violated)."
  },
  {
   "property": "C129",
   "status": "partial",
   "theorems": [
    "Verif.ThreeFields.Diffusion.C129_system",
    "Verif.ThreeFields.Diffusion.C129_steady",
    "Verif.ThreeFields.Diffusion.C129_affine",
    "Verif.ThreeFields.Diffusion.C129_skew",
    "Verif.ThreeFields.Diffusion.C129_row_violated",
    "Verif.ThreeFields.Diffusion.C129_singular_violated",
    "Verif.ThreeFields.Diffusion.C129_mass",
    "Verif.ThreeFields.Diffusion.C129_energy",
    "Verif.ThreeFields.Diffusion.C129_components",
    "Verif.ThreeFields.Diffusion.C129_raises_violated",
    "Verif.ThreeFields.Diffusion.C129_errors",
    "Verif.ThreeFields.Diffusion.C129_layers_violated"
   ],
   "note": "C129_system (for a quadrature of two entries), C129_affine, C129_skew, C129_mass, C129_energy, C129_components and C129_errors are proved. The rows of the advective flux are zero, so the matrix is singular (C129_row_violated, C129_singular_violated); the last time step and the velocity have no effect (C129_steady); the divergence leaves layers out if there are fewer functions than dimensions (C129_layers_violated); on every product space of the library the form raises (C129_raises_violated)."
  },
  {
   "property": "C130",
   "status": "partial",
   "theorems": [
    "Verif.Quadrature.C130_rules",
    "Verif.Quadrature.C130_md",
    "Verif.Quadrature.C130_agree",
    "Verif.Quadrature.C130_exact",
    "Verif.Quadrature.C130_errors",
    "Verif.Quadrature.C130_points_violated"
   ],
   "note": "C130_rules, C130_md, C130_agree, C130_exact and C130_errors are proved for fields of dimension one to three. A field of dimension zero raises KeyError in both classes (C130_points_violated)."
  },
  {
   "property": "C131",
   "status": "partial",
   "theorems": [
    "Verif.MdProduct.C131_new",
    "Verif.MdProduct.C131_limit_violated",
    "Verif.MdProduct.C131_name_violated",
    "Verif.MdProduct.C131_unreachable_violated",
    "Verif.MdProduct.C131_assigned",
    "Verif.MdProduct.C131_stale_violated",
    "Verif.MdProduct.C131_missing"
   ],
   "note": "C131_new and C131_missing; C131_assigned: with the fields of a built product space assigned by hand, numbers and destinations agree with C16. The limit of three refuses the dimensions zero to three and takes wrong ones (C131_limit_violated); no field can be defined (C131_name_violated), so no sequence of calls leads to a destination (C131_unreachable_violated); numbers left by an exception are used (C131_stale_violated)."
  },
  {
   "property": "C132",
   "status": "partial",
   "theorems": [
    "Verif.ElementData.C132_new",
    "Verif.ElementData.C132_run",
    "Verif.ElementData.C132_dofs_violated",
    "Verif.ElementData.C132_stale_violated",
    "Verif.ElementData.C132_consistent",
    "Verif.ElementData.C132_store_violated",
    "Verif.ElementData.C132_store",
    "Verif.ElementData.C132_evaluate",
    "Verif.ElementData.C132_copies_violated",
    "Verif.ElementData.C132_object_copies_violated",
    "Verif.ElementData.C132_args"
   ],
   "note": "C132_new, C132_run, C132_consistent, C132_evaluate and C132_store are proved. Repeated filling multiplies the number of degrees of freedom (C132_dofs_violated); an evaluation that is not stored replaces the shapes (C132_stale_violated); store_mapping and storage_basis always raise (C132_store_violated); four of the six copies raise (C132_copies_violated, C132_object_copies_violated)."
  },
  {
   "property": "C133",
   "status": "partial",
   "theorems": [
    "Verif.FvTransfer.C133_permutation",
    "Verif.FvTransfer.C133_same",
    "Verif.FvTransfer.C133_longer",
    "Verif.FvTransfer.C133_keys",
    "Verif.FvTransfer.C133_match",
    "Verif.FvTransfer.C133_space_violated",
    "Verif.FvTransfer.C133_transfer_s",
    "Verif.FvTransfer.C133_sign",
    "Verif.FvTransfer.C133_sign_violated",
    "Verif.FvTransfer.C133_rows",
    "Verif.FvTransfer.C133_transfer_u",
    "Verif.FvTransfer.C133_fields",
    "Verif.FvTransfer.C133_normal",
    "Verif.FvTransfer.C133_obtuse",
    "Verif.FvTransfer.C133_obtuse_sound",
    "Verif.FvTransfer.C133_obtuse_small_violated",
    "Verif.FvTransfer.C133_transfer_u_refused"
   ],
   "note": "C133_permutation, C133_same, C133_longer, C133_keys and C133_match: matching by hashes is right in the plane for any argsort. C133_transfer_s, C133_transfer_u, C133_fields, C133_rows and C133_normal. The signs are those of the number of the partner, not of the face; C133_sign says just when this does no harm and C133_sign_violated is a mesh of two faces where it does. Points that differ in the third coordinate alone are not told apart (C133_space_violated). C133_obtuse and C133_obtuse_sound describe the triangles reported; small ones never are (C133_obtuse_small_violated)."
  },
  {
   "property": "C134",
   "status": "partial",
   "theorems": [
    "Verif.DriverAssembly.C134_residual",
    "Verif.DriverAssembly.C134_matrix",
    "Verif.DriverAssembly.C134_exact",
    "Verif.DriverAssembly.C134_mirror",
    "Verif.DriverAssembly.C134_riesz",
    "Verif.DriverAssembly.C134_errors",
    "Verif.DriverAssembly.C134_shapes",
    "Verif.DriverAssembly.C134_small_violated",
    "Verif.DriverAssembly.C134_repeat_violated",
    "Verif.DriverAssembly.C134_threshold"
   ],
   "note": "C134_residual, C134_mirror, C134_riesz, C134_errors and C134_shapes; the matrix is right up to about 1e-8 for each contributing element (C134_matrix) and exact when no nonzero entry is that small (C134_exact). Elements with smaller entries do not contribute at all: the comparison is with an absolute tolerance (C134_small_violated). Repeated destinations lose contributions to the residual (C134_repeat_violated)."
  },
  {
   "property": "C135",
   "status": "partial",
   "theorems": [
    "Verif.Rates.C135_table",
    "Verif.Rates.C135_rates",
    "Verif.Rates.C135_plain",
    "Verif.Rates.C135_exact",
    "Verif.Rates.C135_order",
    "Verif.Rates.C135_none",
    "Verif.Rates.C135_single",
    "Verif.Rates.C135_norms_violated",
    "Verif.Rates.C135_ecmor",
    "Verif.Rates.C135_ecmor_ratio",
    "Verif.Rates.C135_ecmor_violated",
    "Verif.Rates.C135_headers",
    "Verif.Rates.C135_headers_violated",
    "Verif.Rates.C135_norm_names_violated",
    "Verif.Rates.C135_names"
   ],
   "note": "C135_table, C135_rates, C135_plain, C135_exact, C135_order, C135_none, C135_single and C135_headers. The finite volume comparison takes the first error for the mesh size (C135_ecmor), so that it reports quotients of orders (C135_ecmor_ratio, C135_ecmor_violated). Without levels the norms are unbound (C135_norms_violated); one driver names too few columns (C135_headers_violated), and the norms of solutions have two names too many (C135_norm_names_violated)."
  },
  {
   "property": "C136",
   "status": "partial",
   "theorems": [
    "Verif.Topology.C136_line",
    "Verif.Topology.C136_line_short_violated",
    "Verif.Topology.C136_line_ends",
    "Verif.Topology.C136_line_end_violated",
    "Verif.Topology.C136_surface",
    "Verif.Topology.C136_surface_interface",
    "Verif.Topology.C136_surface_short",
    "Verif.Topology.C136_surface_tags",
    "Verif.Topology.C136_surface_boundary",
    "Verif.Topology.C136_surface_tags_violated",
    "Verif.Topology.C136_default_tags"
   ],
   "note": "C136_line, C136_line_ends, C136_surface, C136_surface_interface, C136_surface_short, C136_surface_tags and C136_surface_boundary. A line of two points raises IndexError (C136_line_short_violated) and on longer lines the tag of the end is on an inner vertex (C136_line_end_violated): the position 2 is fixed. The tags of edges are not taken from the dictionary and may meet those of regions (C136_surface_tags_violated)."
  },
  {
   "property": "C137",
   "status": "proved",
   "theorems": [
    "Verif.FieldSplit.C137_three",
    "Verif.FieldSplit.C137_four",
    "Verif.FieldSplit.C137_partition",
    "Verif.FieldSplit.C137_number",
    "Verif.FieldSplit.C137_inverse",
    "Verif.FieldSplit.C137_symmetric",
    "Verif.FieldSplit.C137_positive",
    "Verif.FieldSplit.C137_dropped",
    "Verif.FieldSplit.C137_uncoupled"
   ],
   "note": "For all numbers of degrees of freedom. PETSc's additive field split is modelled by its result; the solvers of the blocks are parameters. That the elements of the Riesz maps have no entries between the groups is C79 and C81; C137_uncoupled carries it to the assembled matrix. Other numbers of fields: C137_number and C137_dropped."
  },
  {
   "property": "C138",
   "status": "partial",
   "theorems": [
    "Verif.FileNames.C138_cauchy_one",
    "Verif.FileNames.C138_cauchy_two",
    "Verif.FileNames.C138_cosserat_one",
    "Verif.FileNames.C138_cosserat_level",
    "Verif.FileNames.C138_cosserat_two",
    "Verif.FileNames.C138_cosserat_three",
    "Verif.FileNames.C138_ecmor",
    "Verif.FileNames.C138_fv",
    "Verif.FileNames.C138_fv_two",
    "Verif.FileNames.C138_apart",
    "Verif.FileNames.C138_read",
    "Verif.FileNames.C138_runs",
    "Verif.FileNames.C138_main_one",
    "Verif.FileNames.C138_main_cosserat",
    "Verif.FileNames.C138_missing",
    "Verif.FileNames.C138_cosserat_two_violated",
    "Verif.FileNames.C138_order_violated",
    "Verif.FileNames.C138_pictures_violated",
    "Verif.FileNames.C138_pictures_cosserat_violated",
    "Verif.FileNames.C138_fv_violated",
    "Verif.FileNames.C138_case_two"
   ],
   "note": "Proved for the names of the drivers and lists of configurations that differ in what the name carries (method and one parameter in the Cauchy examples; all parameters, order and dimension in the first Cosserat example). Fails: the second Cosserat example asks its parameters for keys they lack (C138_cosserat_two_violated); the Cauchy names lack the order (C138_order_violated); pictures lack the level (C138_pictures_violated, C138_pictures_cosserat_violated); the names of finite volume results lack the mantissa (C138_fv_violated). The text of a parameter is assumed injective and without underscore."
  },
  {
   "property": "C139",
   "status": "partial",
   "theorems": [
    "Verif.MergedTables.C139_merge",
    "Verif.MergedTables.C139_mismatch",
    "Verif.MergedTables.C139_table",
    "Verif.MergedTables.C139_empty",
    "Verif.MergedTables.C139_md",
    "Verif.MergedTables.C139_md_plain",
    "Verif.MergedTables.C139_scenario_one",
    "Verif.MergedTables.C139_scenario_two",
    "Verif.MergedTables.C139_flow_partial",
    "Verif.MergedTables.C139_flow_violated",
    "Verif.MergedTables.C139_comma_violated"
   ],
   "note": "Proved for both mixed-dimensional drivers and for both scenarios. Fails in degenerate_mixed_flow_model.py: line 318 hands the scaled space to l2_error_projected, so the column 'proj p' has the error of the flux v (C139_flow_violated; what the file does contain is C139_flow_partial). Two headers end with a comma and have one name more than columns (C139_comma_violated)."
  },
  {
   "property": "C140",
   "status": "partial",
   "theorems": [
    "Verif.DriverSpaces.C140_follows",
    "Verif.DriverSpaces.C140_integration",
    "Verif.DriverSpaces.C140_integration_empty",
    "Verif.DriverSpaces.C140_three_field",
    "Verif.DriverSpaces.C140_four_field",
    "Verif.DriverSpaces.C140_displacement",
    "Verif.DriverSpaces.C140_line_components_violated",
    "Verif.DriverSpaces.C140_pressure",
    "Verif.DriverSpaces.C140_pressure_violated",
    "Verif.DriverSpaces.C140_pressure_order_violated",
    "Verif.DriverSpaces.C140_layered",
    "Verif.DriverSpaces.C140_ecmor_violated",
    "Verif.DriverSpaces.C140_flow",
    "Verif.DriverSpaces.C140_scenario_one",
    "Verif.DriverSpaces.C140_scenario_two",
    "Verif.DriverSpaces.C140_scenario_two_line_violated",
    "Verif.DriverSpaces.C140_advection",
    "Verif.DriverSpaces.C140_transport",
    "Verif.DriverSpaces.C140_scenario_two_sides",
    "Verif.DriverSpaces.C140_md",
    "Verif.DriverSpaces.C140_md_dimension",
    "Verif.DriverSpaces.C140_md_point_violated",
    "Verif.DriverSpaces.C140_layered_field",
    "Verif.DriverSpaces.C140_ecmor_fields"
   ],
   "note": "Proved: what is built follows the plan; the pairs of the mixed methods in elasticity, Cosserat elasticity, flow, advection, transport and the mixed-dimensional problem; the sides of the second scenario against the domain of C136. Fails: the three drivers of cosserat_ecmor pass one dictionary to a function of two (C140_ecmor_violated); the pressure has order k-2 and no continuity where the comments say k-1 and continuous, and no space exists for k = 1 (C140_pressure_violated, C140_pressure_order_violated, the latter for any basis that rejects negative orders); the second scenario on lines asks for a multiplier on points (C140_scenario_two_line_violated); the mixed-dimensional method has no flux on points (C140_md_point_violated); on lines the displacement has three components (C140_line_components_violated)."
  },
  {
   "property": "C141",
   "status": "partial",
   "theorems": [
    "Verif.Torsion.C141_dual_spaces",
    "Verif.Torsion.C141_primal_spaces",
    "Verif.Torsion.C141_dual_faces",
    "Verif.Torsion.C141_all_faces",
    "Verif.Torsion.C141_primal_faces_violated",
    "Verif.Torsion.C141_held_end",
    "Verif.Torsion.C141_turned_end",
    "Verif.Torsion.C141_side_violated",
    "Verif.Torsion.C141_dual_data_violated",
    "Verif.Torsion.C141_primal_data",
    "Verif.Torsion.C141_strain_partial",
    "Verif.Torsion.C141_curvature",
    "Verif.Torsion.C141_strain_symmetric",
    "Verif.Torsion.C141_strain_normal",
    "Verif.Torsion.C141_other_faces",
    "Verif.Torsion.C141_refused",
    "Verif.Torsion.C141_sum",
    "Verif.Torsion.C141_diagram",
    "Verif.Torsion.C141_strain_violated",
    "Verif.Torsion.C141_bottom",
    "Verif.Torsion.C141_field",
    "Verif.Torsion.C141_entry"
   ],
   "note": "Proved: spaces, faces of the mixed method, data on both ends, the couple, sums and rows. Fails: the functions of the mixed method have none of the names that LCEDualWeakForm reads (C141_dual_data_violated); the primal method uses the form of the turned end on all faces (C141_primal_faces_violated, C141_side_violated); the strain moment takes entries [2, 1] and [2, 0] of the stress, not [1, 2] and [0, 2] (C141_strain_violated). What it computes is C141_strain_partial, and for symmetric stresses it is the moment (C141_strain_symmetric)."
  },
  {
   "property": "C142",
   "status": "partial",
   "theorems": [
    "Verif.DriverData.C142_forms_partial",
    "Verif.DriverData.C142_forms_violated",
    "Verif.DriverData.C142_scaled_violated",
    "Verif.DriverData.C142_material_partial",
    "Verif.DriverData.C142_example_two_violated",
    "Verif.DriverData.C142_example_two_calls_violated",
    "Verif.DriverData.C142_call",
    "Verif.DriverData.C142_cases",
    "Verif.DriverData.C142_varied",
    "Verif.DriverData.C142_kappa",
    "Verif.DriverData.C142_example_two_alike"
   ],
   "note": "Proved for 88 statements `form.functions = ...` and for the 14 drivers with material data (C142_forms_partial, C142_material_partial, C142_cases, C142_varied, C142_call). Fails: three forms of the ecmor driver for the third problem, the mixed form of the torsion test and the boundary forms of the Cosserat problem with fractures lack what they read (C142_forms_violated, C142_scaled_violated); the second Cosserat driver reads parameters that its material data does not have (C142_example_two_violated) and calls exact functions that do not take them (C142_example_two_calls_violated)."
  },
  {
   "property": "C143",
   "status": "partial",
   "theorems": [
    "Verif.StressRecovery.C143_nodal",
    "Verif.StressRecovery.C143_symmetric",
    "Verif.StressRecovery.C143_between",
    "Verif.StressRecovery.C143_constant",
    "Verif.StressRecovery.C143_same_law",
    "Verif.StressRecovery.C143_refused",
    "Verif.StressRecovery.C143_lame",
    "Verif.StressRecovery.C143_lame_refused",
    "Verif.StressRecovery.C143_facets",
    "Verif.StressRecovery.C143_inside",
    "Verif.StressRecovery.C143_facets_by_name_violated",
    "Verif.StressRecovery.C143_materials_violated",
    "Verif.StressRecovery.C143_centre",
    "Verif.StressRecovery.C143_row_refused",
    "Verif.StressRecovery.C143_other_name",
    "Verif.StressRecovery.C143_sides"
   ],
   "note": "Nodal stress proved to be the volume-weighted mean of Hooke's stress (C143_nodal), symmetric, between the bounds of the surrounding stresses and exact for a constant stress; the law is that of the weak form; Lamé parameters proved correct and refused exactly for nu = -1 and nu = 1/2; facets partitioned; constraint cells characterised. Violated: the second driver compares a number with a list and never finds a facet of a well or of the fault (the lists are not used afterwards); the reservoir modulus in use is not the documented one."
  },
  {
   "property": "C144",
   "status": "partial",
   "theorems": [
    "Verif.ErrorTriangle.C144_refused",
    "Verif.ErrorTriangle.C144_whole",
    "Verif.ErrorTriangle.C144_slope",
    "Verif.ErrorTriangle.C144_predicts",
    "Verif.ErrorTriangle.C144_labels",
    "Verif.ErrorTriangle.C144_rate_zero_violated",
    "Verif.ErrorTriangle.C144_types",
    "Verif.ErrorTriangle.C144_truth_number"
   ],
   "note": "Right angle, horizontal leg and slope (C144_slope), corners in the picture (C144_predicts), positions of the labels for decreasing sizes and a positive rate (C144_labels), everything that is refused (C144_refused, C144_whole). Violated: a rate of zero is accepted although the label of the step then has no position (0/0)."
  },
  {
   "property": "C145",
   "status": "partial",
   "theorems": [
    "Verif.ReproduceScenarios.C145_exit",
    "Verif.ReproduceScenarios.C145_flags",
    "Verif.ReproduceScenarios.C145_order",
    "Verif.ReproduceScenarios.C145_command",
    "Verif.ReproduceScenarios.C145_arguments",
    "Verif.ReproduceScenarios.C145_options",
    "Verif.ReproduceScenarios.C145_root",
    "Verif.ReproduceScenarios.C145_resolve",
    "Verif.ReproduceScenarios.C145_figures",
    "Verif.ReproduceScenarios.C145_default_figures_violated",
    "Verif.ReproduceScenarios.C145_stale_violated"
   ],
   "note": "Exit code, flags, order of the commands, their text, acceptance of the arguments and resolution of folders proved. Violated: the default folder of the figures, meant from the repository root, is created below the folder of the script; success with folders that are there from before shows nothing about new files."
  },
  {
   "property": "C146",
   "status": "partial",
   "theorems": [
    "Verif.ScenarioPlots.C146_cases",
    "Verif.ScenarioPlots.C146_found",
    "Verif.ScenarioPlots.C146_counts",
    "Verif.ScenarioPlots.C146_distinct",
    "Verif.ScenarioPlots.C146_fields",
    "Verif.ScenarioPlots.C146_load",
    "Verif.ScenarioPlots.C146_curves_one",
    "Verif.ScenarioPlots.C146_curves_two",
    "Verif.ScenarioPlots.C146_anchor",
    "Verif.ScenarioPlots.C146_lowest",
    "Verif.ScenarioPlots.C146_no_triangle",
    "Verif.ScenarioPlots.C146_triangle",
    "Verif.ScenarioPlots.C146_below",
    "Verif.ScenarioPlots.C146_palette",
    "Verif.ScenarioPlots.C146_bar",
    "Verif.ScenarioPlots.C146_levels_violated",
    "Verif.ScenarioPlots.C146_dim_violated",
    "Verif.ScenarioPlots.C146_refused",
    "Verif.ScenarioPlots.C146_kinds"
   ],
   "note": "Cases, files found, names, labelled curves of all three tables, anchor, reference curve and triangle, colours and width of the bar proved. Violated: pictures of rates are drawn once per level and not at all without levels; the option for one dimension finds no case with the default materials."
  },
  {
   "property": "C147",
   "status": "partial",
   "theorems": [
    "Verif.ErrorPlots.C147_select",
    "Verif.ErrorPlots.C147_own",
    "Verif.ErrorPlots.C147_apart",
    "Verif.ErrorPlots.C147_columns",
    "Verif.ErrorPlots.C147_labels",
    "Verif.ErrorPlots.C147_drawn",
    "Verif.ErrorPlots.C147_single_violated",
    "Verif.ErrorPlots.C147_legend",
    "Verif.ErrorPlots.C147_prefix_violated",
    "Verif.ErrorPlots.C147_plain_name",
    "Verif.ErrorPlots.C147_cosserat_one_violated",
    "Verif.ErrorPlots.C147_cosserat_one_name",
    "Verif.ErrorPlots.C147_cosserat_two_violated"
   ],
   "note": "Selection of files (exact criterion), own tables, columns, labels, legends, data of curves and triangles proved for the ten figures that can be drawn from the files of the drivers. Violated: tables with one level, values whose text begins like another one, both figures of the first Cosserat example (the driver runs one method and one material), the figures of the second Cosserat example (TypeError)."
  },
  {
   "property": "C148",
   "status": "partial",
   "theorems": [
    "Verif.Topology.Shape.C148_refused",
    "Verif.Topology.Shape.C148_class",
    "Verif.Topology.Shape.C148_assigned_partial",
    "Verif.Topology.Shape.C148_equal_partial",
    "Verif.Topology.Shape.C148_again",
    "Verif.Topology.Shape.C148_rearranged",
    "Verif.Topology.Shape.C148_divided_violated",
    "Verif.Topology.Shape.C148_orientation_violated"
   ],
   "note": "Refusal, class, equality from both sides, same contents, idempotence proved for boundaries with different tags and wires whose shown edges are not divided further. Violated: wires with an edge that is divided twice; the orientation of a wire is not assigned."
  },
  {
   "property": "C149",
   "status": "proved",
   "theorems": [
    "Verif.ShapeTests.C149_vertex",
    "Verif.ShapeTests.C149_edge",
    "Verif.ShapeTests.C149_wire",
    "Verif.ShapeTests.C149_face",
    "Verif.ShapeTests.C149_shell",
    "Verif.ShapeTests.C149_solid",
    "Verif.ShapeTests.C149_composite_solid",
    "Verif.ShapeTests.C149_assignment",
    "Verif.ShapeTests.C149_argsort"
   ],
   "note": "The eight tests, with a stable argsort (what numpy uses for fewer than 17 entries); assertions on hash left out."
  },
  {
   "property": "C150",
   "status": "partial",
   "theorems": [
    "Verif.Geometry.C150_along_partial",
    "Verif.Geometry.C150_back_partial",
    "Verif.Geometry.C150_reverse",
    "Verif.Geometry.C150_distance",
    "Verif.Geometry.C150_outside_violated",
    "Verif.Geometry.C150_nothing_violated",
    "Verif.Geometry.C150_test_colinear",
    "Verif.Geometry.C150_test_intersection",
    "Verif.Geometry.C150_test_argsort"
   ],
   "note": "Order from a and from b, reverse of each other, order of distances for all points, and the repository's tests of collinearity, incidence, intersection and order proved. Violated: points of the line beyond the end from which the distance is taken; the empty array that points_line_intersection returns (ValueError; the caller in vertex_operations.py guards against it)."
  },
  {
   "property": "C151",
   "status": "partial",
   "theorems": [
    "Verif.CaseNames.C151_unpacked",
    "Verif.CaseNames.C151_by_co_dim",
    "Verif.CaseNames.C151_tells",
    "Verif.CaseNames.C151_once",
    "Verif.CaseNames.C151_apart",
    "Verif.CaseNames.C151_degenerate_runs",
    "Verif.CaseNames.C151_plain_runs",
    "Verif.CaseNames.C151_elliptic_runs",
    "Verif.CaseNames.C151_by_key",
    "Verif.CaseNames.C151_order_violated",
    "Verif.CaseNames.C151_keys_violated",
    "Verif.CaseNames.C151_methods_violated",
    "Verif.CaseNames.C151_deltas"
   ],
   "note": "Names tell co-dimension and parameters, all files of a run and of the runs of the three drivers are apart, keys and counts checked. Violated: the order of the spaces is not in the name (runs of two orders overwrite each other), the degenerate driver takes the values by position so that dictionaries with swapped keys collide, and a second method would move the name at index 1."
  },
  {
   "property": "C152",
   "status": "partial",
   "theorems": [
    "Verif.GraphOperations.C152_refused",
    "Verif.GraphOperations.C152_total",
    "Verif.GraphOperations.C152_cut",
    "Verif.GraphOperations.C152_restored",
    "Verif.GraphOperations.C152_acyclic",
    "Verif.GraphOperations.C152_sequence",
    "Verif.GraphOperations.C152_nonconformal",
    "Verif.GraphOperations.C152_no_cycles",
    "Verif.GraphOperations.C152_reached_violated",
    "Verif.GraphOperations.C152_lone_violated",
    "Verif.GraphOperations.C152_common"
   ],
   "note": "Refusal of mixed kinds, effect of the cut, restoration, absence of cycles, both graphs of the script proved. Violated: a fracture without edges is lost, and after the cut of the script the fracture is not reached from the whole domain."
  },
  {
   "property": "C153",
   "status": "partial",
   "theorems": [
    "Verif.Geometry.C153_colinear",
    "Verif.Geometry.C153_coplanar",
    "Verif.Geometry.C153_incidence",
    "Verif.Geometry.C153_point_line_partial",
    "Verif.Geometry.C153_point_triangle_partial",
    "Verif.Geometry.C153_line_line_partial",
    "Verif.Geometry.C153_lines_line_partial",
    "Verif.Geometry.C153_test_diagonals",
    "Verif.Geometry.C153_line_triangle_incidence",
    "Verif.Geometry.C153_line_triangle_partial",
    "Verif.Geometry.C153_triangulate",
    "Verif.Geometry.C153_point_polygon_partial",
    "Verif.Geometry.C153_point_line_violated",
    "Verif.Geometry.C153_line_line_violated"
   ],
   "note": "Invariance of the measurements and of the incidence tests for every tolerance; of the intersections when points are compared without tolerance; the triangles of a convex polygon move with it; the crossing diagonals of the tests in every frame. Segment and triangle agree up to the order of the points, since np.unique sorts by coordinates. Violated for the tolerances of the code, which are relative to the coordinates: far from the origin a point off a segment is found on it, and segments that do not meet are found to meet."
  },
  {
   "property": "C154",
   "status": "partial",
   "theorems": [
    "Verif.ContactDriver.C154_calls_partial",
    "Verif.ContactDriver.C154_pairs",
    "Verif.ContactDriver.C154_spaces",
    "Verif.ContactDriver.C154_returns_violated",
    "Verif.ContactDriver.C154_names_violated",
    "Verif.ContactDriver.C154_numbers",
    "Verif.ContactDriver.C154_tags_violated",
    "Verif.ContactDriver.C154_twice_violated",
    "Verif.ContactDriver.C154_pairs_violated",
    "Verif.ContactDriver.C154_main_violated",
    "Verif.ContactDriver.C154_boundary",
    "Verif.ContactDriver.C154_boundary_all",
    "Verif.ContactDriver.C154_shifts",
    "Verif.ContactDriver.C154_elliptic_spaces",
    "Verif.ContactDriver.C154_contact_raises"
   ],
   "note": "The calls of the assembly for spaces with the fields u, t and q; the boundary elements that are evaluated; the numbers of an interface with the tags of the flow drivers; the shifts of the unknowns. Violated: the driver raises for every mesh and all names, since the forms need u and t, the assembly q, and exact_functions is not bound; the tags of the spaces leave out the cells of the interfaces; the contact form is given the fracture element in place of the negative side."
  },
  {
   "property": "C155",
   "status": "proved",
   "theorems": [
    "Verif.Polygon.C155_plane",
    "Verif.Polygon.C155_normal",
    "Verif.Polygon.C155_convex",
    "Verif.Polygon.C155_test_convex",
    "Verif.Polygon.C155_test_normal",
    "Verif.Polygon.C155_test_reference",
    "Verif.Polygon.C155_winding"
   ],
   "note": "For all motions and tolerances; the polygons of test_polygon_normal and test_convex_q in every frame, with the reference normal of the test as an exact value; winding numbers for points that are on none of the edges the program goes along."
  },
  {
   "property": "C156",
   "status": "partial",
   "theorems": [
    "Verif.VertexTests.C156_same_geometry",
    "Verif.VertexTests.C156_strong_equality",
    "Verif.VertexTests.C156_vertex_vertex",
    "Verif.VertexTests.C156_vertex_edge",
    "Verif.VertexTests.C156_same_edge",
    "Verif.VertexTests.C156_strong_edge",
    "Verif.VertexTests.C156_edge_edge",
    "Verif.VertexTests.C156_meant_violated"
   ],
   "note": "All seven tests pass over the reals. Violated: one assertion of test_edge_edge_intersection holds only because edge_edge_intersection drops the tag; with the tag that the test passes, the found vertex is equal to v2 and the test fails."
  },
  {
   "property": "C157",
   "status": "partial",
   "theorems": [
    "Verif.Betti.C157_counts",
    "Verif.Betti.C157_euler",
    "Verif.Betti.C157_right_iff_partial",
    "Verif.Betti.C157_betti_violated",
    "Verif.Betti.C157_domain",
    "Verif.Betti.C157_vertices",
    "Verif.Betti.C157_edge_violated",
    "Verif.Betti.C157_rebuilt_edges",
    "Verif.Betti.C157_rebuilt_nodes",
    "Verif.Betti.C157_asserted",
    "Verif.Betti.C157_kept"
   ],
   "note": "The rebuilt graph and what its comparison asserts; the alternating sum of the two numbers; the numbers for graphs of vertices, as the test asserts. Violated: in the graph of a domain each node is a strongly connected component of its own, so the numbers are those of the nodes and edges; they are the Betti numbers exactly when there are no edges."
  },
  {
   "property": "C158",
   "status": "partial",
   "theorems": [
    "Verif.ArbogastPlots.C158_folder",
    "Verif.ArbogastPlots.C158_cases",
    "Verif.ArbogastPlots.C158_rejects",
    "Verif.ArbogastPlots.C158_read",
    "Verif.ArbogastPlots.C158_nothing_violated",
    "Verif.ArbogastPlots.C158_would",
    "Verif.ArbogastPlots.C158_second_violated",
    "Verif.ArbogastPlots.C158_missing_violated",
    "Verif.ArbogastPlots.C158_found",
    "Verif.ArbogastPlots.C158_distinct",
    "Verif.ArbogastPlots.C158_figure_violated"
   ],
   "note": "The cases of the driver, its 132 distinct files for any printing of floats, and that the plots find their files once they use its folder and its parameter. Violated: the script's filter and folder match nothing the driver writes, a second call finds the methods used up, and figures of two levels share a name."
  },
  {
   "property": "C159",
   "status": "partial",
   "theorems": [
    "Verif.GeometryTests.C159_line",
    "Verif.GeometryTests.C159_square",
    "Verif.GeometryTests.C159_face_violated",
    "Verif.GeometryTests.C159_embed",
    "Verif.GeometryTests.C159_vertex_in_edge"
   ],
   "note": "The three tests pass; the embedded vertices and the parts of the edge are computed for every argsort. Violated: the face of the test of the square is a vertex, whose tag happens to be that of the face."
  },
  {
   "property": "C160",
   "status": "partial",
   "theorems": [
    "Verif.ProjectorTests.C160_only",
    "Verif.ProjectorTests.C160_vacuous_violated",
    "Verif.ProjectorTests.C160_scalar_passes",
    "Verif.ProjectorTests.C160_hdiv_passes",
    "Verif.ProjectorTests.C160_hcurl_passes",
    "Verif.ProjectorTests.C160_order_violated",
    "Verif.ProjectorTests.C160_flat",
    "Verif.ProjectorTests.C160_tagged",
    "Verif.ProjectorTests.C160_any_violated"
   ],
   "note": "Violated: with the empty lists of physical tags of the tests every completed run has no unknowns and the error 0, whatever the projector and the function; orders raised in the loops are kept; one small error suffices. With the tag of the mesh the same test fails for a projector that returns zeros. What the projector returns is a parameter, supposed to complete with no unknowns."
  },
  {
   "property": "C161",
   "status": "partial",
   "theorems": [
    "Verif.MeshingTests.C161_sets",
    "Verif.MeshingTests.C161_network",
    "Verif.MeshingTests.C161_counts",
    "Verif.MeshingTests.C161_codes",
    "Verif.MeshingTests.C161_side_violated",
    "Verif.MeshingTests.C161_side_only"
   ],
   "note": "The five networks are computed for every argsort: 2, 5, 8, 11 and 14 points, and the pieces of each fracture. Violated: the crossing of the first two fractures has the tag 131, which the cut gives to one side of the fourth; it is the only clash. The mesh of gmsh is not modelled."
  },
  {
   "property": "C162",
   "status": "partial",
   "theorems": [
    "Verif.FracturedLine.C162_lines",
    "Verif.FracturedLine.C162_apart_violated",
    "Verif.FracturedLine.C162_intersections",
    "Verif.FracturedLine.C162_points",
    "Verif.FracturedLine.C162_tags",
    "Verif.FracturedLine.C162_mesh_violated"
   ],
   "note": "The intersections are computed in exact arithmetic: two points, each found from both edges, and new tags. Violated: the first and second edge have no common point, and the call of generate_mesh with two arguments fails whatever the domain is. The domains of the script are a parameter."
  },
  {
   "property": "C163",
   "status": "proved",
   "theorems": [
    "Verif.ShapesPlotter.C163_sequences",
    "Verif.ShapesPlotter.C163_points",
    "Verif.ShapesPlotter.C163_faces",
    "Verif.ShapesPlotter.C163_closed",
    "Verif.ShapesPlotter.C163_open",
    "Verif.ShapesPlotter.C163_edges"
   ],
   "note": "The sequences of the box are computed, their points and their strokes; the strokes of any closed sequence are proved to go through each of its vertices once."
  },
  {
   "property": "C164",
   "status": "partial",
   "theorems": [
    "Verif.FieldFigures.C164_geometry",
    "Verif.FieldFigures.C164_couple",
    "Verif.FieldFigures.C164_couple_triangles",
    "Verif.FieldFigures.C164_epsilon_violated",
    "Verif.FieldFigures.C164_epsilon_names_violated",
    "Verif.FieldFigures.C164_fields_violated",
    "Verif.FieldFigures.C164_fields_given",
    "Verif.FieldFigures.C164_oden_violated",
    "Verif.FieldFigures.C164_oden",
    "Verif.FieldFigures.C164_ell",
    "Verif.FieldFigures.C164_regions",
    "Verif.FieldFigures.C164_labels",
    "Verif.FieldFigures.C164_labels_violated"
   ],
   "note": "Proved for the figure of the couple stress, for the figures of the problem of Oden in dimension two, and for the function of figure 6. False for the others: the figure of the length scale looks for names and a field that the driver does not write, the figure of the four fields reads a file of a method that does not exist, the driver of the problem of Oden runs in dimension one and writes no triangles, and between the squares the length scale is 3 x - 1 where the labels say x."
  }
 ]
}