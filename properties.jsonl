{"id": "C01", "title": "Cell identifiers are array positions", "statement": "After Mesh.build_conformal_mesh() every stored cell sits at the position of mesh.cells that equals its id, the cell array has exactly one slot per distinct vertex/edge/face/volume, and the ids of vertices, edges, faces and volumes form consecutive, non-overlapping ranges in this order.", "quantifier": "every simplicial mesh file (any number of points, any blocks of vertices, lines, triangles and tetrahedra, in any order, with any physical tags)", "why_tests_cant": "Any test fixes a few meshes; the id arithmetic (three running counters, deduplication maps and late insertion) must agree for every mesh.", "anchors": ["src/mesh/mesh.py:Mesh.build_conformal_mesh", "src/mesh/mesh.py:Mesh.insert_vertex", "src/mesh/mesh.py:Mesh.insert_edge", "src/mesh/mesh.py:Mesh.insert_polygon", "src/mesh/mesh.py:Mesh.insert_polyhedron"]}
{"id": "C02", "title": "Sub-entity incidence is the simplex incidence", "statement": "After build_conformal_mesh(), for every stored cell c and every dimension e <= c.dimension, c.sub_cells_ids[e] lists ids of stored cells of dimension e, one for each e-dimensional face of the simplex c.node_tags in the reference (opposite-vertex) order, and the vertex set of the listed cell is exactly that face's vertex set.", "quantifier": "every simplicial mesh file (any number of points, any blocks of vertices, lines, triangles and tetrahedra, in any order, with any physical tags)", "why_tests_cant": "The table of local faces is written three times (edges of triangles, edges and faces of tetrahedra, numbering and insertion); only a proof shows they agree on all node tuples.", "anchors": ["src/mesh/mesh.py:Mesh.insert_edge", "src/mesh/mesh.py:Mesh.insert_polygon", "src/mesh/mesh.py:Mesh.insert_polyhedron", "src/mesh/mesh.py:Mesh.build_conformal_mesh"]}
{"id": "C03", "title": "A vertex set is represented by one cell", "statement": "After build_conformal_mesh(), no two stored cells have the same dimension and the same set of nodes; hence two elements that share an edge or face (in any node order) refer to the same cell id.", "quantifier": "every simplicial mesh file (any number of points, any blocks of vertices, lines, triangles and tetrahedra, in any order, with any physical tags)", "why_tests_cant": "Conformity must hold for every pair of neighbouring elements and every node ordering in the file.", "anchors": ["src/mesh/mesh.py:Mesh.build_conformal_mesh", "src/mesh/mesh.py:Mesh.insert_edge", "src/mesh/mesh.py:Mesh.insert_polygon"]}
{"id": "C04", "title": "Every slot of the cell array is filled", "statement": "After build_conformal_mesh() every slot of mesh.cells holds a cell, so that all later passes over mesh.cells are safe.", "quantifier": "every simplicial mesh file (any number of points, any blocks of vertices, lines, triangles and tetrahedra, in any order, with any physical tags)", "why_tests_cant": "The slot of a point is filled only when some block entry reaches it; meshes with unreferenced points are never in a test suite.", "anchors": ["src/mesh/mesh.py:Mesh.build_conformal_mesh", "src/mesh/mesh.py:Mesh.build_graph"]}
{"id": "C05", "title": "Physical tags follow the file", "statement": "After build_conformal_mesh(), the material id of a cell is the physical tag of the last block entry of the file whose node set is that of the cell, and None when no entry names it.", "quantifier": "every simplicial mesh file (any number of points, any blocks of vertices, lines, triangles and tetrahedra, in any order, with any physical tags)", "why_tests_cant": "Cells are created lazily by higher dimensional neighbours and re-tagged later; every interleaving of block order matters.", "anchors": ["src/mesh/mesh.py:Mesh.insert_vertex", "src/mesh/mesh.py:Mesh.insert_edge", "src/mesh/mesh.py:Mesh.insert_polygon", "src/mesh/mesh.py:Mesh.insert_polyhedron", "src/mesh/mesh.py:Mesh.insert_simplex_cell_from_block"]}
{"id": "C06", "title": "Key based cell insertion identifies equal cells only", "statement": "Mesh.insert_cell_data returns an already stored cell only when it was inserted with the same sign, type and sorted node tags; otherwise it stores the new cell with a fresh id equal to its position.", "quantifier": "every sequence of insert_cell_data calls with arbitrary signs, types and node tags", "why_tests_cant": "Keys are built by concatenating decimal digits, so failures depend on particular digit patterns of large tags.", "anchors": ["src/mesh/mesh.py:Mesh.insert_cell_data", "src/mesh/mesh.py:Mesh.duplicate_entity"]}
{"id": "C07", "title": "The incidence graph is the sub-entity relation", "statement": "The graph returned by Mesh.build_graph(d, c) (and its physical-tag, cell-id and material variants) has an edge from (d,i) to (d-c,j) exactly when i is a selected cell of dimension d and j is listed in its sub-entities of dimension d-c, and has no other edges; co-dimension 0 gives self loops only.", "quantifier": "every mesh whose sub-entity lists are well formed, every dimension and co-dimension, every selection", "why_tests_cant": "Graph construction is recursive over cells; tests check only node counts on one mesh.", "anchors": ["src/mesh/mesh.py:Mesh.gather_graph_edges", "src/mesh/mesh.py:Mesh.build_graph", "src/mesh/mesh.py:Mesh.build_graph_on_physical_tags", "src/mesh/mesh.py:Mesh.build_graph_from_cell_ids", "src/mesh/mesh.py:Mesh.build_graph_on_materials"]}
{"id": "C08", "title": "Entities by dimension lists each supported entity once", "statement": "MeshTopology.build_data_on_pysical_tags(tags) followed by entities_by_dimension(d) lists, without repetition, exactly the d-dimensional entities of the cells of the topology's dimension whose material is in tags; a larger d, or a topology dimension above the mesh dimension, is rejected.", "quantifier": "every well formed mesh, every tag list and dimension", "why_tests_cant": "Uniqueness and exactness over arbitrary meshes and tag selections.", "anchors": ["src/mesh/mesh_topology.py:MeshTopology"]}
{"id": "C09", "title": "Higher dimensional neighbours are exactly the incident cells", "statement": "find_higher_dimension_neighs(cell, topology) returns exactly the selected cells of the topology's dimension having that cell among their sub-entities, each once, and fails for a cell which is not in the topology.", "quantifier": "every well formed mesh, topology and cell", "why_tests_cant": "Must hold for every entity of every mesh, including interfaces with one, two or many neighbours.", "anchors": ["src/mesh/topological_queries.py:find_higher_dimension_neighs", "src/mesh/mesh_topology.py:MeshTopology.entity_map_by_dimension"]}
{"id": "C10", "title": "Appended cells never reuse an identifier", "statement": "Mesh.append_cells accepts a batch only if none of its ids is the id of a cell already stored, and after acceptance every cell is still found at the position equal to its id.", "quantifier": "every mesh whose ids are positions and every batch of cells", "why_tests_cant": "The guard looks at the minimum id only; whether it suffices depends on arbitrary batches.", "anchors": ["src/mesh/mesh.py:Mesh.append_cells", "src/mesh/mesh.py:Mesh.max_cell_id"]}
{"id": "C11", "title": "DoF numbering is a partition", "statement": "DoFMap.build_entity_maps numbers the degrees of freedom so that the blocks attached to the vertices, edges, faces and volumes are pairwise disjoint, consecutive, and together are exactly the integers from the shift to the shift plus dof_number()-1.", "quantifier": "every mesh topology, reference element, number of components and shift", "why_tests_cant": "Off-by-one at block boundaries depends on entity counts, order, components and shift in combination.", "anchors": ["src/spaces/dof_map.py:DoFMap.build_entity_maps", "src/spaces/dof_map.py:DoFMap.dof_number"]}
{"id": "C12", "title": "Number of DoFs", "statement": "dof_number() equals the sum over dimensions of (number of entities) x (dofs per entity) x (number of components).", "quantifier": "every mesh topology, reference element and number of components", "why_tests_cant": "Holds for every combination of entity counts and orders.", "anchors": ["src/spaces/dof_map.py:DoFMap.build_entity_maps", "src/spaces/dof_map.py:DoFMap.dof_number"]}
{"id": "C13", "title": "Element destinations are distinct and in range", "statement": "DoFMap.destination_indices(cell) succeeds for every cell of the topology and returns (local number of basis functions) x (components) pairwise distinct indices, all within the numbered range, ordered by entity dimension and then by the cell's local entity order.", "quantifier": "every well formed mesh, reference element, components and cell", "why_tests_cant": "A repeated or out of range index corrupts the global system silently, for particular meshes only.", "anchors": ["src/spaces/dof_map.py:DoFMap.destination_indices"]}
{"id": "C14", "title": "Inter-element continuity", "statement": "Two elements share a global degree of freedom exactly when they share a mesh entity that carries degrees of freedom, and then they share all of that entity's indices; with a discontinuous space different elements share none.", "quantifier": "every well formed mesh, reference element, and pair of cells", "why_tests_cant": "Quantifies over all pairs of neighbours of all meshes.", "anchors": ["src/spaces/dof_map.py:DoFMap.destination_indices", "src/spaces/discrete_space.py:DiscreteSpace.make_discontinuous"]}
{"id": "C15", "title": "Boundary destinations belong to the neighbour element", "statement": "DoFMap.bc_destination_indices(cell, facet) returns exactly the indices of the entities of the facet, without repetition, and all of them are among destination_indices(cell).", "quantifier": "every well formed mesh, cell and facet of that cell", "why_tests_cant": "Depends on entity orders of the facet and the cell for every mesh.", "anchors": ["src/spaces/dof_map.py:DoFMap.bc_destination_indices"]}
{"id": "C16", "title": "Fields of a product space do not overlap", "statement": "ProductSpace.discrete_spaces_destination_indexes gives each field its own interval of global indices: intervals of different fields are disjoint and all fields together occupy exactly [dof_shift, dof_shift + n_dof).", "quantifier": "every list of fields with any meshes, orders and components, every cell and every shift", "why_tests_cant": "Offsets are accumulated over fields; correctness needed for any number and sizes of fields.", "anchors": ["src/spaces/product_space.py:ProductSpace.discrete_spaces_destination_indexes", "src/spaces/product_space.py:ProductSpace.destination_indexes", "src/spaces/product_space.py:ProductSpace._define_n_dof"]}
{"id": "C17", "title": "The global shift is validated and is a translation", "statement": "Assigning dof_shift rejects non-integers and negative integers leaving the old shift; otherwise destination_indexes and bc_destination_indexes are those of shift 0 translated by the shift.", "quantifier": "every sequence of assignments, every product space and cell", "why_tests_cant": "History of accepted and rejected assignments is unbounded.", "anchors": ["src/spaces/product_space.py:ProductSpace.dof_shift", "src/spaces/product_space.py:ProductSpace.discrete_spaces_destination_indexes", "src/spaces/product_space.py:ProductSpace.discrete_spaces_bc_destination_indexes"]}
{"id": "C18", "title": "Boundary destinations of a product space", "statement": "bc_destination_indexes(i) consists, field by field, of destination indexes of a neighbour element of boundary element i shifted by the field's offset; fields without boundary elements contribute nothing, and a field name without boundary elements is an error.", "quantifier": "every product space, every boundary element", "why_tests_cant": "Depends on the mix of fields with and without boundary elements.", "anchors": ["src/spaces/product_space.py:ProductSpace.discrete_spaces_bc_destination_indexes", "src/spaces/product_space.py:ProductSpace._retrieve_space_bc_destination_indexes"]}
{"id": "C19", "title": "Element index and cell id are inverse", "statement": "After build_structures, id_to_element maps the cell id of elements[i] to i for every i, and only ids of elements are keys; the same for boundary elements, which are exactly the (d-1)-entities of the space whose material is one of the boundary tags.", "quantifier": "every mesh, tags", "why_tests_cant": "Every mesh and tag selection.", "anchors": ["src/spaces/discrete_space.py:DiscreteSpace._build_elements", "src/spaces/discrete_space.py:DiscreteSpace._build_bc_elements"]}
{"id": "C20", "title": "Family and boundary order decision", "statement": "The family used on a space of dimension 0, or a vector family in dimension 1, is Lagrange, otherwise the requested one; boundary elements use Lagrange of order k (BDM, discontinuous), k-1 (RT, discontinuous) and order 0 on points.", "quantifier": "every family name, dimension and order", "why_tests_cant": "Decision table over unbounded orders with overlapping conditions.", "anchors": ["src/spaces/discrete_space.py:DiscreteSpace.family", "src/spaces/discrete_space.py:DiscreteSpace._build_bc_elements", "src/basis/element_family.py:family_by_name"]}
{"id": "C21", "title": "Scatter adds every local contribution", "statement": "After scattering one element, each entry of the global residual grew by exactly the sum of the local residual entries whose destination is that entry, and each entry (i,j) of the global Jacobian by the sum of the local Jacobian entries with row destination i and column destination j, also when destinations repeat; no other entry changes.", "quantifier": "all local sizes, all destination lists (with repetitions), all values", "why_tests_cant": "Repeated destinations and sizes are unbounded.", "anchors": ["src/assembly/ScatterFormData.py"]}
{"id": "C22", "title": "Assembly does not depend on the visiting order", "statement": "The Jacobian and residual assembled by SequentialAssembler.scatter_forms are the initial ones plus the sum over all forms and all visited elements of their local contributions, so any permutation of the elements of a form or of the forms gives the same result (exact arithmetic).", "quantifier": "all forms, element sequences and permutations", "why_tests_cant": "Factorially many orders.", "anchors": ["src/assembly/SequentialAssembler.py:SequentialAssembler.scatter_forms", "src/assembly/ScatterFormData.py"]}
{"id": "C23", "title": "Form types are dispatched to their scatter routine", "statement": "scatter_forms evaluates every form with the degrees of freedom of the right cells: element forms with the element's destinations, boundary forms with the boundary destinations, interface forms with both sides, and time dependent forms also with the previous solution and time; an unknown form type is an error and leaves later forms unassembled.", "quantifier": "all form dictionaries and vectors", "why_tests_cant": "Combination of form types and vectors; stateful accumulation order.", "anchors": ["src/assembly/SequentialAssembler.py:SequentialAssembler.scatter_forms", "src/assembly/ScatterFormData.py"]}
{"id": "C24", "title": "The L2 projection matrix is the assembled mass matrix", "statement": "l2_projector fills its matrix with the sum of all local mass matrices: with the symmetric option the stored upper triangle together with its mirror image is that sum, otherwise the stored matrix is; and on return the space has the dof_shift it had before.", "quantifier": "all spaces, local matrices and shifts", "why_tests_cant": "Dropped small entries depend on mesh size; the symmetric branch depends on destination order.", "anchors": ["src/postprocess/projectors.py:l2_projector"]}
{"id": "C25", "title": "Component interleaving partitions the local system", "statement": "The strided slices b:e:n_comp used by the weak forms for components 0..n_comp-1 address pairwise disjoint local rows that together are all rows of the field's block, and the local block of field i in a multi-field form occupies the interval given by the accumulated sizes.", "quantifier": "all numbers of basis functions, components and fields", "why_tests_cant": "Arithmetic over unbounded sizes.", "anchors": ["src/weak_forms/l2_projector_weak_form.py:L2ProjectorWeakForm.evaluate_form"]}
{"id": "C26", "title": "The local L2 projector system is symmetric positive semidefinite and consistent", "statement": "The local matrix of L2ProjectorWeakForm is symmetric, block diagonal in the fields and components, and positive semidefinite when weights and Jacobian determinants are non-negative; coefficients that reproduce the projected function at all quadrature points solve the local system exactly.", "quantifier": "all basis tabulations, weights, determinants, components, fields (exact arithmetic)", "why_tests_cant": "Ranges over all elements and data.", "anchors": ["src/weak_forms/l2_projector_weak_form.py:L2ProjectorWeakForm.evaluate_form"]}
{"id": "C27", "title": "Trace points coincide with facet points", "statement": "transform_lower_to_higher maps points of a facet's reference cell to points of the neighbour's reference cell so that both affine geometry mappings give the same physical point, whatever the relative node order of facet and neighbour.", "quantifier": "all node coordinates and tags, all facets, all node orders, all points, dimensions 1 to 3", "why_tests_cant": "All coordinates and orderings.", "anchors": ["src/basis/parametric_transformation.py", "src/geometry/mapping.py"]}
{"id": "C28", "title": "Face orientation code determines the permutation", "statement": "For a tetrahedron face whose nodes are not sorted, the (rotations, reflections) pair computed by the orientation check identifies the permutation: rotating a vertex position that many times and then reflecting it gives the position of that vertex in the sorted face, so the matrix applied is that of the permutation and two cells sharing the face get the same functions, and different permutations get different pairs; boundary faces 1 and 3 are not overridden.", "quantifier": "all node tags", "why_tests_cant": "All relative orders of arbitrary tags; boundary override.", "anchors": ["src/basis/permute_and_transform.py:_validate_face_orientation_3d"]}
{"id": "C29", "title": "Shared edges are oriented consistently", "statement": "Two triangles sharing an edge agree on its global direction: the edge is flagged as aligned in a triangle exactly when the triangle traverses it in the edge's own direction, so the basis is reflected in exactly those triangles that traverse the edge against it.", "quantifier": "every mesh built by build_conformal_mesh and every pair of triangles sharing an edge", "why_tests_cant": "All meshes and node orders.", "anchors": ["src/basis/permute_and_transform.py:_validate_edge_orientation_2d", "src/mesh/mesh.py:Mesh.insert_edge"]}
{"id": "C30", "title": "Duplicated cells are fresh copies", "statement": "Duplicating cells for a cut gives copies with consecutive unused ids which refer to themselves as their top sub-entity, have mapped material ids (unmapped materials unchanged) and are otherwise equal to the originals, which are not modified.", "quantifier": "every list of cells, start id and tag map", "why_tests_cant": "Unbounded lists and maps.", "anchors": ["src/mesh/mesh_operations.py:__duplicate_cells"]}
{"id": "C31", "title": "Duplicated mesh points coincide with the originals", "statement": "duplicate_mesh_points_from_0d_cells appends one point per given vertex cell, with the coordinates of the vertex (zero bump), gives each vertex cell the tag of its own new point and leaves the existing points unchanged.", "quantifier": "every mesh and list of 0d cells", "why_tests_cant": "Unbounded lists.", "anchors": ["src/mesh/mesh_operations.py:duplicate_mesh_points_from_0d_cells"]}
{"id": "C32", "title": "Replacing a graph node keeps its predecessors", "statement": "replace_node_in_grahp moves all incoming edges of the old node to the new node, keeps every edge not touching the old node, and removes the old node; an absent old node leaves the graph unchanged.", "quantifier": "every directed graph and node pair", "why_tests_cant": "All graphs, including self loops and new nodes already present.", "anchors": ["src/mesh/mesh_operations.py:replace_node_in_grahp", "src/mesh/mesh_operations.py:replace_nodes_in_grahp"]}
{"id": "C33", "title": "Cutting replaces exactly the paired sub-cells", "statement": "update_cells_with_cell_pairs replaces in each given cell every paired old sub-cell by its new counterpart (and for vertices the node tag), leaves all other entries and cells unchanged, and rejects cells of mixed dimension.", "quantifier": "every mesh, cell list and pairs", "why_tests_cant": "All meshes and pair sets.", "anchors": ["src/mesh/mesh_operations.py:update_cells_with_cell_pairs"]}
{"id": "C34", "title": "Cutting along an embedded shape separates the two sides", "statement": "After cut_conformity_on_embed_shapes elements on different sides of the cut no longer share the cut edges: each uses its own side's copy, every copy has a fresh id, and the copies of vertices refer to themselves as sub-entity.", "quantifier": "every 2D mesh and set of cut edges", "why_tests_cant": "All meshes.", "anchors": ["src/mesh/mesh.py:Mesh.cut_conformity_on_embed_shapes", "src/mesh/mesh.py:Mesh.update_entity_with_dimension", "src/mesh/mesh.py:Mesh.update_nodes_ids"]}
{"id": "C35", "title": "Closed skin detection is sound", "statement": "circulate_internal_bc(_from_domain) reports a closed internal boundary only if there is a closed walk through skin cells starting and ending at the seed vertex in which consecutive cells share a vertex and every visited vertex has exactly two skin cells.", "quantifier": "every graph and material assignment", "why_tests_cant": "All graphs, unbounded walks.", "anchors": ["src/mesh/mesh.py:Mesh.next_d_m_1", "src/mesh/mesh.py:Mesh.next_d_m_1_cell", "src/mesh/mesh.py:Mesh.circulate_internal_bc_from_domain"]}
{"id": "C36", "title": "Mesh colouring", "statement": "coloring_mesh_by_co_dimension returns a colour for every cell of the given dimension.", "quantifier": "every mesh", "why_tests_cant": "All meshes.", "anchors": ["src/mesh/mesh_coloring.py:coloring_mesh_by_co_dimension"]}
{"id": "C37", "title": "Mesh size bounds", "statement": "cell_diam is the largest distance between two nodes of the cell, and mesh_size returns min <= mean <= max of the diameters of the cells of the requested dimension.", "quantifier": "every mesh and dimension", "why_tests_cant": "All meshes.", "anchors": ["src/mesh/mesh_metrics.py"]}
{"id": "C38", "title": "Shape equality", "statement": "Shape equality is reflexive and symmetric, and equal shapes have the same dimension, tag, and the same boundary and immersed shapes.", "quantifier": "all shapes of any depth", "why_tests_cant": "Recursive structure of arbitrary depth.", "anchors": ["src/topology/shape.py:Shape.__eq__"]}
{"id": "C39", "title": "Boundary shapes are admissible and sorted", "statement": "Assigning boundary_shapes stores a permutation of the given shapes in non-decreasing tag order, and rejects lists with a shape of inadmissible dimension.", "quantifier": "all lists of shapes", "why_tests_cant": "All lists.", "anchors": ["src/topology/shape.py:Shape.boundary_shapes"]}
{"id": "C40", "title": "Wire orientation follows the closed loop", "statement": "For a wire whose edges form a closed chain, orient_immersed_edges assigns signs so that traversing each edge in its signed direction visits the chain head to tail, and orient_immersed_vertices lists its vertices in that order.", "quantifier": "all chains of any length, all tags", "why_tests_cant": "Any number of edges and any tag order.", "anchors": ["src/topology/wire.py:Wire.orient_immersed_edges", "src/topology/wire.py:Wire.orient_immersed_vertices"]}
{"id": "C41", "title": "Domain shapes are grouped by dimension", "statement": "Domain.append_shapes accepts only batches of a single dimension, appends them to the list of that dimension, keeps all other lists, and max_tag is the largest tag of all stored shapes.", "quantifier": "all sequences of appends", "why_tests_cant": "Histories of appends.", "anchors": ["src/topology/domain.py:Domain.append_shapes", "src/topology/domain.py:Domain.max_tag"]}
{"id": "C42", "title": "Retagging yields consecutive unique tags", "statement": "Domain.retag_shapes_with_dimension gives the shapes of that dimension the tags 0, 1, ... in order, and leaves shapes of other dimensions unchanged.", "quantifier": "all domains", "why_tests_cant": "All domains.", "anchors": ["src/topology/domain.py:Domain.retag_shapes_with_dimension"]}
{"id": "C43", "title": "Domain graph reflects the boundary relation", "statement": "The graph built by Domain.build_grahp connects a shape to exactly its boundary and immersed shapes reachable from the shapes of the domain's dimension.", "quantifier": "all shape trees", "why_tests_cant": "Recursive structure of arbitrary depth.", "anchors": ["src/topology/domain.py:Domain.gather_graph_edges", "src/topology/domain.py:Domain.build_grahp"]}
{"id": "C44", "title": "create_domain keeps one shape per identity", "statement": "create_domain stores each given shape in the list of its dimension; shapes with equal identity (dimension and tag) are stored once, the last one winning, and no shape with a different identity is lost.", "quantifier": "all lists of shapes", "why_tests_cant": "All lists with repetition.", "anchors": ["src/topology/operations/domain_operations.py:create_domain"]}
{"id": "C45", "title": "Splitting an edge at vertices produces a chain", "statement": "vertices_edge_difference splits an edge at n distinct interior points into n+1 edges which, ordered along the edge, start and end at the edge's end points, join at the given points, carry the edge's physical tag and have new pairwise distinct tags.", "quantifier": "all edges, all lists of points with duplicates and points off the edge", "why_tests_cant": "Any number and order of points.", "anchors": ["src/topology/operations/vertex_operations.py:vertices_edge_difference"]}
{"id": "C46", "title": "Tags of split edges never collide", "statement": "vertices_edges_difference gives all new vertices and edges of all processed edges pairwise distinct tags, all at least the given start tag.", "quantifier": "all lists of edges and vertices", "why_tests_cant": "Any number of edges.", "anchors": ["src/topology/operations/vertex_operations.py:vertices_edges_difference"]}
{"id": "C47", "title": "Tags of intersection vertices never collide", "statement": "vertices_edges_intersection gives the intersection vertices of all processed edges pairwise distinct tags.", "quantifier": "all lists of edges and vertices", "why_tests_cant": "Any number of edges.", "anchors": ["src/topology/operations/vertex_operations.py:vertices_edges_intersection"]}
{"id": "C48", "title": "Mesher tags are unique per dimension", "statement": "The gmsh tags computed when transferring a domain (stride of the dimension + tag + 1) are positive and injective on the shapes of each dimension with unique tags, and ranges of different dimensions do not overlap when tags are smaller than the number of shapes.", "quantifier": "all domains", "why_tests_cant": "All domain sizes.", "anchors": ["src/mesh/conformal_mesher.py:ConformalMesher.transfer_domain_occ_descritpion", "src/mesh/discrete_domain.py"]}
{"id": "C49", "title": "Integer pairing is reversible", "statement": "FractureNetwork.pair_intergers is injective on pairs of non-negative integers and unpair_intergers recovers the pair.", "quantifier": "all pairs of non-negative integers", "why_tests_cant": "Unbounded integers; floating square roots.", "anchors": ["src/geometry/fracture_network.py:pair_intergers", "src/geometry/fracture_network.py:unpair_intergers"]}
{"id": "C50", "title": "Point-line incidence test is exact up to tolerance", "statement": "In exact arithmetic and tolerance tending to zero, point_line_intersection accepts a point exactly when it lies on the closed segment.", "quantifier": "all points and segments", "why_tests_cant": "All real coordinates.", "anchors": ["src/geometry/operations/point_geometry_operations.py:point_line_intersection"]}
{"id": "C51", "title": "Filtered results match their mask", "statement": "points_line_intersection, points_triangle_intersection, points_polygon_intersection, lines_triangle_intersection and lines_polygon_intersection return exactly the results of the items marked True in the returned mask, in order.", "quantifier": "all input lists", "why_tests_cant": "All list lengths and outcomes.", "anchors": ["src/geometry/operations/point_geometry_operations.py", "src/geometry/operations/line_geometry_operations.py"]}
{"id": "C52", "title": "Line-line intersection points lie on both lines", "statement": "A point returned by line_line_intersection for non-parallel coplanar segments lies on both segments, and a common point of both segments is returned.", "quantifier": "all segments in the plane", "why_tests_cant": "All coordinates.", "anchors": ["src/geometry/operations/line_geometry_operations.py:line_line_intersection", "src/geometry/operations/triangle_triangle_intersection_test.py:TriangleTriangleIntersectionTest.line_line_intersection"]}
{"id": "C53", "title": "Convex triangulation covers the polygon once", "statement": "triangulate_convex_polygon of an n-gon returns n triangles, one per side, each with the centroid as apex; their vector areas add up to the polygon's vector area; fewer than three points are rejected.", "quantifier": "all polygons with any number of vertices", "why_tests_cant": "Any n and coordinates.", "anchors": ["src/geometry/operations/polygon_geometry_operations.py:triangulate_convex_polygon"]}
{"id": "C54", "title": "Fracture vertices are stored once", "statement": "Inserting fractures into FractureNetwork keeps stored vertex points pairwise at least the tolerance apart, and every inserted end point is within the tolerance of the stored vertex it is identified with.", "quantifier": "all sequences of insertions", "why_tests_cant": "Histories of insertions.", "anchors": ["src/geometry/fracture_network.py"]}
{"id": "C55", "title": "Facet normals point outwards", "statement": "normal(mesh, cell, facet) returns a unit vector orthogonal to the facet that points away from the cell.", "quantifier": "all non-degenerate cells and facets", "why_tests_cant": "All coordinates.", "anchors": ["src/geometry/compute_normal.py:normal"]}
{"id": "C56", "title": "Lower dimensional neighbours", "statement": "find_lower_dimension_neighs(cell, topology) returns the lower dimensional entities of the cell.", "quantifier": "every well formed mesh, topology and cell", "why_tests_cant": "Must hold for every cell of every mesh.", "anchors": ["src/mesh/topological_queries.py:find_lower_dimension_neighs"]}
{"id": "C57", "title": "Jacobian determinants and pseudo-inverses", "statement": "evaluate_mapping gives the Jacobian of the affine cell map; _compute_det_and_pseudo_inverse returns the positive square root of its Gram determinant and its Moore-Penrose left inverse, independently of the signs of the QR decomposition, and fails exactly for degenerate cells.", "quantifier": "all node coordinates, dimensions 1 to 3, all QR decompositions", "why_tests_cant": "All coordinates and sign choices.", "anchors": ["src/geometry/mapping.py:_compute_det_and_pseudo_inverse", "src/geometry/mapping.py:evaluate_mapping"]}
{"id": "C58", "title": "Cutting a mesh along a line splits it conformingly", "statement": "cut_conformity_along_c1_line appends two copies of every cut edge and of every split vertex (the vertices of the cut edges not on the internal boundary), makes the triangles and edges around the split vertices use the copies of their side, leaves all other cells, materials and existing points unchanged, and returns the ids of the cut cells and of their copies; afterwards cells on different sides share no cut edge and no split vertex, no cell has moved (without visual bump), sub-entities of sub-entities are still sub-entities, and the mesh is still well formed; several lines are cut one after the other; meshes of other dimensions and lines matching no edge are rejected.", "quantifier": "every well formed 2D mesh, line, tag set and number of lines", "why_tests_cant": "All meshes, sides and vertex incidences; repeated cuts.", "anchors": ["src/mesh/mesh_operations.py:cut_conformity_along_c1_line", "src/mesh/mesh_operations.py:cut_conformity_along_c1_lines"]}
{"id": "C59", "title": "Shape membership", "statement": "`other in self` is True exactly when a boundary or immersed shape of self equals other.", "quantifier": "all shapes of any depth", "why_tests_cant": "Recursive structure of arbitrary depth.", "anchors": ["src/topology/shape.py:Shape.__contains__"]}
{"id": "C60", "title": "Point-triangle incidence test is exact up to tolerance", "statement": "point_triangle_intersection accepts every point of the closed triangle whatever the tolerance, rejects every other point of space for all small tolerances, and with tolerance zero accepts exactly the points of the triangle; a returned point is the given point or a close vertex.", "quantifier": "all points and triangles, also degenerate ones where stated", "why_tests_cant": "All real coordinates.", "anchors": ["src/geometry/operations/point_geometry_operations.py:point_triangle_intersection"]}
{"id": "C61", "title": "Point-polygon incidence test", "statement": "point_polygon_intersection accepts a point of any triangle of the triangulation and rejects all other points for small tolerances; failures of the triangulation are passed on.", "quantifier": "all points, polygons and triangulations", "why_tests_cant": "All coordinates and numbers of vertices.", "anchors": ["src/geometry/operations/point_geometry_operations.py:point_polygon_intersection"]}
{"id": "C62", "title": "Point-in-triangle test", "statement": "The test point_in_triangle of TriangleTriangleIntersectionTest accepts every point of the closed triangle and, for all small tolerances, rejects every other point of the plane of the triangle.", "quantifier": "all points and triangles of a plane, all tolerances", "why_tests_cant": "All real coordinates; degenerate positions on the lines through the sides.", "anchors": ["src/geometry/operations/triangle_triangle_intersection_test.py:TriangleTriangleIntersectionTest.point_in_triangle"]}
{"id": "C63", "title": "Intersection of a line with a plane", "statement": "line_plane_intersection returns the unique point of the line through two points that lies in the plane of three points, and None exactly when the line is parallel to the plane or the plane is degenerate.", "quantifier": "all lines and planes", "why_tests_cant": "All real coordinates.", "anchors": ["src/geometry/operations/triangle_triangle_intersection_test.py:TriangleTriangleIntersectionTest.line_plane_intersection"]}
{"id": "C64", "title": "Fractures are split at their common points", "statement": "intersect_1D_fractures never fails on a non-empty list of two-point fractures; for fractures in general position in a plane it stores the end points and the points common to two fractures, each once, leaves a fracture without common points alone, and gives any other fracture sub-edges with its physical tag that join consecutive points of the chain made of its ends and its common points in the order from its first end.", "quantifier": "all families of fractures in a plane with members that are pairwise not parallel, or parallel and apart, distinct end points, and special points equal or at least the tolerance apart", "why_tests_cant": "Any number of fractures and of intersections per fracture, in any order along the fracture.", "anchors": ["src/geometry/fracture_network.py:FractureNetwork.intersect_1D_fractures"]}
{"id": "C65", "title": "Mixed Laplace local system", "statement": "LaplaceDualWeakForm.evaluate_form returns the residual of the mixed Poisson problem in the given local vector alpha (flux mass, pressure-divergence coupling, source) and its exact derivative; the matrix is a saddle point matrix (symmetric flux block, antisymmetric coupling, zero pressure block) whose quadratic form is the energy of the flux; the boundary form adds the Dirichlet datum times the normal trace to the degrees of freedom of the facet; fields with more than one component and unset spaces or functions are refused.", "quantifier": "all elements, tabulations, quadratures, coefficients, sources and vectors alpha", "why_tests_cant": "Any number of basis functions and quadrature points.", "anchors": ["src/weak_forms/laplace_dual_weak_form.py:LaplaceDualWeakForm.evaluate_form", "src/weak_forms/laplace_dual_weak_form.py:LaplaceDualWeakFormBCDirichlet.evaluate_form"]}
{"id": "C66", "title": "Primal Laplace local system", "statement": "LaplacePrimalWeakForm.evaluate_form returns the residual and the stiffness matrix of the primal Poisson problem on every cell, also on cells tilted in space; the matrix is symmetric and, for positive coefficients, positive semidefinite.", "quantifier": "all product spaces, elements, quadratures, coefficients and vectors alpha", "why_tests_cant": "Any element and any embedding of the cell in space.", "anchors": ["src/weak_forms/laplace_primal_weak_form.py:LaplacePrimalWeakForm", "src/spaces/product_space.py:ProductSpace"]}
{"id": "C67", "title": "L2 errors and norms", "statement": "l2_error returns, for every field that is not skipped and in the order of the fields, the square root of the quadrature of |f - f_h|^2 over all components and all elements of the given dimension; it is zero exactly if f_h agrees with f at the quadrature points, and no coefficients give a smaller error than a solution of the projection equations; l2_norm and l2_error_projected return the norms of f and f_h.", "quantifier": "all product spaces, elements, quadratures, functions and coefficient vectors", "why_tests_cant": "Any number of fields, components, elements, basis functions and quadrature points.", "anchors": ["src/postprocess/l2_error_post_processor.py:l2_error", "src/postprocess/l2_error_post_processor.py:l2_error_projected", "src/postprocess/solution_norms_post_processor.py:l2_norm"]}
{"id": "C68", "title": "Difference of a domain and vertices", "statement": "domain_difference of a one-dimensional domain with vertices returns, when the start tag is above all tags in use, a domain whose vertices are exactly the ends of its edges, without a tag used twice, which covers the same points as the given edges, keeps their physical tags, and has no tool vertex in the interior of an edge.", "quantifier": "all lists of edges and tools", "why_tests_cant": "Any number of edges and tools, any positions.", "anchors": ["src/topology/operations/domain_operations.py:domain_difference"]}
{"id": "C69", "title": "Union of a domain and vertices", "statement": "domain_union of a one-dimensional domain with a second domain returns the first domain with every vertex that coincides with a vertex of the second domain replaced by it in all edges; after domain_difference with the same vertices, all parts that meet at a tool share it as their vertex.", "quantifier": "all closed one-dimensional domains and vertices", "why_tests_cant": "Any number of edges and vertices, any incidence.", "anchors": ["src/topology/operations/domain_operations.py:domain_union", "src/topology/operations/domain_operations.py:domain_difference"]}
{"id": "C70", "title": "Box domains are closed", "statement": "build_box_1D, build_box_2D and build_box_3D return the line, the polygon and the box on the given points: the vertices are the points in order, the edges join neighbouring corners, every face is bounded by a closed loop of edges through its corners which the orientation of its wire follows, every edge of the box is on two of its six sides, each side, area and volume carries the tag of its label, and the transfer to gmsh succeeds and gives each label its physical group; too few points raise IndexError.", "quantifier": "all lists of points (any number of corners in the plane) and all tag dictionaries", "why_tests_cant": "Polygons with any number of corners; arbitrary points and tags.", "anchors": ["src/topology/domain_market.py:build_box_1D", "src/topology/domain_market.py:build_box_2D", "src/topology/domain_market.py:build_box_3D"]}
{"id": "C71", "title": "Linear elasticity local system", "statement": "LEPrimalWeakForm.evaluate_form returns the residual and the matrix of linear elasticity on two and three dimensional cells; the matrix is symmetric, its quadratic form is the elastic energy, it is positive semidefinite for stable Lame parameters, and its kernel consists of the fields without strain, among them the rigid motions; the stress constraint form has the same matrix times its penalty and vanishes where the stress is the target stress; wrong numbers of components and unset spaces or functions are refused.", "quantifier": "all elements, tabulations, quadratures, coefficients, sources and vectors alpha", "why_tests_cant": "Any number of basis functions and quadrature points.", "anchors": ["src/weak_forms/le_primal_weak_form.py:LEPrimalWeakForm.evaluate_form", "src/weak_forms/le_primal_stress_constraint_weak_form.py:LEPrimalStressConstraintWeakForm.evaluate_form"]}
{"id": "C72", "title": "Elasticity boundary terms", "statement": "The boundary forms of LEPrimalWeakForm give the penalty of u - u_D (Dirichlet), the work of the traction (Neumann) and the penalty of the normal component (u - u_D).n (normal Dirichlet); fields that satisfy the boundary condition solve the system of the penalty term.", "quantifier": "all facets, normals, tabulations, quadratures and boundary data", "why_tests_cant": "Any normal direction, any number of components and basis functions.", "anchors": ["src/weak_forms/le_primal_weak_form.py:LEPrimalWeakFormBCDirichlet", "src/weak_forms/le_primal_weak_form.py:LEPrimalWeakFormBCNeumann", "src/weak_forms/le_primal_weak_form.py:LEPrimalWeakFormBCNormalDirichlet"]}
{"id": "C73", "title": "Cosserat elasticity local system", "statement": "LCEPrimalWeakForm.evaluate_form returns the residual and the matrix of linear Cosserat elasticity for displacements and microrotations on two and three dimensional cells; the matrix is symmetric, its quadratic form is the energy of strain and curvature, it is positive semidefinite for stable coefficients, and its kernel consists of the fields without strain and curvature, among them the rigid motions with the matching microrotation; the Dirichlet form penalises the differences to the prescribed displacements and rotations; wrong numbers of components and unset spaces or functions are refused.", "quantifier": "all elements, tabulations, quadratures, coefficients, loads and vectors alpha", "why_tests_cant": "Any number of basis functions and quadrature points; the signs of the coupling must match in two and three dimensions.", "anchors": ["src/weak_forms/lce_primal_weak_form.py:LCEPrimalWeakForm.evaluate_form", "src/weak_forms/lce_primal_weak_form.py:LCEPrimalWeakFormBCDirichlet.evaluate_form"]}
{"id": "C74", "title": "Mixed elasticity of the Taylor-Hood form", "statement": "On a plane cell with two displacement components and a scalar pressure, LETaylorHoodWeakForm.evaluate_form returns the residual and the matrix of the symmetric form of 2 mu dev eps(u):dev eps(v) + p div v + q div u - p q/(lambda+mu), the load acting on the displacements only. When the pressure is (lambda+mu) div u in the quadrature points the pressure rows vanish and the displacement rows are those of the primal elasticity form; tested with (u,-p) the form is the integral of 2 mu |dev eps|^2 + p^2/(lambda+mu), so a field in the kernel has neither pressure nor deviatoric strain. Other numbers of displacements are refused with ValueError and other dimensions with AssertionError.", "quantifier": "for every plane element, every tabulation of displacement and pressure, all coefficients with lambda+mu nonzero in the quadrature points and all coefficient vectors", "why_tests_cant": "The mixed form is used in place of the displacement form for nearly incompressible materials; a wrong sign, factor or offset would give a system that is unsymmetric, unstable or that solves another problem.", "anchors": ["src/weak_forms/le_taylor_hood_weak_form.py:12-186"]}
{"id": "C75", "title": "The scaled degenerate elliptic form does not degenerate", "statement": "With a vector valued flux and a scalar pressure, DegenerateEllipticWeakForm.evaluate_form returns the residual and the matrix of v.psi - q D(psi) + D(v) w + q w - f w, where D(psi) = (delta div psi + grad delta . psi)/sqrt(phi) where the porosity is above 1e-8 and zero elsewhere. Whatever the porosity, the quadratic form of the matrix is the integral of |v|^2 + q^2, so that a field in the kernel vanishes in the quadrature points; without porosity flux and pressure decouple. The boundary term is the integral of (delta/sqrt(phi)) q_D psi.n. More components in a field are refused with ValueError, as are a missing space and missing functions.", "quantifier": "for every element, every tabulation of flux and pressure, every porosity, every delta with its gradient, and all coefficient vectors", "why_tests_cant": "The scaling is there for porosities that vanish in part of the domain; tests use a few exact solutions with positive porosity and look at convergence rates.", "anchors": ["src/weak_forms/degenerate_elliptic_weak_form.py:42-144", "src/weak_forms/degenerate_elliptic_weak_form.py:147-216"]}
{"id": "C76", "title": "The unscaled elliptic form is the scaled one in the physical fields", "statement": "Without negative porosities UnscaledEllipticWeakForm.evaluate_form returns the residual and the matrix of delta^-2 u.psi - p div psi + div u w + phi p w - sqrt(phi) f w, where phi and delta are replaced by the threshold in the matrix where they vanish; the threshold is positive, and so the quadratic form of the matrix, which is the integral of delta^-2 |u|^2 + phi p^2, is not negative. Where phi and delta are above 1e-8 the form of the physical fields (delta v, q/sqrt(phi)) is the scaled form of (v, q), sources included.", "quantifier": "for every element, every tabulation of flux and pressure, every porosity, every delta, every positive threshold and all coefficient vectors", "why_tests_cant": "The two forms are compared by solving a few problems with each; whether they agree in general is a statement about all fields, coefficients and cells.", "anchors": ["src/weak_forms/unscaled_elliptic_weak_form.py:44-153"]}
{"id": "C77", "title": "The physical fields are the projection of the scaled ones", "statement": "ScaledToPhysicalL2Projection.evaluate_form returns the mass matrix of flux and pressure and the residual of (u - delta v).psi + (p - q/sqrt(phi)) w, where points without positive porosity take v and q themselves. When the space contains the physical fields their coefficients have no residual, and any other solution has the same values in the quadrature points.", "quantifier": "for every element, every tabulation of flux and pressure, every porosity, every delta and all coefficient vectors of both the scaled and the physical fields", "why_tests_cant": "A wrong factor in the projection changes the output only by a smooth factor, which a plot does not show.", "anchors": ["src/weak_forms/scaled_to_physical_l2_projection.py:28-105"]}
{"id": "C78", "title": "The dual Cosserat forms assemble the mixed system", "statement": "In two and three dimensions evaluate_form of the dual and of the scaled dual form returns, by automatic differentiation, the matrix of the mixed problem for stress, couple stress, displacement and rotation (compliance of both stresses, divergence couplings, rotation against the skew part of the stress) and the residual with minus the loads. evaluate_form_vectorized returns the load and the same matrix. The compliance is the inverse of the Cosserat law. The matrix is symmetric, has a zero block on displacements and rotations, and is positive on the stresses when the coefficients and weights are positive. Wrong numbers of components, missing fields and missing coefficients are refused.", "quantifier": "all elements of dimension 2 or 3, all tabulations of fitting shape, all coefficients and coefficient vectors", "why_tests_cant": "Tests compare the solution of a few problems with exact ones; that two independent implementations agree for all coefficients, and that the system is a saddle point with positive stresses, is a statement about all cells and fields.", "anchors": ["src/weak_forms/lce_dual_weak_form.py:12-648", "src/weak_forms/lce_scaled_dual_weak_form.py:12-698"]}
{"id": "C79", "title": "The Riesz maps are the inner product of the dual spaces", "statement": "evaluate_form and evaluate_form_vectorized of the Riesz map and of its scaled variant return the same matrix: the energy of both stresses, the products of their divergences, and the masses of displacement and rotation. The vectorized residual is zero. The matrix is symmetric, its quadratic form is not negative for positive coefficients, and it vanishes exactly for the fields that vanish in all quadrature points.", "quantifier": "all elements of dimension 2 or 3, all tabulations of fitting shape, all coefficients and coefficient vectors", "why_tests_cant": "The Riesz map only preconditions, so a wrong entry changes iteration counts and no result.", "anchors": ["src/weak_forms/lce_riesz_map_weak_form.py:10-546", "src/weak_forms/lce_scaled_riesz_map_weak_form.py:10-598"]}
{"id": "C80", "title": "The boundary terms of the dual elasticity forms", "statement": "In the dual forms of elasticity, with or without couples, the Dirichlet term on a side is natural: it has no matrix and the residual minus the integral of the prescribed displacement against the normal stress plus the prescribed rotation against the normal couple stress. The Neumann term is essential: it adds to the matrix the penalty times the integral of the product of the normal parts, and to the residual that matrix times alpha minus the prescribed traction. Missing boundary data are refused.", "quantifier": "For all sides, traces, boundary functions and coefficients", "why_tests_cant": "The tests use a handful of boundary functions on fixed meshes and compare global errors, which does not isolate the entries of one side.", "anchors": ["src/weak_forms/lce_dual_weak_form.py:651-871", "src/weak_forms/lce_scaled_dual_weak_form.py:702-917", "src/weak_forms/le_dual_weak_form.py:513-644"]}
{"id": "C81", "title": "The dual elasticity system and its Riesz map", "statement": "In two and three dimensions the dual form of elasticity without couples gives on every element the load and the matrix of the mixed problem in stress, displacement and rotation; its law is the inverse of the isotropic one, the matrix is symmetric, has no block of displacements and rotations and is positive on stresses. The Riesz map gives a zero residual and the matrix of the inner product with mass, divergence, displacement and rotation terms, which is positive.", "quantifier": "For all elements, tabulations, right hand sides and Lam\u00e9 coefficients", "why_tests_cant": "Tests check convergence rates of a few manufactured solutions; a wrong entry in the trace coupling of the compliance can hide below the rates, and the inner product is only used as a preconditioner.", "anchors": ["src/weak_forms/le_dual_weak_form.py:12-511", "src/weak_forms/le_riesz_map_weak_form.py:9-353"]}
{"id": "C82", "title": "Errors and norms of divergences", "statement": "The divergence error of every vector field that is not skipped is the root of the quadrature of the squared difference between the exact divergence and the divergence of the discrete function; the scaled error has the divergence of the discrete function times the length; the norm is that of the exact divergence, so that without coefficients errors equal norms. The error is zero exactly if the divergences agree in all points. Missing exact divergences and exact divergences of another number of components are refused, and fields without a length scale are passed over by the scaled error. Errors of gradients and deviators are computed in the same way.", "quantifier": "For all product spaces, tabulations, coefficients and exact functions", "why_tests_cant": "The convergence tests print these numbers for two fields on a few meshes, where a constant factor or a wrong point pairing shows only as a changed rate or not at all.", "anchors": ["src/postprocess/l2_error_post_processor.py:120-421", "src/postprocess/solution_norms_post_processor.py:42-147"]}
{"id": "C83", "title": "The data in vtk files", "statement": "The arrays written for a field have, in the node of every vertex, the mean over the cells around it on which the field lives of the values of the discrete function on these cells, hence its value where it is continuous; cell centred fields have the value in the centre of every cell of the mesh dimension. Exact values and pointwise errors are written beside them, and with several product spaces nodes and cells where a field does not live have nan. The arrays fit the points and cells of the file.", "quantifier": "For all meshes, spaces, coefficients and exact functions", "why_tests_cant": "No test reads a vtk file back; wrong averages or a wrong pairing of values and nodes would only be noticed by looking at pictures.", "anchors": ["src/postprocess/solution_post_processor.py:11-429"]}
{"id": "C84", "title": "Transfer of a domain to gmsh by DiscreteDomain", "statement": "The domain is handed to gmsh so that every simple shape becomes one entity with a positive tag that no other entity has, curves join the points of their end vertices, the loop of a surface runs along its wire, physical groups contain the entities of the shapes with the physical tag, curves of the refined tags are transfinite, immersed shapes are embedded, and every call refers to entities made before.", "quantifier": "For all domains whose shapes have their parts in the domain, of any dimension", "why_tests_cant": "The tests mesh a few fixed domains of dimension two and compare numbers of cells; tags that clash or refer to missing entities appear only for particular shapes, and the transfer of volumes is never run.", "anchors": ["src/mesh/discrete_domain.py:7-310"]}
{"id": "C85", "title": "Boxes of the geometry builder", "statement": "The builder turns given corners into cells: a line has its two points, a polygon one vertex per point and one side from each point to the next (the last one back to the first), a box eight vertices, twelve edges and six faces with oriented loops; ids are positions, physical tags are the given ones, and the graph has all cells as nodes and an edge from each cell to every cell of its boundary.", "quantifier": "For all points, any number of corners of a polygon, all tables of tags", "why_tests_cant": "The meshing tests call the builders with one unit line, square and cube; a wrong connection in the tables of edges and faces still gives a mesh, and polygons with other numbers of corners are never built.", "anchors": ["src/geometry/geometry_builder.py:7-238", "src/geometry/geometry_cell.py:1-29"]}
{"id": "C86", "title": "Description of a box for gmsh", "statement": "The calls of the mesher for a built box name one point per corner and one entity per cell, refer only to entities made before, use different positive tags in each dimension, give each surface a closed loop through its corners, put each edge of a box in two faces and give each side and the interior its physical group.", "quantifier": "For all polygons, lines and boxes with tags for all their sides", "why_tests_cant": "The tests look at numbers of elements of a mesh of one box per dimension; loops with a wrong sign or groups with a wrong side are accepted by gmsh, and polygons that are not quadrilaterals are never meshed.", "anchors": ["src/mesh/conformal_mesher.py:27-35", "src/mesh/conformal_mesher.py:333-428", "src/mesh/conformal_mesher.py:518-522"]}
{"id": "C87", "title": "Description of a fracture network for gmsh", "statement": "With a fracture network in a polygon the mesher numbers the points and cells of the network after those of the polygon, makes one line per undivided piece of a fracture, embeds all of them and their end points in the surface, makes all tags unique in each dimension and refers only to entities made before, and gives one group with the tag of the fracture to all of its pieces, one to the vertices with that tag and one to each other vertex.", "quantifier": "For all polygons, all networks of edges with divided fractures whose pieces are undivided and belong to one fracture", "why_tests_cant": "The tests mesh one fixed network; lines with the number of another piece, pieces missing in a group or end points left out of the embedding still give a mesh, and clashes of tags appear only with further fractures.", "anchors": ["src/mesh/conformal_mesher.py:27-35", "src/mesh/conformal_mesher.py:430-499", "src/mesh/conformal_mesher.py:518-541", "src/geometry/fracture_network.py:304-344"]}
{"id": "C88", "title": "Intersection of a domain of vertices with a domain of edges", "statement": "`domain_intersection` gives a domain with one vertex for each pair of a tool vertex and an edge that meet, at the point of the tool, with distinct tags from the given one; it has no other vertices, and without edges there is no result.", "quantifier": "For all vertices and edges, any number of them, tolerance zero; concrete positive tolerances for the failures", "why_tests_cant": "The test intersects vertices with one edge where all of them lie on it; with a second edge tags collide and vertices are lost, which a single edge never shows.", "anchors": ["src/topology/operations/domain_operations.py:47-84", "src/topology/operations/vertex_operations.py:114-154"]}
{"id": "C89", "title": "Collapse and intersection of vertices and edges", "statement": "`collapse_vertex` and `collapse_edge` give the object the tag and the place of the tool exactly if both are at the same place; two edges that are not parallel give one vertex at their common point with the given tag, two edges without common point give nothing.", "quantifier": "For all vertices, all pairs of edges in space, tolerance zero and small positive tolerances", "why_tests_cant": "The tests use a few edges in a plane; edges that touch at an end of the tool, overlap, or contain each other and edges with tags in the opposite order are not among them, and the tag of the result is not looked at.", "anchors": ["src/topology/operations/edge_operations.py:14-90", "src/topology/operations/vertex_operations.py:37-61"]}
{"id": "C90", "title": "Values of the basis on a cell", "statement": "`evaluate_basis` gives the functions of the reference cell with their values mapped to the cell and their derivatives unchanged: scalars keep their values, vectors of RT and BDM keep their flux through faces and vectors of N1E their circulation along edges; on edges the functions of these families keep their size along the edge.", "quantifier": "For all cells of dimension 0 to 3, all tables, numbers of points and functions, all Jacobians with the determinant and inverse of C57", "why_tests_cant": "The tests project smooth functions in the plane or in axis-aligned boxes with one quadrature rule per order; inclined triangles, edges that are not along the first axis and rules with another number of points than functions do not occur.", "anchors": ["src/basis/finite_element.py:157-187"]}
{"id": "C91", "title": "Element of a neighbouring cell", "statement": "The search by which traces and boundary forms pass from a facet to the element of a cell beside it finds, for k = 0, 1, ..., the elements of exactly the cells of the space that have the facet among their sub-entities, and refuses facets without such cells.", "quantifier": "For all spaces built on well formed meshes, all stored cells and all k", "why_tests_cant": "The tests call the weak forms with Dirichlet conditions only, one neighbour per boundary facet; the forms that look up the pair instead of the id and the traces are not called by any test.", "anchors": ["src/basis/basis_trace.py:31-70", "src/weak_forms/laplace_primal_weak_form.py:106-111", "src/weak_forms/le_dual_weak_form.py:610-615", "src/weak_forms/lce_scaled_dual_weak_form.py:852-875", "src/spaces/product_space.py:139-144"]}
{"id": "C92", "title": "Trace of a basis on a facet", "statement": "`_trace` gives the basis of a cell at the points of the cell that coincide in space with points given on one of its facets, with the geometry of the cell; unless all functions are asked for, it gives those that belong to the facet, and their degrees of freedom are the ones of the facet, in the same order from both sides.", "quantifier": "For all cells of dimension 1 to 3, facets in any node order, points, non-degenerate geometry and any element whose functions are numbered entity by entity", "why_tests_cant": "No test calls the traces; the examples use them on axis-aligned meshes with lowest-order RT and BDM, for which every facet of a cell has the same number of functions and no function belongs to vertices.", "anchors": ["src/basis/basis_trace.py:9-28", "src/basis/finite_element.py:131-155"]}
{"id": "C93", "title": "Values prescribed for the primal form", "statement": "The boundary form of the primal Laplacian adds 10^12 times the mass matrix of the facet for the functions of the cell that do not vanish on the facet, and the load of the prescribed values, so that coefficients with these values have no residual; the functions used are the ones whose degrees of freedom are the boundary destinations of the facet, in the same order.", "quantifier": "For all built spaces, facets, component counts, quadratures and elements whose functions are numbered entity by entity", "why_tests_cant": "No test assembles this form and the example that imports it uses another boundary condition; a single order on one mesh would not show the dependence on the number of functions of an edge.", "anchors": ["src/weak_forms/laplace_primal_weak_form.py:77-157"]}
{"id": "C94", "title": "Normals and convexity of polygons", "statement": "The normal of a plane polygon is a unit normal of its plane; the convexity test of a polygon with four or more vertices says yes just where all turns go the same way about it, a quadrilateral that passes is strictly convex, and a strictly convex polygon passes.", "quantifier": "For all plane polygons in space with at least three vertices and all tolerances", "why_tests_cant": "The tests triangulate two or three fixed polygons; the three points that span the plane depend on the order of the distances from the mean, and the failing shapes (parallelograms with unequal diagonals, stars) are whole families.", "anchors": ["src/geometry/operations/polygon_geometry_operations.py:6-55", "src/geometry/operations/polygon_geometry_operations.py:58-82"]}
{"id": "C95", "title": "Winding numbers and the triangles that are kept", "statement": "The winding number of a point about a polygon is the number of turns of the closed polygon about it, for every point that is on no edge; points strictly left of all edges have a positive number, points from which the polygon is in a half plane have zero, reversing changes the sign and cutting along a diagonal adds. Of the Delaunay triangles of a polygon that is not convex, just those are kept whose centre has a number that is not zero, and they cover the polygon and nothing else.", "quantifier": "For all polygons, points and lists of triangles with valid numbers", "why_tests_cant": "Angles jump at the negative axis and the closing edge is left out of the sum; that neither matters is a statement about all positions of the point. A test on a polygon whose edges happen to be Delaunay edges cannot show that edges are ignored.", "anchors": ["src/geometry/operations/polygon_geometry_operations.py:85-100", "src/geometry/operations/polygon_geometry_operations.py:128-150"]}
{"id": "C96", "title": "A box cut by fractures", "statement": "The domain made for a polygon and fractures has as vertices and edges the sides of the polygon and the fractures, cut where they meet and restricted to the polygon, and one face; the face is bounded by a closed wire that goes once around the polygon, through the corners and the points where fractures meet the sides, and has all the edges immersed.", "quantifier": "For all polygons, fractures and tags in general position with respect to the tolerances", "why_tests_cant": "The tests mesh one unit square with given fractures; which side a fracture ends on decides whether the wire closes, and the order of the tags, the sorting along each side and the merged vertices interact.", "anchors": ["src/topology/domain_market.py:172-301"]}
{"id": "C97", "title": "Intersection of two triangles", "statement": "The test of two triangles reports no intersection exactly when they have no common point, and otherwise gives the ends of the segment of common points; it always gives an answer.", "quantifier": "For all pairs of triangles in space in general position, and all sufficiently small positive tolerances", "why_tests_cant": "The tests compare a few fixed pairs of triangles; which corners are on which side, which sides are crossed in which order and which coordinate is dropped give very many cases.", "anchors": ["src/geometry/operations/triangle_triangle_intersection_test.py:14-19", "src/geometry/operations/triangle_triangle_intersection_test.py:148-443"]}
{"id": "C98", "title": "Intersection of two polygons", "statement": "The test of two polygons reports no intersection exactly when they have no common point, and otherwise gives the two ends of the segment of common points.", "quantifier": "For all pairs of convex polygons in space in general position, and all sufficiently small positive tolerances", "why_tests_cant": "The tests compare a few fixed rectangles; the answer is put together from four tests of triangles, and the common points of each may be a different part of the segment, in any order and along any direction.", "anchors": ["src/geometry/operations/polygon_polygon_intersection_test.py:10-15", "src/geometry/operations/polygon_polygon_intersection_test.py:43-79", "src/geometry/operations/polygon_polygon_intersection_test.py:81-113"]}
{"id": "C99", "title": "Embedding vertices in an edge", "statement": "Embedding vertices in an edge puts the vertices that are at its ends there, returns the other vertices that are on it, one for each point, and adds to it a chain of edges from the first end through these vertices in order to the second end, with consecutive tags.", "quantifier": "For all edges and finite arrays of vertices that are not within the tolerances of the ends", "why_tests_cant": "The test embeds three vertices in one edge and looks at two of the tags; which vertices are chosen, repeated points, vertices at the ends and the order in which they are given are not varied.", "anchors": ["src/topology/shape_manipulation.py:115-122", "src/topology/shape_manipulation.py:137-145", "src/topology/shape_manipulation.py:148-194"]}
{"id": "C100", "title": "Cutting edges at their intersections", "statement": "Intersecting an array of edges makes one vertex at each point that two of the edges have in common without already having a common vertex there, with consecutive tags, and cuts every edge at these vertices: two edges then have in common only vertices that are ends of the pieces of both, and the pieces of an edge cover it.", "quantifier": "For all finite arrays of edges and wires in a plane, no two of the edges on one line, with no coincidence within the tolerances", "why_tests_cant": "The callers use a few fixed files of lines; which points are found, several edges through a point, ends on another edge, edges that already share a vertex and the numbering of the pieces are not varied.", "anchors": ["src/topology/shape_manipulation.py:115-122", "src/topology/shape_manipulation.py:197-289", "src/geometry/operations/triangle_triangle_intersection_test.py:72-130"]}
{"id": "C101", "title": "A box with embedded lines", "statement": "Building a box from corners and lines makes a domain whose vertices are the corners, the ends of the lines and the points where lines and sides cross, each once; the sides and lines are cut exactly at these points, the line objects have distinct tags, the lines are embedded in the face, and the wire of the face runs round the box in one closed chain.", "quantifier": "For all polygons with at least two corners, all finite lists of lines in the plane, physical tags and sorting permutations, no two edges on one line and no coincidence within the tolerances", "why_tests_cant": "The test builds one square with the lines of one file and looks at no vertex, tag or orientation; which sides are crossed, lines at a corner and few or many lines are not varied.", "anchors": ["src/topology/domain_market.py:305-370", "src/topology/shape_manipulation.py:197-289", "src/topology/domain.py:48-65", "src/topology/domain.py:79-84"]}
{"id": "C102", "title": "Exact solution of the first Cosserat example", "statement": "The closed forms for gradients, stress, couple stress, divergences and right-hand sides belong to the displacement and the rotation: the gradients and divergences are the derivatives, the stresses follow from the laws of the material, the right-hand sides are the balances of force and couple, displacement and rotation vanish on the boundary, and the fields satisfy the mixed weak form of the solver.", "quantifier": "For all points of space, all material constants and, for the weak form, all test fields; in two and three dimensions, scaled and unscaled", "why_tests_cant": "The examples compare the solver with these formulas, so a slip in them shows as a wrong order of convergence at best; no test differentiates the formulas or puts them into the equations.", "anchors": ["examples/cosserat_elasticity/strong_solution_cosserat_elasticity_example_1.py:4-1546", "src/weak_forms/lce_dual_weak_form.py:150-200"]}
{"id": "C103", "title": "Exact solution of the second Cosserat example", "statement": "The closed forms of the second example belong to its displacement and rotation: gradients and divergences are the derivatives, the displacement is free of divergence, the stresses follow from the laws of the material, the right-hand sides are the balances of force and couple, and the fields satisfy the mixed and the primal weak form of the solvers.", "quantifier": "For all points of space, all material constants and, for the weak forms, all test fields; in two and three dimensions", "why_tests_cant": "The example script calls these functions with arguments that they do not take and is switched off in the shell script, so nothing runs the formulas; no test differentiates them.", "anchors": ["examples/cosserat_elasticity/strong_solution_cosserat_elasticity_example_2.py:4-810", "src/weak_forms/lce_dual_weak_form.py:150-200", "src/weak_forms/lce_primal_weak_form.py:98-178"]}
{"id": "C104", "title": "Exact solution of the third Cosserat example, with a length that vanishes", "statement": "The length of the third example is a continuous function between zero and one that is zero near one corner. Its gradient, the gradients of displacement and rotation, the scaled couple stress, the divergences and the right-hand side of the third example belong to each other, and the fields satisfy the scaled mixed weak form at every point, also where the length is zero.", "quantifier": "For all points of space (away from the kinks of the length for the derivatives that contain it), all material constants and all test fields; in two and three dimensions", "why_tests_cant": "The convergence runs see the formulas through quadrature points of a few meshes and a rate over them; no test differentiates them or looks at the kinks.", "anchors": ["examples/cosserat_elasticity/strong_solution_cosserat_elasticity_example_3.py:4-1495", "src/weak_forms/lce_scaled_dual_weak_form.py:100-210"]}
{"id": "C105", "title": "First exact solution of elasticity", "statement": "Displacement, rotation, stress, pressure, stress divergence and right-hand side of the first elasticity example belong to each other: the displacement is free of divergence, the stress follows the law of Hooke for every first constant, the right-hand side is the balance of force, and the fields satisfy the primal form, the form with a pressure and the mixed form. Other dimensions are refused.", "quantifier": "For all points of the plane, all material constants with the stated conditions, and all test fields", "why_tests_cant": "The convergence runs see the formulas through a few meshes; a wrong constant in one of them only changes the size of an error.", "anchors": ["examples/cauchy_elasticity/strong_solution_elasticity_example_1.py:4-126", "examples/cosserat_ecmor/strong_solution_elasticity_example_1.py:4-119"]}
{"id": "C106", "title": "Second exact solution of elasticity, with two materials", "statement": "The displacement of the second elasticity example is continuous across the interface of the two materials, and with rotation, stress, pressure, stress divergence and right-hand side it satisfies the law of the material, the balance and the three weak forms on both sides of the interface.", "quantifier": "For all points of the plane, all material constants with the stated conditions, and all test fields; away from the interface for the gradient of the displacement", "why_tests_cant": "The scripts use only constants that are one, for which it does not show that the formulas ignore two of their arguments; no test looks at the interface.", "anchors": ["examples/cauchy_elasticity/strong_solution_elasticity_example_2.py:4-130", "examples/cosserat_ecmor/strong_solution_elasticity_example_2.py:4-119"]}
{"id": "C107", "title": "Exact solution of Cosserat elasticity in the plane with a length that vanishes", "statement": "Length, gradient of the length, displacement, rotation, stress, scaled couple stress, divergences and right-hand side of the plane Cosserat example belong to each other, and the fields satisfy the scaled mixed weak form at every point, also where the length is zero. Other dimensions are refused.", "quantifier": "For all points of the plane, all material constants with the stated conditions, and all test fields; away from the kinks of the length for the derivatives that contain it", "why_tests_cant": "The script hands over a dictionary without the keys that the weak form reads, so nothing runs the formulas against the solver.", "anchors": ["examples/cosserat_ecmor/strong_solution_cosserat_elasticity_example_3.py:4-313", "src/weak_forms/lce_scaled_dual_weak_form.py:100-210"]}
{"id": "C108", "title": "Exact solutions of the mixed problem with a porosity that vanishes", "statement": "Porosity, permeability, root of the mobility, pressure, flux, scaled pressure, scaled flux and load of the two examples belong to each other: the gradients are gradients, the flux is minus permeability times the gradient of the pressure, the scaled fields are those of the scaled form, the balance holds, and the scaled form of C75 is satisfied at every point. Where the porosity vanishes the solution and the load are zero. Other dimensions are refused.", "quantifier": "For all points where the porosity is positive (in dimension one to the right of the origin), all exponents with a nonzero denominator, all positive viscosities with the stated conditions, and all test values", "why_tests_cant": "The convergence runs use four exponents and viscosity one, and look at the gradient of the root of the mobility only through the matrix; on the left half of the interval the exact solution is zero, which hides a wrong coefficient there.", "anchors": ["examples/degenerate_elliptic_scalar/strong_solutions_TArbogast.py:4-336", "src/weak_forms/degenerate_elliptic_weak_form.py"]}
{"id": "C109", "title": "Exact solution of the mixed problem in the square with a fracture", "statement": "Away from the fracture the flux of the bulk is minus the permeability times the gradient of the pressure, its divergence is the load, and the mixed form is satisfied at every point. The pressure is continuous, equals the pressure of the fracture on the fracture and vanishes on the two sides that the fracture meets. In the fracture the flux follows the law of Darcy over the width, and balance and exchange belong to each other: what leaves the bulk enters the fracture, and the jump of the pressure follows the law of the coupling form.", "quantifier": "For all points, all materials and all test values; codimensions other than zero and one are refused", "why_tests_cant": "The convergence runs compare a discrete solution with these formulas; the form and the load agree on the sign of the exchange, so the run converges although the sign is wrong, and the missing jump is of the size of the width.", "anchors": ["examples/md_elliptic_scalar/exact_functions.py:5-134", "src/weak_forms/lce_dual_weak_form.py"]}
{"id": "C110", "title": "The coupling form of the two sides of a fracture", "statement": "For matching sides the form returns the residual and the matrix of the law of Robin on both sides, with coefficient width over twice the normal permeability, and of the exchange in the balance of the fracture. What leaves the bulk enters the fracture, the coupling spends energy and never creates it. Sides that do not match, absent functions and absent degrees of freedom are refused.", "quantifier": "For all fields, tables, quadrature rules, numbers of functions and coefficients", "why_tests_cant": "Only one example runs the form, with exact data of the same sign; symmetry and energy are properties of the matrix, which no run looks at.", "anchors": ["examples/md_elliptic_scalar/CouplingWeakForm.py:11-151"]}
{"id": "C111", "title": "The coupling form of a fracture in scaled variables", "statement": "For matching sides the form returns the residual and the matrix of the coupling, with one factor for the fluxes and one factor for the exchange that depend on porosity and the scaling function. In the unscaled variables u = d v and p = q / sqrt(phi) the coupling is the law of Robin and the exchange of the fracture; what leaves the bulk enters the fracture. The matrix is symmetric. Sides that do not match, absent functions and absent degrees of freedom are refused.", "quantifier": "For all fields, tables, quadrature rules, numbers of functions, porosities and scaling functions", "why_tests_cant": "The runs use a unit porosity scale, where the square root of the porosity and the scaling function are close to each other, and exact data of the same sign.", "anchors": ["examples/md_degenerate_elliptic_scalar/InterfaceCouplingWeakForm.py:11-190"]}
{"id": "C112", "title": "Exact solution of the scaled mixed problem in the square with a fracture", "statement": "Away from the fracture porosity, permeability, scaling function and their gradients belong to each other, the scaled flux and pressure satisfy the scaled law and the scaled balance, and the scaled mixed form is satisfied at every point. The fluxes have limits on both sides of the fracture, the pressure is continuous and agrees with the pressure of the fracture; in the fracture law and balance hold, with what leaves the bulk entering the fracture, and the jump of the pressure follows the law of the coupling form.", "quantifier": "For all points, all positive materials and all test values; codimensions other than zero and one are refused", "why_tests_cant": "The convergence runs compare a discrete solution with these formulas; form and load agree on the sign of the exchange, and the load evaluates the fluxes a distance 1e-13 away from the fracture.", "anchors": ["examples/md_degenerate_elliptic_scalar/exact_functions.py:1-463"]}
{"id": "C113", "title": "Exact solution of the degenerate problem in the square with a fracture", "statement": "In the left half, where the porosity is zero, all fields are zero. In the right half the porosity is x^2 times its lift, the pressure is the solution of the degenerate one dimensional problem times its lift, coefficients and gradients belong to each other, the scaled law, the scaled balance and the scaled mixed form hold at every point away from the fracture, and the fracture has its own law and balance with what leaves the bulk entering the fracture. The pressure is continuous.", "quantifier": "For all points, all positive materials and all exponents without resonance; codimensions other than zero and one are refused", "why_tests_cant": "The mask is a tolerance of 1e-8, no run has points in it; form and load agree on the sign of the exchange.", "anchors": ["examples/md_degenerate_elliptic_scalar/degenerate_exact_functions.py:1-554"]}
{"id": "C114", "title": "Comparing vertices, edges and points in shape manipulation", "statement": "Vertices have the same geometry if their points agree up to the tolerance. Collapsing a vertex onto a tool gives a vertex with the tag and the place of the tool if the two are at the same place, and leaves it unchanged otherwise; doing it again changes nothing. A point is on a line exactly if it is a combination of the two points of the line. A vertex intersects an edge exactly if it is on the edge. The edge of a face boundary between two points is found, in either order.", "quantifier": "For all points, vertices, edges, faces and tolerances", "why_tests_cant": "No test calls these functions; axis-parallel edges are the common case in which ignored coordinates matter.", "anchors": ["src/topology/shape_manipulation.py:17-134", "src/topology/shape.py:182-196", "src/topology/vertex.py:29-31"]}
{"id": "C115", "title": "Normals and opening of fractures, and the first cut", "statement": "A rotation keeps products of vectors and the coordinate of its axis, and angles add. Each fracture of a network gets, under its tag, the unit vector to the left of its direction and its middle, whether or not the network has been given to the mesher. The opening moves the nodes of the copies on the positive side along the normal and those on the negative side against it, by the factor times t(1-t) at the parameter t of the fracture, and nothing else. The first cut separates the sides of the fractures and leaves the original edges at a vertex unchanged when it copies them.", "quantifier": "For all vectors, angles, networks, meshes, tags, factors and points", "why_tests_cant": "No test calls the opening or the first cut; the normals are tested only through the cut that replaced it, for a handful of networks.", "anchors": ["src/mesh/mesh.py:925-996", "src/mesh/mesh.py:1170-1337", "src/mesh/mesh.py:1362-1440", "src/mesh/mesh_cell.py:10-50", "src/mesh/mesh_cell.py:96-108"]}
{"id": "C116", "title": "Networks of plane fractures", "statement": "`intersect_2D_fractures` gives every polygon its vertices, edges and surface with their points, and turns every line in which two polygons meet into an edge that is part of both surfaces and is split where it meets other lines. It does so for any polygons that meet.", "quantifier": "For all lists of polygons, all tables of intersections and tolerances", "why_tests_cant": "The test of this function is a single network of squares in which all lines cross in one fracture; the numbers of the points are never read.", "anchors": ["src/geometry/fracture_network.py:68-97", "src/geometry/fracture_network.py:99-198"]}
{"id": "C117", "title": "Files of a mesh", "statement": "`write_vtk` writes one file for each dimension with tagged cells, in which the nodes, the physical tags and the ids at one place belong to one cell, with or without colours. `conformal_mesh_write_vtk` writes the triangles, lines and vertices of the file of the mesher with their tags, and `write_data` prints the least and greatest dimensions of all cells and of the tagged cells.", "quantifier": "For all lists of cells, all results of the colouring and all files of the mesher", "why_tests_cant": "The tests write files of completely tagged meshes without colours and never read them.", "anchors": ["src/mesh/mesh.py:347-375", "src/mesh/mesh.py:377-399", "src/mesh/mesh.py:427-634"]}
{"id": "C118", "title": "Planes in a box", "statement": "`read_fractures_file` reads the points of the planes of a file, `build_disjoint_planes` makes for each of them its own corners, sides, closed loop and surface with consecutive numbers, and `build_box_3D_with_planes` puts them inside a box with different numbers and intersects them.", "quantifier": "For all files, all planes, all first numbers and all boxes", "why_tests_cant": "No test calls these functions.", "anchors": ["src/topology/domain_market.py:26-35", "src/topology/domain_market.py:375-418", "src/topology/domain_market.py:421-487"]}
{"id": "C119", "title": "A Lagrange multiplier between a degenerate region and its neighbour", "statement": "On the interface of a degenerate region, whose flux is `d v`, and its neighbour, whose flux is `u`, `LMgWeakForm.evaluate_form` returns the residual and the matrix of a multiplier that acts as pressure on both sides and demands that the fluxes out of both sides cancel; the form is an error or not a number exactly where the sides do not match or the porosity or the mobility degenerate.", "quantifier": "For all matching sides, all porosities and mobilities and all coefficients", "why_tests_cant": "The form is used by one example only and no test calls it.", "anchors": ["examples/degenerate_elliptic_scalar/LMWeakForm.py:12-154"]}
{"id": "C120", "title": "The time step of diffusion with reaction", "statement": "`SundusDualWeakForm.evaluate_form` returns, for the four fields of the mixed form of a diffusion equation and of a diffusion equation with a quadratic reaction, the residual of one implicit Euler step and, as Jacobian, its exact derivative with respect to the degrees of freedom; the boundary form adds the prescribed pressure and concentration times the normal fluxes.", "quantifier": "For all elements, coefficients, sources, time steps and degrees of freedom", "why_tests_cant": "The example's run shows the error at the final time only; a wrong Jacobian only slows Newton's method down, and the boundary form is never used with several components.", "anchors": ["examples/parabolic_diffusive_problem/SundusWeakForm.py:11-177", "examples/parabolic_diffusive_problem/SundusWeakForm.py:180-286"]}
{"id": "C121", "title": "The exact solutions of the transport example", "statement": "In each dimension the exact pressure and concentration of the transport example have the given fluxes and satisfy the diffusion equation and the diffusion equation with reaction for the given sources, and they vanish at the initial time and on the boundary.", "quantifier": "For all points, times and reaction coefficients, in dimensions one, two and three", "why_tests_cant": "The example prints rates for the one dimension it is run in; a wrong source in another dimension raises no error.", "anchors": ["examples/parabolic_diffusive_problem/mixed_transport_model.py:118-227"]}
{"id": "C122", "title": "The forms of the problem of Oden", "statement": "`OdenDualWeakForm.evaluate_form` returns the residual of the mixed form of `-\u0394u + u = f` in the given degrees of freedom and its matrix, whose quadratic form is the integral of `|q|\u00b2 + u\u00b2`; its Dirichlet form adds the prescribed values times the normal flux; the primal form and its Dirichlet form return residual and matrix of the primal form.", "quantifier": "For all elements, sources and degrees of freedom, with one component of each field", "why_tests_cant": "No test uses the forms; the run of the example prints rates that nothing compares, and the call of the primal form is commented out.", "anchors": ["examples/oden_problem/oden_dual_weak_form.py:11-149", "examples/oden_problem/oden_primal_weak_form.py:10-161"]}
{"id": "C123", "title": "The exact solutions of the problem of Oden", "statement": "In dimension one and two the exact scalar `u`, its flux `q = -\u2207u` and the divergence of the flux given in the example satisfy `div q + u = f` everywhere, and `u` vanishes on the boundary of the unit cube; other dimensions are refused.", "quantifier": "For all points, in all dimensions", "why_tests_cant": "Floating point evaluation at points shows agreement up to rounding only; the example runs in dimension one.", "anchors": ["examples/oden_problem/oden_rates_primal_dual_ad.py:67-136", "examples/oden_problem/oden_rates_primal_dual_ad.py:310-385"]}
{"id": "C124", "title": "Exact functions and contact form of the example of a fractured Cosserat medium", "statement": "The exact functions of codimension zero and one given by `get_exact_functions_by_co_dimension` and `get_rhs_by_co_dimension` are a flux `-\u03ba \u2207p` of the bulk and a flux `-\u03ba \u03b4 p_f'` of the fracture, whose divergences are the loads; other codimensions are refused. `ContactWeakForm.evaluate_form` returns a residual and a matrix.", "quantifier": "For all points, materials and codimensions", "why_tests_cant": "No test uses the functions, and the example that imports them fails before it computes an error.", "anchors": ["examples/md_cosserat_elasticity/exact_functions.py:5-95", "examples/md_cosserat_elasticity/ContactWeakForm.py:11-113"]}
{"id": "C125", "title": "The time loop of the transport example", "statement": "The loop visits the multiples of the time step up to the end; each step is Newton's method from the last state, with arrays that are zero before each assembly, and ends in a state whose residual is below the tolerance.", "quantifier": "For all residuals, Jacobians, tolerances, time steps and ends", "why_tests_cant": "A run shows one problem for which the iteration converges; that the last iterate is accepted without a test does not show.", "anchors": ["examples/parabolic_diffusive_problem/mixed_transport_model.py:250-350"]}
{"id": "C126", "title": "The exact solution of the advection and diffusion", "statement": "In dimension one the exact scalar `u`, diffusive flux `q = -\u03ba u'` and advective flux `m = v u` of the three field example satisfy `(q + m)' = 0` everywhere and, at both ends, the Robin condition that the Robin form imposes with the outward normal; other dimensions are refused.", "quantifier": "For all coefficients with nonzero permeability and nonzero denominator, and all points", "why_tests_cant": "The run of the example compares discrete and exact solution, whose boundary conditions agree up to 2e-9 for the coefficients 1e12 of the example only.", "anchors": ["examples/geothermal_flow/three_fields_advection_diffusion.py:118-289", "examples/geothermal_flow/ThreeFieldsAdvectionDiffusionWeakForm.py:245-255"]}
{"id": "C127", "title": "The advection forms of the three field example", "statement": "The form of an interior facet vanishes exactly if the advective flux on both sides is the velocity times the value of the scalar upstream, that of a boundary facet if it is the velocity times the inner value (outflow) or the prescribed one (inflow); the sequences of the example contain every interior facet with its two elements and every boundary facet with its element.", "quantifier": "For all velocities, traces and degrees of freedom of one facet in dimension one; all meshes for the sequences", "why_tests_cant": "No test runs the example; whether the orientation is right depends on the order of the neighbours.", "anchors": ["examples/geothermal_flow/ThreeFieldsAdvectionDiffusionWeakForm.py:267-527", "examples/geothermal_flow/three_fields_advection_diffusion.py:320-343", "examples/geothermal_flow/hydrothermal_system.py:224-245"]}
{"id": "C128", "title": "The forms of the hydrothermal example", "statement": "The rows of `DiffusionWeakForm` are the balances of mass, salt and energy, the laws of Darcy and Fourier and a closure that holds exactly in the states of one phase; the fields fill the degrees of freedom without gaps and at the same places in all forms; the Robin form relates normal flux and trace; the advection forms carry the values upstream and conserve; the data of the example are consistent with the closure and the product space is built.", "quantifier": "For all states, fluxes, coefficients and test functions in a point", "why_tests_cant": "No test runs the example; an inconsistent closure or layout shows only in the numbers.", "anchors": ["examples/geothermal_flow/HydrothermalWeakForms.py:15-778", "examples/geothermal_flow/hydrothermal_system.py:36-205", "examples/geothermal_flow/hydrothermal_system.py:262-290"]}
{"id": "C129", "title": "The diffusion form of the three field example", "statement": "`ThreeFieldsDiffusionWeakForm.evaluate_form` returns the residual and the matrix of `\u03ba\u207b\u00b9 q + \u2207u = 0`, an equation for the advective flux `m`, and the balance `div q + div m = f`; the coupling of flux and scalar is skew and the matrix of a cell with its facets is not singular.", "quantifier": "For all elements, quadratures, tabulations with fitting shapes, coefficients and degrees of freedom", "why_tests_cant": "No test runs the example; a row without equation shows only as a singular global matrix, and the last time step is read but not used.", "anchors": ["examples/geothermal_flow/ThreeFieldsAdvectionDiffusionWeakForm.py:11-133"]}
{"id": "C130", "title": "The quadrature rules of product spaces", "statement": "With fields of dimension `d` and order `k` a product space has the integration order `2 max k + 1` and, for each field, a rule of this order for cells of its dimension and one for their boundary; the rule integrates products of two basis functions and a linear factor exactly; every dimension from zero to three is served, and the mixed-dimensional product space chooses the same rules.", "quantifier": "For all lists of fields, all quadrature makers that may raise, all polynomials", "why_tests_cant": "Tests use a few orders and dimensions; exactness for all polynomials cannot be sampled.", "anchors": ["src/spaces/product_space.py:24-49", "src/spaces/md_product_space.py:18-46", "src/basis/element_type.py:4-11"]}
{"id": "C131", "title": "Mixed-dimensional product spaces", "statement": "`MDProductSpace` accepts product spaces for different dimensions up to three; its methods define fields, numbers of degrees of freedom and destinations as those of a product space; after an exception no partial numbers are used.", "quantifier": "For all product spaces, field data and sequences of method calls", "why_tests_cant": "No test or example makes an object; the missing import shows only when a method runs.", "anchors": ["src/spaces/md_product_space.py:8-144"]}
{"id": "C132", "title": "The data kept by an element", "statement": "After construction an element has the number of degrees of freedom of its reference element and the integration order asked for; the mapping data kept are those of the last evaluation that was stored, and belong together; `store_mapping` and `storage_basis` store; every class of element data can be copied.", "quantifier": "For all reference elements, geometries and sequences of calls", "why_tests_cant": "Tests look at single evaluations; stale data need two, and the copies are never called.", "anchors": ["src/basis/element_data.py:7-135", "src/basis/finite_element.py:12-22", "src/basis/finite_element.py:98-153", "src/geometry/mapping.py:58-65"]}
{"id": "C133", "title": "The transfer of finite volume solutions", "statement": "`compute_permutation` gives a permutation that takes the points of one mesh to those of the other; after the transfer the stresses on each face are those of its partner times the sign with which both normals agree, the displacements in each cell are those of its partner, and the remaining fields are zero; `compute_normal` gives unit normals; `obtuse_entity_Q` reports the triangles with an obtuse angle.", "quantifier": "For all point lists, all sorting functions `argsort`, hashes and string functions, all vectors, signs and permutations, all triangles", "why_tests_cant": "The meshes and solutions come from another program and are not in the repository; the wrong sign needs a mesh where the numbers of the faces and their orientations differ.", "anchors": ["examples/cauchy_elasticity/mfe_elasticity_example_1.py:418-487", "examples/cosserat_ecmor/mfe_cosserat_elasticity_example_3.py:487-580"]}
{"id": "C134", "title": "The assembly of the example drivers", "statement": "After the loops over elements and boundary elements the residual is the sum of all contributions and the matrix, or its upper triangle in the symmetric mode, is the sum of the contributions; with symmetric element matrices the upper triangle determines the matrix; the matrix of the preconditioner is assembled in the same way; an exception ends the assembly.", "quantifier": "For all lists of elements, both modes, with and without boundary matrices, any initial system", "why_tests_cant": "Tests compare errors of solutions on a few meshes with material data near one; entries that are dropped show only in other units or on fine meshes.", "anchors": ["examples/cauchy_elasticity/mfe_elasticity_example_1.py:128-219", "examples/cauchy_elasticity/cg_elasticity_example_2.py:94-148", "examples/cauchy_elasticity/th_elasticity_example_1.py:99-148"]}
{"id": "C135", "title": "The convergence tables of the example drivers", "statement": "The table of errors has one row for each level; the rates are the slopes of the logarithms of errors over the logarithms of the mesh sizes between neighbouring levels; errors of order p give rates near p; the columns are those the headers name.", "quantifier": "For all numbers of levels and fields, all mesh sizes and errors", "why_tests_cant": "The tables are only read by people; a wrong column of mesh sizes gives plausible numbers, and the drivers are not part of the tests.", "anchors": ["examples/cauchy_elasticity/mfe_elasticity_example_1.py:583-682", "examples/cauchy_elasticity/mfe_elasticity_example_2.py:706-873", "examples/cosserat_elasticity/mfe_cosserat_elasticity_example_1.py:1003-1078", "examples/cauchy_elasticity/th_elasticity_example_1.py:307-379", "examples/oden_problem/oden_rates_primal_dual_ad.py:543-562"]}
{"id": "C136", "title": "Domains of the degenerate examples", "statement": "A line through given points has one edge between neighbours and tags exactly at its two ends; the surface has two regions bounded by closed loops whose common edges are passed in opposite directions; the edges have different physical tags, those of the outer boundary being 3 to 8; too few points raise IndexError.", "quantifier": "For all lists of points, dictionaries of tags and lists of edges to skip", "why_tests_cant": "The examples call the routines with three and with seven points only; nothing tests other inputs.", "anchors": ["examples/degenerate_elliptic_scalar/domain_builder.py:10-86", "examples/degenerate_elliptic_scalar/darcy_elliptic_degenerate_scenario_1.py:50-72"]}
{"id": "C137", "title": "The field split preconditioner of the drivers", "statement": "The two index sets given to PETSc's additive field split contain every degree of freedom exactly once: first those of the stresses (and couple stresses), then those of the displacements and rotations. If the elements have no entries between the two groups, neither has the assembled matrix, and the field split with solvers of both blocks solves the system of that matrix; it is symmetric and positive if the solvers of the blocks are, as MINRES demands.", "quantifier": "For all numbers of degrees of freedom of three or four fields, all matrices and all solvers of the blocks", "why_tests_cant": "A run shows convergence of MINRES for some meshes; a dropped or repeated degree of freedom only changes the number of iterations.", "anchors": ["examples/cauchy_elasticity/mfe_elasticity_example_1.py:243-273", "examples/cosserat_elasticity/mfe_cosserat_elasticity_example_2.py:272-297"]}
{"id": "C138", "title": "The file names of the drivers", "statement": "The name of a file tells the method, the parameters of the material that it carries and the level, whatever the suffix; the vector and the residuals of a level go to different files. So after the approximations of any list of configurations that differ in what the name carries, the postprocessing of each configuration reads at each level the vector and the residuals computed for it.", "quantifier": "For all method names, parameters, orders, dimensions, levels, suffixes and lists of configurations", "why_tests_cant": "A run uses a few parameters; names that coincide for others silently replace results, and the postprocessing then reports errors of another problem.", "anchors": ["examples/cauchy_elasticity/mfe_elasticity_example_1.py:706-725", "examples/cauchy_elasticity/mfe_elasticity_example_1.py:557-580", "examples/cosserat_elasticity/mfe_cosserat_elasticity_example_1.py:32-82", "examples/cosserat_elasticity/mfe_cosserat_elasticity_example_2.py:22-38"]}
{"id": "C139", "title": "Errors and rates side by side", "statement": "The tables that the drivers of scalar elliptic problems save have, at every level and under every header, the number that the header names: the mesh size, the errors of the fields, the errors of the projections, and behind each error its rate from the level before (none at the first level).", "quantifier": "For all lists of levels (at least one) and all errors", "why_tests_cant": "A run shows plausible numbers in every column; whether a column is the one its header names is not visible in its values", "anchors": ["examples/md_degenerate_elliptic_scalar/md_degenerate_elliptic_scalar.py:712-767", "examples/md_elliptic_scalar/md_elliptic_scalar.py:514-570", "examples/degenerate_elliptic_scalar/degenerate_mixed_flow_model.py:268-368", "examples/degenerate_elliptic_scalar/degenerate_mixed_flow_model.py:499-568", "examples/degenerate_elliptic_scalar/darcy_elliptic_degenerate_scenario_2.py:572-640"]}
{"id": "C140", "title": "The spaces of the drivers", "statement": "Every driver builds its product space with a stable choice of fields: for mixed methods the flux (or stress) is conforming, its divergence has exactly the order of the potential (or displacement), which is discontinuous; both live on the same cells; only the flux has boundary cells, and these are the tags of the outer boundary; tensors have as many rows and rotations as the dimension asks for. The order of integration is enough for the product of any two fields.", "quantifier": "For all orders k, meshes and, for the layered example, all tags", "why_tests_cant": "A wrong order, a wrong tag or a missing component still gives a number of unknowns and errors that fall, only with other rates or on another part of the boundary", "anchors": ["examples/cauchy_elasticity/cg_elasticity_example_1.py:17-43", "examples/cauchy_elasticity/th_elasticity_example_1.py:18-49", "examples/cauchy_elasticity/th_elasticity_example_1.py:240-247", "examples/cauchy_elasticity/mfe_elasticity_example_1.py:19-65", "examples/cosserat_elasticity/mfe_cosserat_elasticity_example_1.py:85-145", "examples/cosserat_ecmor/mfe_cosserat_elasticity_example_3.py:30-80", "examples/degenerate_elliptic_scalar/degenerate_mixed_flow_model.py:27-69", "examples/degenerate_elliptic_scalar/darcy_elliptic_degenerate_scenario_2.py:36-141", "examples/geothermal_flow/three_fields_advection_diffusion.py:36-91", "examples/parabolic_diffusive_problem/mixed_transport_model.py:20-87", "examples/md_elliptic_scalar/md_elliptic_scalar.py:26-86"]}
{"id": "C141", "title": "The torsion test", "statement": "The torsion test holds one end of the cylinder, turns the other by thirteen degrees and leaves the side free, each face once; the moments that it writes are the moment of the tractions of the stress about the axis and the couple of the couple stress on the turned end, summed over its faces, one row for each length.", "quantifier": "For all lists of tags, all faces, coefficients and lengths", "why_tests_cant": "A moment of plausible size appears in the diagram, and nothing shows that it is made of other entries of the stress; the method with the wrong boundary forms is commented out", "anchors": ["examples/cosserat_elasticity/torsion_test/cosserat_torsion_test_primal_dual.py:32-66", "examples/cosserat_elasticity/torsion_test/cosserat_torsion_test_primal_dual.py:186-204", "examples/cosserat_elasticity/torsion_test/cosserat_torsion_test_primal_dual.py:312-344", "examples/cosserat_elasticity/torsion_test/cosserat_torsion_test_primal_dual.py:436-454", "examples/cosserat_elasticity/torsion_test/cosserat_torsion_test_primal_dual.py:486-606"]}
{"id": "C142", "title": "Data of the drivers", "statement": "Every weak form of the drivers finds each function that it reads among the functions that the driver sets, under its own name, and every function of a driver finds the material parameters that it reads in each case of the material data; calls of the exact functions fit their parameters; all parameters are positive, and a driver with several cases varies one parameter, one that its file names contain.", "quantifier": "For all drivers and forms, all functions set under the listed names, all cases of the material data", "why_tests_cant": "The drivers are scripts without tests; a renamed parameter only shows when the script is started, possibly after hours", "anchors": ["examples/cosserat_elasticity/mfe_cosserat_elasticity_example_2.py:22-42", "examples/cosserat_elasticity/mfe_cosserat_elasticity_example_2.py:129-138", "examples/cosserat_elasticity/mfe_cosserat_elasticity_example_2.py:729-761", "examples/cosserat_ecmor/mfe_cosserat_elasticity_example_3.py:132-158", "examples/md_cosserat_elasticity/md_primal_cosserat.py:289-302"]}
{"id": "C143", "title": "Nodal stress of the constrained elasticity drivers", "statement": "The stress tensor that the drivers with a stress constraint write in a mesh node is the volume-weighted mean, over the elements around the node, of Hooke's stress of the computed displacement, with Lam\u00e9 parameters that correspond to the given Young modulus and Poisson ratio; each boundary facet receives exactly one condition, the constraint goes to the cells in the given ball, and facets of wells and fault are found by their material.", "quantifier": "for all elements with fitting shapes, coefficient vectors, Lam\u00e9 parameters, nodes, materials of the boundary facets, centroids", "why_tests_cant": "a wrong stride, weight or factor in the recovery still gives a smooth, plausible stress field in the file; nothing in the repository compares it with anything", "anchors": ["examples/cauchy_elasticity_stress_constraint/cg_elasticity_example_1.py:301-375", "examples/cauchy_elasticity_stress_constraint/cg_elasticity_example_1.py:184-215", "examples/cauchy_elasticity_stress_constraint/cg_elasticity_example_1.py:392-400", "examples/cauchy_elasticity_stress_constraint/cg_elasticity_example_2.py:196-199"]}
{"id": "C144", "title": "Triangle of the expected rate in the error plots", "statement": "The triangle drawn beside a curve of errors has its right angle at the second corner, a horizontal leg as long as the last refinement step, and a third side whose slope in the logarithmic axes is the given rate; its third corner is the error which the rate predicts at the last size; labels are outside, beside the middle of their leg; inputs of a wrong kind are refused.", "quantifier": "for all tables with at least two pairs of positive size and error, whole rates, shifts, both orientations", "why_tests_cant": "the triangle is only drawn; a wrong sign or corner gives another plausible triangle and the reader of the figure compares the curves with a wrong slope", "anchors": ["examples/cauchy_elasticity/error_plots.py:18-96", "examples/cosserat_ecmor/error_plots.py:18-96", "examples/cosserat_elasticity/cosserat_error_plots.py:18-96"]}
{"id": "C145", "title": "Script that reproduces the scenarios", "statement": "The master script of the degenerate scenarios ends with code 0 exactly if every script that its flags ask for ends with 0 and leaves a folder with something in it, and with 1 otherwise; both computations are always started, pictures only after successful computations; the plotting scripts accept the arguments they are given, read the folders of the computations and ask for computed levels only; their folders are looked for in the working directory, the repository and beside the script, in this order.", "quantifier": "for all behaviours of the subprocesses and folders, all command lines, all programs found on the path", "why_tests_cant": "a run takes hours; which of the failures lead to code 1 and what is skipped then shows only when a scenario fails", "anchors": ["examples/degenerate_elliptic_scalar/darcy_elliptic_degenerate_reproduce_scenarios.py:123-240", "examples/degenerate_elliptic_scalar/darcy_elliptic_degenerate_reproduce_scenarios.py:247-309", "examples/degenerate_elliptic_scalar/plotting_for_darcy_darcy_scenario_1.py:399-416", "examples/degenerate_elliptic_scalar/plotting_for_darcy_darcy_scenario_1.py:523-586", "examples/degenerate_elliptic_scalar/plotting_for_darcy_darcy_scenario_2.py:616-664"]}
{"id": "C146", "title": "Plots of the degenerate scenarios", "statement": "The plotting scripts of the degenerate scenarios ask only for mesh files and tables that the drivers write; pictures of different materials, levels and fields have different names; each curve of a rate picture is the error that its label names; the triangle of the expected rate hangs on the lowest curve, has the rate as slope and the right angle in place.", "quantifier": "for all numbers at the levels, all choices of materials and levels, all sizes and errors, all texts of parameters that differ and have no underscore", "why_tests_cant": "a missing file is skipped silently and a permuted column is a plausible curve with a wrong label; nobody compares the pictures with the tables", "anchors": ["examples/degenerate_elliptic_scalar/plotting_for_darcy_darcy_scenario_1.py:285-396", "examples/degenerate_elliptic_scalar/plotting_for_darcy_darcy_scenario_1.py:419-520", "examples/degenerate_elliptic_scalar/plotting_for_darcy_darcy_scenario_2.py:533-613", "examples/degenerate_elliptic_scalar/darcy_elliptic_degenerate_scenario_1.py:342-475", "examples/degenerate_elliptic_scalar/darcy_elliptic_degenerate_scenario_2.py:490-640"]}
{"id": "C147", "title": "Error plots of the elasticity examples", "statement": "Every curve of the error plots is read from the table of errors of its own method and parameter, whatever the order of the directory; it shows the column of the mesh size against the sum of the columns that the figure is about; labels, colours and line styles exist and tell methods and parameters apart; the triangle hangs on a curve of the figure.", "quantifier": "for all directories with the files of the drivers in any order and any further files that are not tables of errors, all numbers in the tables, all figures of the three scripts", "why_tests_cant": "the file is found by a piece of its name and the columns by position: a wrong match or a shifted column gives a plausible convergence curve", "anchors": ["examples/cauchy_elasticity/error_plots.py:155-543", "examples/cosserat_ecmor/error_plots.py:155-713", "examples/cosserat_elasticity/cosserat_error_plots.py:125-792"]}
{"id": "C148", "title": "Assignment of shapes", "statement": "After a.shape_assignment(b) the object a equals b: it has the class, tag, physical tag, boundary, immersed shapes and orientation of b, whatever it was before; shapes of another class are refused with ValueError.", "quantifier": "for all shapes of all classes, with boundaries and immersed shapes of any size and nesting", "why_tests_cant": "the assignment goes through setters that sort and through a getter that flattens; an attribute that is not copied stays unnoticed until a later method reads it", "anchors": ["src/topology/shape.py:182-196", "src/topology/vertex.py:29-31", "src/topology/wire.py:20-57"]}
{"id": "C149", "title": "The repository's tests of shapes", "statement": "Every assertion of tests/test_topology/test_shapes.py is true and no exception is raised.", "quantifier": "for the shapes of the eight tests", "why_tests_cant": "the tests are executed by their authors; here they check the formal model of shapes against what the authors saw", "anchors": ["tests/test_topology/test_shapes.py:14-408", "src/topology/shape.py:120-180"]}
{"id": "C150", "title": "Order of points along a segment", "statement": "points_line_argsort puts points of the segment from a to b in their order from a to b, with ba_sorting from b to a, and the two orders are the reverse of each other for different points; it works for any number of points.", "quantifier": "for all segments with different ends, all lists of points of the line, all orders that argsort may return for equal distances", "why_tests_cant": "the order decides how edges and meshes are cut; tests use five points on one diagonal", "anchors": ["src/geometry/operations/point_geometry_operations.py:85-93", "tests/test_geometry/operations/test_point_geometry_operations.py:17-136"]}
{"id": "C151", "title": "File names of the mixed-dimensional drivers", "statement": "compose_case_name gives each co-dimension one name at its index, names of different parameters differ, and no file (table, plot, picture of a mesh) is written twice by one run or by two runs of a driver; the name tells everything that changes the result.", "quantifier": "for all texts of numbers that are injective and without underscore, all materials, folders, mesh sizes and both co-dimensions; all runs of the two drivers", "why_tests_cant": "a table that is silently overwritten by another run is seen only by comparing the files of long runs; the drivers have no tests", "anchors": ["examples/md_degenerate_elliptic_scalar/md_degenerate_elliptic_scalar.py:608-677", "examples/md_degenerate_elliptic_scalar/md_degenerate_elliptic_scalar.py:784-879", "examples/md_elliptic_scalar/md_elliptic_scalar.py:436-480"]}
{"id": "C152", "title": "Cut of a graph of subdomains", "statement": "Removing the nodes common with a fracture from the graph of subdomains and adding a coupling leaves every edge away from the fracture, replaces the edges at the fracture by the coupling, gives the graph back when the coupling has the removed edges, makes no cycles, and keeps every subdomain reachable.", "quantifier": "for all graphs (directed or not), fractures and couplings, and for the two graphs of the script", "why_tests_cant": "the script computes `equal` and `cycles` but neither prints nor asserts them", "anchors": ["examples/domains/graph_operations.py:17-87"]}
{"id": "C153", "title": "Geometry does not depend on the frame", "statement": "Incidence tests and the intersections of points with segments, triangles and convex polygons and of segments with segments and triangles give, for rotated, reflected and shifted input, the rotated, reflected and shifted result.", "quantifier": "for all motions of space, all points, segments, triangles, convex polygons and lists of segments, all least squares solvers", "why_tests_cant": "the tests move their data by one rotation and one shift near the origin", "anchors": ["src/geometry/operations/point_geometry_operations.py:9-161", "src/geometry/operations/line_geometry_operations.py:15-66", "src/geometry/operations/line_geometry_operations.py:138-229", "src/geometry/operations/point_geometry_operations.py:198-216", "src/geometry/operations/polygon_geometry_operations.py:103-125", "tests/test_geometry/operations/test_line_geometry_operations_intersection.py:32-156"]}
{"id": "C154", "title": "Assembly of the mixed-dimensional Cosserat problem", "statement": "The driver evaluates every element form once, the boundary forms on the boundary elements that are no clones, and for every fracture cell the contact form with the elements of its positive and negative side; it looks up only names of fields that exist, and returns the errors.", "quantifier": "for all meshes, names of the two fields, interfaces of cuts, and outcomes of the weak forms", "why_tests_cant": "no test runs the example drivers", "anchors": ["examples/md_cosserat_elasticity/md_primal_cosserat.py:38-83", "examples/md_cosserat_elasticity/md_primal_cosserat.py:230-234", "examples/md_cosserat_elasticity/md_primal_cosserat.py:304-395", "examples/md_cosserat_elasticity/md_primal_cosserat.py:434"]}
{"id": "C155", "title": "Polygons in other frames", "statement": "The normal of a polygon turns with it (reversed by reflections), whether it is convex does not depend on the frame, and the winding number of a point does not change under rotations, shifts and scalings of the plane; the polygons of the tests have the normals and the convexity that the tests assert, in every frame.", "quantifier": "for all motions of space, polygons and tolerances; for winding numbers all points off the edges", "why_tests_cant": "the tests use one rotation and one shift, and compare with rounded decimals", "anchors": ["src/geometry/operations/polygon_geometry_operations.py:6-100", "tests/test_geometry/operations/test_polygon_geometry_operations.py:14-143"]}
{"id": "C156", "title": "The tests of vertices and edges pass", "statement": "Every assertion of the tests of vertex and edge operations holds with the tolerances of globals.py, and holds for the reason that the test states.", "quantifier": "for all solutions of the least squares problem", "why_tests_cant": "The tests are the code here; that a test passes only because of a defect in the function it tests is seen by no test.", "anchors": ["tests/test_topology/test_vertex_shapes_intersection.py:10-82", "tests/test_topology/test_edge_shapes_intersection.py:11-86", "src/topology/operations/edge_operations.py:72-90"]}
{"id": "C157", "title": "Betti numbers and rebuilt graphs in the tests of domains", "statement": "The Betti numbers that the tests compute are the number of components and of independent cycles of the graph of a domain, and the rebuilt graph equals that of the difference exactly if the difference keeps the edges of the union away from the tool.", "quantifier": "for all graphs of domains whose shapes have boundary and immersed shapes of lower dimension", "why_tests_cant": "the two assertions that would show it are commented out", "anchors": ["tests/test_topology/test_domain_operations.py:157-179", "tests/test_topology/test_domain_operations.py:333-341", "tests/test_topology/test_domain_operations.py:374-376", "src/topology/domain.py:88-123"]}
{"id": "C158", "title": "Files of the degenerate flow driver and of its plots", "statement": "Every file that the plots of the Arbogast problem read is one that the driver of the degenerate flow model writes, the script draws the cases that its filters name, and no file is written twice.", "quantifier": "for all cases of the driver, all filters, and all ways to print a float", "why_tests_cant": "the scripts are run by hand and a plot of nothing raises no error", "anchors": ["examples/degenerate_elliptic_scalar/plotting_for_Arbogast_problem.py:92-256", "examples/degenerate_elliptic_scalar/degenerate_mixed_flow_model.py:417-467", "examples/degenerate_elliptic_scalar/degenerate_mixed_flow_model.py:470-566"]}
{"id": "C159", "title": "Tests of the domains without lines", "statement": "The tests of the line, of the line with embedded vertices and of the square in the tests of geometry pass: each vertex has the edges that end there as predecessors, each edge of the square the wire, and the face has the wire as successor.", "quantifier": "for all points of the line, and all ways to sort", "why_tests_cant": "the test passes a vertex for the face, and passes because the tags agree", "anchors": ["tests/test_geometry/test_geometry.py:37-130", "src/topology/shape_manipulation.py:148-194", "src/topology/domain_market.py:38-91", "src/topology/domain.py:88-123"]}
{"id": "C160", "title": "Tests of the projectors", "statement": "The tests of the L2 projectors fail when the projector is wrong: each of their spaces has unknowns, and the error they compare with zero is that of the projected function, in elements of the order of the function.", "quantifier": "for all meshes, elements, projectors and functions", "why_tests_cant": "the lists of physical tags are empty, so that no cell is selected, and the tests pass for any projector", "anchors": ["tests/test_projectors/test_projectors.py:87-216", "src/mesh/mesh.py:668-681", "src/spaces/discrete_space.py:57-161", "src/postprocess/l2_error_post_processor.py:7-64"]}
{"id": "C161", "title": "Fracture networks of the tests of meshing", "statement": "The tests of meshing divide each of their fractures at the points it has in common with the others: the networks have the ends and the common points, each once, and the tags of crossings, of fractures and of the sides of cut fractures differ.", "quantifier": "for the five sets of fractures and all ways to sort", "why_tests_cant": "Two of the fractures are parallel and four meet in one point, which the tests see only through gmsh; they follow the skin of the first fracture and read no tags of crossings.", "anchors": ["tests/test_meshing/test_meshing.py:8-45", "tests/test_meshing/test_meshing_1d.py:8-45", "src/geometry/fracture_network.py:200-292", "src/mesh/mesh.py:1042-1137"]}
{"id": "C162", "title": "Example of a fractured line", "statement": "The example of a fractured line meshes three edges that meet pairwise: it makes one vertex with a new tag at each common point of two edges, and reaches its mesh.", "quantifier": "for all least squares solvers, all ways to drop repeated points, and all ways to make the domain", "why_tests_cant": "No test runs the examples; the script stops before its mesh, and the points of the edges are not compared.", "anchors": ["examples/domains/conformal_md_domain_1d.py:13-73", "src/geometry/operations/line_geometry_operations.py:69-105", "src/mesh/discrete_domain.py:323-335"]}
{"id": "C163", "title": "Example that draws a box", "statement": "The example draws the six faces of the unit box as closed loops of four vertices in order, so that every edge of the box is drawn twice; a loop of a wire is closed if it has more than two vertices.", "quantifier": "for the box of the example, and for the strokes of all sequences", "why_tests_cant": "No test draws; the plot does not tell edges drawn once from those drawn twice.", "anchors": ["examples/domains/shapes_plotter.py:6-22", "src/topology/graphical_shape.py:6-29", "src/topology/wire.py:59-73", "src/topology/domain_market.py:94-169"]}
{"id": "C164", "title": "Files and fields of the drawn figures", "statement": "The scripts that draw the fields of the third example of micropolar elasticity and of the problem of Oden read files that the drivers write and fields that these files have; the file is the one of the method, order and dimension that the figure names, whatever the order of the directory. The length scale of figure 6 is the length scale of the example on the side z = 0, and the labels give its values.", "quantifier": "for all orders of the directory and all further files that do not match; the length scale for all real coordinates", "why_tests_cant": "No test runs the scripts; a file left from an earlier version of the driver hides a name that is no longer written.", "anchors": ["examples/cosserat_elasticity/graphical_example_3_couple_stress.py:11-99", "examples/cosserat_elasticity/graphical_example_3_epsilon.py:8-93", "examples/cosserat_elasticity/graphical_example_3.py:7-176", "examples/cosserat_elasticity/graphical_example_3_epsilon_jan.py:8-34", "examples/cosserat_elasticity/mfe_cosserat_elasticity_example_3.py:348-359", "examples/oden_problem/figure_constructor.py:13-184", "examples/oden_problem/oden_rates_primal_dual_ad.py:476-487", "src/mesh/mesh.py:427-637"]}
