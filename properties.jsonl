{"id": "C01", "title": "Block partitioning delivers exactly the requested number of blocks", "statement": "For a regular mesh in 1, 2 or 3 dimensions with at least one cell in every direction and any request 1 <= n <= total cells, block_partition_regular_mesh terminates and returns exactly n start indices and n block sizes.", "quantifier": "all dimensions 1..3, all cell counts per direction, all requested block counts between 1 and the number of cells", "why_tests_cant": "termination and the count must hold for unboundedly many grid shapes; the uneven-splitting loop has no static bound and odd/even factorizations behave differently for every size", "anchors": ["src/mesh/block_partition.cc:block_partition_regular_mesh"]}
{"id": "C02", "title": "Block partitioning tiles the grid", "statement": "The blocks returned by block_partition_regular_mesh cover every cell of the grid exactly once, no block sticks out of the grid, and every block contains at least one cell.", "quantifier": "all dimensions, grid shapes, requested block counts and cells", "why_tests_cant": "disjointness and coverage is a statement about every cell of every grid and every request; testing can only enumerate a few shapes", "anchors": ["src/mesh/block_partition.cc:block_partition_regular_mesh"]}
{"id": "C03", "title": "Block partitioning honours or rejects non-positive requests", "statement": "block_partition_regular_mesh either terminates with exactly the number of blocks requested or refuses the request, also when zero blocks are requested.", "quantifier": "all grids and all requests not exceeding the number of cells, including 0", "why_tests_cant": "non-termination cannot be observed by a test, only waited for", "anchors": ["src/mesh/block_partition.cc:block_partition_regular_mesh"]}
{"id": "C04", "title": "Structured 3D mesh: entity numbering is a bijection", "statement": "In a generated nx*ny*nz mesh the entity ids of nodes, faces and cells are exactly 0..num-1 with the advertised num, and different lattice positions (and different face orientations) never share an id.", "quantifier": "all positive nx, ny, nz and all lattice positions", "why_tests_cant": "index collisions depend on the mixed-radix arithmetic for every combination of nx, ny, nz", "anchors": ["src/mesh/mesh_simple/Mesh_simple.hh:node_index_", "src/mesh/mesh_simple/Mesh_simple.hh:xyface_index_", "src/mesh/mesh_simple/Mesh_simple.hh:xzface_index_", "src/mesh/mesh_simple/Mesh_simple.hh:yzface_index_", "src/mesh/mesh_simple/Mesh_simple.cc:update_internals_3d_"]}
{"id": "C05", "title": "Structured 3D mesh: cell nodes", "statement": "cell_get_nodes returns, for every cell, the eight distinct lattice corners of that cell in Exodus II hexahedron order, all valid node ids.", "quantifier": "all mesh sizes and all cells", "why_tests_cant": "must hold for every cell of every size; the tables are filled by nested loops over raw offset arithmetic", "anchors": ["src/mesh/mesh_simple/Mesh_simple.cc:update_internals_3d_", "src/mesh/mesh_simple/Mesh_simple.cc:cell_get_nodes"]}
{"id": "C06", "title": "Structured 3D mesh: node-to-cell adjacency is the exact inverse of cell-to-node", "statement": "node_get_cells(n) lists a cell c if and only if cell_get_nodes(c) lists n, without repetition and without overrunning the fixed per-node storage.", "quantifier": "all mesh sizes, all nodes and cells", "why_tests_cant": "the upward adjacency is accumulated by interleaved appends into a flat array of fixed-size slots; correctness depends on every interleaving of writes", "anchors": ["src/mesh/mesh_simple/Mesh_simple.cc:update_internals_3d_", "src/mesh/mesh_simple/Mesh_simple.cc:node_get_cells"]}
{"id": "C07", "title": "Structured 3D mesh: face-to-cell adjacency is the exact inverse of cell-to-face", "statement": "face_get_cells(f) lists c if and only if cell_get_faces(c) lists f; every face has one or two cells, one exactly when it is on the boundary of the domain.", "quantifier": "all mesh sizes, all faces and cells", "why_tests_cant": "must hold for all sizes including degenerate one-layer meshes", "anchors": ["src/mesh/mesh_simple/Mesh_simple.cc:update_internals_3d_", "src/mesh/mesh_simple/Mesh_simple.cc:face_get_cells_internal_", "src/mesh/mesh_simple/Mesh_simple.cc:cell_get_faces_and_dirs_internal_"]}
{"id": "C08", "title": "Structured 3D mesh: two cells see their common face with opposite directions", "statement": "If two different cells share a face then cell_get_faces_and_dirs reports the face with direction +1 for one and -1 for the other.", "quantifier": "all mesh sizes, all pairs of cells and shared faces", "why_tests_cant": "a single wrong sign for one orientation only shows up on particular neighbours", "anchors": ["src/mesh/mesh_simple/Mesh_simple.cc:cell_get_faces_and_dirs_internal_", "src/mesh/mesh_simple/Mesh_simple.cc:update_internals_3d_"]}
{"id": "C09", "title": "Structured 3D mesh: face nodes", "statement": "face_get_nodes returns the four distinct corners of the face; for each cell using the face they are exactly the corners shared by the cell and the face, and the right-hand-rule normal of the listed order, multiplied by the direction reported for the cell, points out of the cell.", "quantifier": "all mesh sizes, cells, local faces, and all positive spacings", "why_tests_cant": "orientation must be consistent over the whole unbounded family of meshes", "anchors": ["src/mesh/mesh_simple/Mesh_simple.cc:face_get_nodes", "src/mesh/mesh_simple/Mesh_simple.cc:update_internals_3d_"]}
{"id": "C10", "title": "Structured 3D mesh: node-to-face adjacency is the exact inverse of face-to-node", "statement": "node_get_faces(n) lists f if and only if face_get_nodes(f) lists n.", "quantifier": "all mesh sizes, nodes and faces", "why_tests_cant": "upward adjacency accumulated in a flat array in three separate loops; every node of every size must agree", "anchors": ["src/mesh/mesh_simple/Mesh_simple.cc:update_internals_3d_", "src/mesh/mesh_simple/Mesh_simple.cc:node_get_faces"]}
{"id": "C11", "title": "Structured 3D mesh: face-adjacent cells", "statement": "cell_get_face_adj_cells(c) lists exactly the cells different from c that share a face with c, each once; the relation is symmetric.", "quantifier": "all mesh sizes and cells", "why_tests_cant": "relational property over all pairs of cells", "anchors": ["src/mesh/mesh_simple/Mesh_simple.cc:cell_get_face_adj_cells"]}
{"id": "C12", "title": "Structured 3D mesh: node-adjacent cells", "statement": "cell_get_node_adj_cells(c) lists exactly the cells different from c that share at least one node with c, each once; the relation is symmetric.", "quantifier": "all mesh sizes and cells", "why_tests_cant": "relational property over all pairs of cells; deduplication must be right for every neighbourhood shape", "anchors": ["src/mesh/mesh_simple/Mesh_simple.cc:cell_get_node_adj_cells"]}
{"id": "C13", "title": "Structured mesh: node coordinates", "statement": "Node (i,j,k) is created at (x0+i*hx, y0+j*hy, z0+k*hz); after any sequence of node_set_coordinates calls node_get_coordinates returns the last value set for that node, and calls on other nodes never disturb it.", "quantifier": "all mesh sizes, all nodes, all histories of coordinate updates", "why_tests_cant": "history property: any interleaving of updates on any nodes", "anchors": ["src/mesh/mesh_simple/Mesh_simple.cc:node_set_coordinates", "src/mesh/mesh_simple/Mesh_simple.cc:node_get_coordinates", "src/mesh/mesh_simple/Mesh_simple.cc:update_internals_3d_"]}
{"id": "C14", "title": "Structured 1D mesh connectivity", "statement": "In a 1D mesh on n>=2 points, cell i has nodes i and i+1 and faces i and i+1 with directions -1 and +1; node_get_cells, face_get_cells and node_get_faces are the exact inverses of the downward adjacencies.", "quantifier": "all numbers of points", "why_tests_cant": "unbounded family of meshes", "anchors": ["src/mesh/mesh_simple/Mesh_simple.cc:update_internals_1d_", "src/mesh/mesh_simple/Mesh_simple.cc:node_get_cells", "src/mesh/mesh_simple/Mesh_simple.cc:face_get_cells_internal_"]}
{"id": "C15", "title": "Index-space partitioning is a partition", "statement": "get_partitioning with the INDEX partitioner into p>=1 parts yields exactly p lists; every owned cell is in exactly one list and every list is a contiguous ascending run; no list exceeds ceil(ncells/p + 1/2) cells.", "quantifier": "all cell counts and all part counts", "why_tests_cant": "rounding of the chunk size must never lose or duplicate a cell for any (ncells, p)", "anchors": ["src/mesh/Mesh.cc:get_partitioning_by_index_space"]}
{"id": "C16", "title": "Index-space partitioning leaves no part empty when there are enough cells", "statement": "If there are at least as many cells as parts then every part produced by the INDEX partitioner is non-empty.", "quantifier": "all cell counts and part counts with ncells >= p >= 1", "why_tests_cant": "depends on the rounding for every pair of sizes", "anchors": ["src/mesh/Mesh.cc:get_partitioning_by_index_space"]}
{"id": "C17", "title": "Graph partitioner output is turned into a partition", "statement": "Whatever valid part numbers the graph partitioner assigns, the lists returned to the caller contain each cell exactly once, in the list of its part, in ascending order.", "quantifier": "all cell counts and all assignments of part numbers in range", "why_tests_cant": "ranges over all assignments", "anchors": ["src/mesh/Mesh.cc:get_partitioning_with_metis"]}
{"id": "C18", "title": "Mesh set construction", "statement": "A mesh set made from given owned and ghost entity lists reports exactly these lists for OWNED and GHOST, their concatenation for ALL, and when built with a reverse map index_in_set(e) is the position of e in the ALL list or -1 when e is not a member.", "quantifier": "all meshes sizes, all duplicate-free entity lists", "why_tests_cant": "positions must agree for every entity of every set", "anchors": ["src/mesh/MeshSet.cc:MeshSet", "src/mesh/MeshSet.hh:index_in_set", "src/mesh/MeshSet.hh:entities"]}
{"id": "C19", "title": "Union of mesh sets", "statement": "merge of mesh sets of one kind contains an owned (ghost) entity if and only if at least one input set does, each once.", "quantifier": "all lists of mesh sets", "why_tests_cant": "set semantics over all inputs and any number of operands", "anchors": ["src/mesh/MeshSet.cc:merge"]}
{"id": "C20", "title": "Subtraction of mesh sets", "statement": "subtract(A, Bs) contains exactly the owned (ghost) entities of A that are in none of the Bs.", "quantifier": "all mesh sets and all non-empty lists of subtracted sets", "why_tests_cant": "set semantics over all inputs", "anchors": ["src/mesh/MeshSet.cc:subtract"]}
{"id": "C21", "title": "Intersection of mesh sets", "statement": "intersect contains exactly the owned (ghost) entities that are in every input set.", "quantifier": "all non-empty lists of mesh sets", "why_tests_cant": "set semantics over all inputs", "anchors": ["src/mesh/MeshSet.cc:intersect"]}
{"id": "C22", "title": "Complement of mesh sets", "statement": "complement contains exactly the owned and ghost entities of the mesh, of the given kind, that are in none of the input sets.", "quantifier": "all meshes (any number of owned and ghost entities) and all lists of mesh sets", "why_tests_cant": "serial tests have no ghosts; must hold for every owned/ghost split", "anchors": ["src/mesh/MeshSet.cc:complement"]}
{"id": "C23", "title": "Adding entities to a mesh set", "statement": "After any history of adding single entities or lists of entities, the set contains exactly the entities added, OWNED before GHOST in the ALL list, with each entity at the position index_in_set reports.", "quantifier": "all histories of add operations", "why_tests_cant": "history property over all sequences of additions of owned and ghost entities", "anchors": ["src/mesh/MeshSet.cc:add_entity", "src/mesh/MeshSet.cc:add_entities"]}
{"id": "C24", "title": "Removing entities from a mesh set", "statement": "Removing an entity (or list of entities) removes exactly these entities from OWNED/GHOST/ALL, leaves all others, and keeps index_in_set consistent.", "quantifier": "all sets and all lists to remove", "why_tests_cant": "the swap-with-last compaction must be right for every position and every combination of removed entities", "anchors": ["src/mesh/MeshSet.cc:rem_entity", "src/mesh/MeshSet.cc:rem_entities"]}
{"id": "C25", "title": "Tiles own disjoint entities that cover the mesh", "statement": "When tiles are built from a partition of the owned cells, every cell, and every node, face or edge touched by some tile's owned cell, is owned by exactly one tile, and the master tile reported for it is that tile.", "quantifier": "all meshes, all partitions into tiles, all entities", "why_tests_cant": "first-come ownership across tiles depends on the order and the connectivity of the whole mesh", "anchors": ["src/mesh/MeshTile.cc:MeshTile", "src/mesh/Mesh.cc:build_tiles", "src/mesh/Mesh.hh:master_tile_ID_of_cell"]}
{"id": "C26", "title": "Tile halo layers", "statement": "With L halo layers, the ghost cells of a tile are exactly the mesh cells within L node-adjacency steps of its owned cells that it does not own, each listed once.", "quantifier": "all meshes, all tiles, all numbers of halo layers", "why_tests_cant": "graph-distance property for unbounded meshes and depths", "anchors": ["src/mesh/MeshTile.cc:MeshTile"]}
{"id": "C27", "title": "Tile entity lists are consistent", "statement": "For every entity kind the ALL list of a tile is OWNED followed by GHOST, without repetition, and contains every node/face/edge of every owned or ghost cell of the tile.", "quantifier": "all meshes, tiles and halo depths", "why_tests_cant": "closure property over all incidence structures", "anchors": ["src/mesh/MeshTile.cc:MeshTile"]}
{"id": "C28", "title": "Tiles provide sides when sides are requested", "statement": "A tile of a mesh on which sides were requested lists the sides of its owned cells as owned sides and the sides of its ghost cells as ghost sides.", "quantifier": "all meshes and all combinations of requested entity kinds", "why_tests_cant": "combinations of flags times arbitrary meshes", "anchors": ["src/mesh/MeshTile.cc:MeshTile"]}
{"id": "C29", "title": "Side numbering", "statement": "Each side belongs to exactly one (cell, face, edge) incidence and each incidence has exactly one side; cell_get_sides(c) lists exactly the sides whose side_get_cell is c.", "quantifier": "all meshes (any incidence lists)", "why_tests_cant": "must hold for arbitrary polyhedral incidence structures", "anchors": ["src/mesh/Mesh.cc:cache_side_info", "src/mesh/Mesh.hh:side_get_cell"]}
{"id": "C30", "title": "Opposite sides", "statement": "side_get_opposite_side is an involution without fixed points between two different cells: if it returns t for s then it returns s for t, and s and t have the same face and edge; it returns -1 only if no other cell has a side on this face and edge.", "quantifier": "all meshes in which a face has at most two cells", "why_tests_cant": "global symmetric relation computed by incremental matching", "anchors": ["src/mesh/Mesh.cc:cache_side_info", "src/mesh/Mesh.hh:side_get_opposite_side"]}
{"id": "C31", "title": "Wedges", "statement": "Every wedge belongs to exactly one side and every side has exactly two wedges, one for each node of the side; the adjacent wedge is the other wedge of the side; the opposite wedge lies in the opposite side and has the same node; both maps are involutions.", "quantifier": "all meshes and wedges", "why_tests_cant": "parity arithmetic must be consistent with edge orientation on both cells for every mesh", "anchors": ["src/mesh/Mesh.cc:cache_wedge_info", "src/mesh/Mesh.hh:wedge_get_opposite_wedge", "src/mesh/Mesh.hh:wedge_get_adjacent_wedge", "src/mesh/Mesh.hh:wedge_get_node"]}
{"id": "C32", "title": "Corners", "statement": "There is exactly one corner for every (cell, node of the cell); the wedges of a corner are exactly the wedges of the cell at that node; every wedge is in exactly one corner; cell_get_corner_at_node finds it and returns -1 only if the node is not a node of the cell.", "quantifier": "all meshes, cells and nodes", "why_tests_cant": "must hold for arbitrary incidence structures", "anchors": ["src/mesh/Mesh.cc:cache_corner_info", "src/mesh/Mesh.cc:cell_get_corner_at_node", "src/mesh/Mesh.hh:corner_get_wedges"]}
{"id": "C33", "title": "Requested entity kinds are closed under dependency", "statement": "Whatever combination of faces/edges/sides/wedges/corners is requested when constructing a mesh, corners imply wedges, wedges imply sides, sides imply faces and edges, and nothing not implied by the request is switched on.", "quantifier": "all combinations of flags", "why_tests_cant": "small finite table but the closure must hold on every row", "anchors": ["src/mesh/Mesh.hh:Mesh"]}
{"id": "C34", "title": "Side and wedge data follow node movement", "statement": "After nodes are moved and update_geometric_quantities is called, side/wedge facet normals reported are those of the new coordinates.", "quantifier": "all meshes and all histories of moves and updates", "why_tests_cant": "history property; a first update never reveals stale caches", "anchors": ["src/mesh/Mesh.cc:compute_side_geometric_quantities", "src/mesh/Mesh.cc:update_geometric_quantities"]}
{"id": "C35", "title": "Mesh set lookup", "statement": "find_meshset(name, kind) returns a registered set with that name and kind whenever there is one and nothing otherwise; num_sets(kind) and sets(kind) agree and list exactly the registered sets of the kind.", "quantifier": "all histories of set creation", "why_tests_cant": "history property", "anchors": ["src/mesh/Mesh.cc:find_meshset", "src/mesh/Mesh.cc:num_sets", "src/mesh/Mesh.cc:sets"]}
{"id": "C36", "title": "Logical regions produce the logical combination of their component sets", "statement": "The set built for a COMPLEMENT/UNION/INTERSECT/SUBTRACT region carries the region's name and contains the corresponding logical combination of the component sets, and building it leaves the component sets unchanged.", "quantifier": "all meshes, all logical regions over any number of components", "why_tests_cant": "aliasing effects on component sets depend on the number and order of components", "anchors": ["src/mesh/Mesh.cc:build_set_from_region", "src/mesh/MeshSet.cc:merge"]}
{"id": "C37", "title": "Entity type queries agree with entity lists", "statement": "entity_get_type(kind, e) is OWNED/GHOST if and only if e is in the corresponding id list, and num_entities(kind, type) is the length of this list for every kind and type.", "quantifier": "all meshes and entities", "why_tests_cant": "agreement of two independent representations for every entity", "anchors": ["src/mesh/Mesh.cc:entity_get_type", "src/mesh/Mesh.hh:num_entities", "src/mesh/Mesh.cc:cache_type_info"]}
{"id": "C38", "title": "State manager: look-up after add", "statement": "After any history of State::add calls, find(name, domain, kind, type) returns the vector first added under a matching name/domain/kind/type, and nothing if none was added; adding a vector under an existing identity leaves the existing vector unchanged.", "quantifier": "all histories of add calls", "why_tests_cant": "history property with wildcard matching", "anchors": ["src/statemanager/JaliState.h:State::add", "src/statemanager/JaliState.h:State::find"]}
{"id": "C39", "title": "State manager: iterating by entity kind", "statement": "Iterating over the state vectors of one entity kind visits exactly the vectors registered on this kind, each once, in order of registration.", "quantifier": "all histories of add calls of every overload", "why_tests_cant": "history property; off-by-one only visible for particular mixes of kinds", "anchors": ["src/statemanager/JaliState.h:entity_begin", "src/statemanager/JaliState.h:State::add"]}
{"id": "C40", "title": "State manager: names", "statement": "The list of names is parallel to the list of state vectors after any history of additions.", "quantifier": "all histories", "why_tests_cant": "history property", "anchors": ["src/statemanager/JaliState.h:names", "src/statemanager/JaliState.h:State::add"]}
{"id": "C41", "title": "State manager: adding materials", "statement": "After any history of add_material and add_cells_to_material calls, cell_materials(c) lists exactly the materials m with c in material_cells(m), in order of addition, and material_index_by_name inverts material_name.", "quantifier": "all histories of material additions", "why_tests_cant": "two mutually inverse relations maintained incrementally", "anchors": ["src/statemanager/JaliState.cc:add_material", "src/statemanager/JaliState.cc:add_cells_to_material", "src/statemanager/JaliState.h:cell_materials", "src/statemanager/JaliState.h:material_cells"]}
{"id": "C42", "title": "State manager: removing a material", "statement": "rem_material(m) removes exactly material m: other materials keep their cells (indices above m shift down by one), and cell_materials remains the inverse of material_cells.", "quantifier": "all states and material indices", "why_tests_cant": "index shift must be applied consistently in every table for all states", "anchors": ["src/statemanager/JaliState.cc:rem_material"]}
{"id": "C43", "title": "Multi-material state vectors: layout round trip", "statement": "Assigning a full (cell-by-material or material-by-cell) 2D array to a multi-material vector and reading element (cell, material) back in either layout returns the value given for cells containing the material; reading other elements returns zero, writing them is refused.", "quantifier": "all material layouts and arrays", "why_tests_cant": "compact storage addressed through the set's reverse map for all cell/material combinations", "anchors": ["src/statemanager/JaliStateVector.h:MultiStateVector", "src/statemanager/JaliStateVector.h:operator()"]}
{"id": "C44", "title": "State vectors: copying is deep, assignment and get are shallow", "statement": "A copy-constructed state vector is independent of the original (writes to one are invisible in the other); an assigned vector, or one obtained with State::get, shares its data.", "quantifier": "all vectors, all subsequent write histories", "why_tests_cant": "aliasing over all histories of writes", "anchors": ["src/statemanager/JaliStateVector.h:UniStateVector", "src/statemanager/JaliState.h:State::get"]}
{"id": "C45", "title": "Mesh factory options: included entities", "statement": "After any history of include/exclude/reset calls, included_entities lists NODE, FACE and CELL, and lists EDGE/SIDE/WEDGE/CORNER exactly if the last relevant call included it.", "quantifier": "all histories of option calls", "why_tests_cant": "history property", "anchors": ["src/mesh/mesh_factory/MeshFactory.hh:included_entities", "src/mesh/mesh_factory/MeshFactory.hh:excluded_entities", "src/mesh/mesh_factory/MeshFactory.cc:reset_options"]}
{"id": "C46", "title": "Mesh factory: reset_options restores the defaults", "statement": "After any history of option changes, reset_options makes the factory behave like a newly constructed one.", "quantifier": "all histories", "why_tests_cant": "one forgotten field is only visible after a particular earlier call", "anchors": ["src/mesh/mesh_factory/MeshFactory.cc:reset_options"]}
{"id": "C47", "title": "Mesh factory: 1D mesh by number of cells", "statement": "factory(x0, x1, nx) creates a 1D mesh with nx cells whose end nodes are x0 and x1.", "quantifier": "all x0 < x1 and nx >= 1", "why_tests_cant": "must hold for all sizes", "anchors": ["src/mesh/mesh_factory/MeshFactory.hh:operator()", "src/mesh/mesh_factory/MeshFactory.cc:create"]}
{"id": "C48", "title": "Mesh factory: creation either yields a mesh or raises an error", "statement": "Every create call with valid options returns a mesh or raises an error, on all ranks alike; it never returns a null mesh; non-positive cell counts or extents are always rejected.", "quantifier": "all inputs, frameworks, build configurations and numbers of ranks with arbitrary per-rank outcomes", "why_tests_cant": "all combinations of per-rank failures", "anchors": ["src/mesh/mesh_factory/MeshFactory.cc:create"]}
{"id": "C49", "title": "Box region membership", "statement": "BoxRegion::inside(p) is true exactly when every coordinate of p is within the tolerance of the closed interval between the corresponding coordinates of the two corners, whatever the order of the corners; points of another dimension are rejected.", "quantifier": "all boxes and points of any dimension", "why_tests_cant": "real-valued inputs and all corner orderings", "anchors": ["src/geometry/BoxRegion.cc:BoxRegion::inside", "src/geometry/BoxRegion.cc:BoxRegion::between_"]}
{"id": "C50", "title": "Polygon region membership does not depend on orientation", "statement": "A polygon region given by the same corners in clockwise or counter-clockwise order contains the same points.", "quantifier": "all polygons and points", "why_tests_cant": "all shapes, orientations and positions", "anchors": ["src/geometry/PolygonRegion.cc:PolygonRegion::init", "src/geometry/PolygonRegion.cc:PolygonRegion::inside"]}
{"id": "C51", "title": "Point in polyhedron", "statement": "point_in_polyhed answers true only if the test point is on the inner side of (forms a non-negative volume with) every triangular facet of every face.", "quantifier": "all polyhedra and points", "why_tests_cant": "all mixes of triangular and polygonal faces in any order", "anchors": ["src/geometry/Geometry.cc:point_in_polyhed"]}
{"id": "C52", "title": "Point in polygon", "statement": "point_in_polygon decides parity of crossings: the answer is independent of the starting vertex and of the orientation of the polygon, and points above, below or to the right of all vertices are outside.", "quantifier": "all polygons and points", "why_tests_cant": "all polygons", "anchors": ["src/geometry/Geometry.cc:point_in_polygon"]}
{"id": "C53", "title": "Polygon normal and area", "statement": "In exact arithmetic the normal computed for a polygon does not depend on the position of the origin, is negated by reversing the vertex order, equals the contour (shoelace) formula, and the signed area is flagged negative when a 2D polygon is inverted.", "quantifier": "all polygons", "why_tests_cant": "algebraic identities over all coordinates and numbers of vertices", "anchors": ["src/geometry/Geometry.cc:polygon_get_area_centroid_normal"]}
{"id": "C54", "title": "Polyhedron volume", "statement": "In exact arithmetic the volume of a generated hexahedral cell is hx*hy*hz, its centroid the cell centre, and the sum of the outward face normals vanishes.", "quantifier": "all cells of all structured meshes with positive spacings", "why_tests_cant": "algebraic identity over all real inputs", "anchors": ["src/geometry/Geometry.cc:polyhed_get_vol_centroid", "src/mesh/Mesh.cc:compute_cell_geometric_quantities"]}
{"id": "C55", "title": "Geometric model and domain bookkeeping", "statement": "FindRegion returns the first region with the id or name and null if there is none; Add_Region rejects regions of too high dimension and otherwise appends; a Domain can be constructed for dimension 2 and 3 from lists of models and regions.", "quantifier": "all histories of additions", "why_tests_cant": "history property", "anchors": ["src/geometry/GeometricModel.cc:FindRegion", "src/geometry/GeometricModel.cc:Add_Region", "src/geometry/Domain.cc:Domain"]}
{"id": "C56", "title": "Copying a region preserves its definition", "statement": "A copied region answers all queries (name, id, dimension, operation, components, label, entity kind, membership) like the original.", "quantifier": "all regions", "why_tests_cant": "must hold for all values", "anchors": ["src/geometry/LogicalRegion.cc:LogicalRegion", "src/geometry/LabeledSetRegion.cc:LabeledSetRegion", "src/geometry/BoxRegion.cc:BoxRegion"]}
{"id": "C57", "title": "Exception behaviour is global", "statement": "After set_exception_behavior(b), every error raised anywhere in the library follows behaviour b and exception_behavior() reports b.", "quantifier": "all histories of behaviour changes and raises from any part of the library", "why_tests_cant": "depends on which translation unit raises", "anchors": ["src/error_handling/exceptions.hh:Jali_throw", "src/error_handling/exceptions.cc:set_exception_behavior"]}
{"id": "C58", "title": "Names of entity kinds and types", "statement": "Entity_kind_string, Entity_type_string, Cell_type_string and Partitioner_type_string give every valid value its own name, and the name is that of the value.", "quantifier": "all values of the enumerations", "why_tests_cant": "complete table, every row must be right", "anchors": ["src/mesh/MeshDefs.hh:Entity_type_string", "src/mesh/MeshDefs.hh:Entity_kind_string"]}
{"id": "C59", "title": "Face normals seen from a cell", "statement": "face_normal(f, relative_to_cell=c) points out of c for each of the (up to two) cells of f, is the negative of the normal seen from the other cell, and the absolute normal equals the one stored for the first cell side.", "quantifier": "all meshes, faces and cells", "why_tests_cant": "must agree for all faces and either side", "anchors": ["src/mesh/Mesh.cc:face_normal"]}
{"id": "C60", "title": "Faces of a cell at a node", "statement": "On a structured mesh node_get_cell_faces(n, c) lists exactly the faces of cell c that have n as a corner, each once.", "quantifier": "all mesh sizes, all cells, all nodes", "why_tests_cant": "must hold for every size and every position in the lattice", "anchors": ["src/mesh/mesh_simple/Mesh_simple.cc:node_get_cell_faces"]}
{"id": "C61", "title": "Entity-type argument of the upward queries", "statement": "node_get_cells, node_get_faces, face_get_cells and the adjacency queries return only entities of the requested type: asking a serial structured mesh (which has no ghosts) for GHOST entities gives an empty list.", "quantifier": "all mesh sizes, all entities, all values of the type argument", "why_tests_cant": "tests ask for OWNED or ALL only", "anchors": ["src/mesh/mesh_simple/Mesh_simple.cc:node_get_cells", "src/mesh/mesh_simple/Mesh_simple.cc:cell_get_node_adj_cells", "src/mesh/Mesh.cc:face_get_cells"]}
{"id": "C62", "title": "BLOCK partitioner on a regular mesh", "statement": "On a mesh recognised as a regular box, the BLOCK partitioner puts every owned cell in exactly one partition, namely the one whose block contains the cell centroid.", "quantifier": "all regular mesh sizes and numbers of parts", "why_tests_cant": "block limits depend on all sizes and part counts", "anchors": ["src/mesh/Mesh.cc:get_partitioning_by_blocks"]}
{"id": "C63", "title": "BLOCK partitioner on other meshes", "statement": "get_partitioning covers every owned cell, or reports an error, also when the BLOCK partitioner is asked for on a mesh that is not a regular box.", "quantifier": "all meshes and numbers of parts", "why_tests_cant": "needs every mesh", "anchors": ["src/mesh/Mesh.cc:get_partitioning_by_blocks"]}
{"id": "C64", "title": "Cached face to cell query", "statement": "For every mesh whose faces have at most two cells, face_get_cells(f, type) from the cache returns exactly the cells the mesh reports for the face restricted to that type, in the same order, and agrees with the uncached build; a face with more cells overruns the cache row.", "quantifier": "all meshes, faces, types", "why_tests_cant": "must hold for every incidence and type assignment", "anchors": ["src/mesh/Mesh.cc:cache_face2cell_info", "src/mesh/Mesh.cc:face_get_cells"]}
{"id": "C65", "title": "Set queries on a tile", "statement": "For a mesh set and a tile, the query for the set's entities on the tile with type ALL returns exactly the set members in the tile, and the answers for OWNED and GHOST are the members that are owned and ghost in the tile, so that together they make up the ALL answer.", "quantifier": "all meshes, sets, tiles, entity kinds and types", "why_tests_cant": "relates two unbounded families of lists (mesh set parts and tile lists) under all ownership assignments", "anchors": ["src/mesh/MeshTile.cc:get_set_entities", "src/mesh/MeshTile.cc:get_cells_of_set"]}
{"id": "C66", "title": "Corners and wedges at a node, by type", "statement": "node_get_corners(n, t) and node_get_wedges(n, t) return, without repetition, exactly the corners and wedges at node n whose cell has parallel type t (all of them for ALL).", "quantifier": "all meshes, nodes and types", "why_tests_cant": "arbitrary incidence structures and ghost patterns", "anchors": ["src/mesh/Mesh.cc:node_get_corners", "src/mesh/Mesh.cc:node_get_wedges"]}
{"id": "C67", "title": "Queries about requested entities do not abort", "statement": "For every combination of requested entity kinds, building a mesh fails no assertion, and afterwards, and after any number of geometry updates, no query about entity kinds that are available fails an assertion.", "quantifier": "all combinations of requested kinds, dimensions 1 to 3, all queries, any number of updates", "why_tests_cant": "the assertions depend on which caches an earlier history filled; tests build meshes with everything requested", "anchors": ["src/mesh/Mesh.cc:cache_extra_variables", "src/mesh/Mesh.cc:update_geometric_quantities", "src/mesh/Mesh.cc:node_get_wedges", "src/mesh/Mesh.cc:compute_cell_geometry"]}
{"id": "C68", "title": "Vertex order of a polyhedron", "statement": "polyhed_get_vol_centroid, whose vertex list is documented to be in no particular order, returns the same volume and centroid for every order of the vertices.", "quantifier": "all polyhedra and all permutations of the vertices", "why_tests_cant": "all permutations of unbounded lists of real points", "anchors": ["src/geometry/Geometry.cc:polyhed_get_vol_centroid"]}
{"id": "C69", "title": "Edge normals on surface meshes", "statement": "On a surface mesh (cells of dimension 2 in space), face_normal(f, c) points out of cell c for each cell c of f.", "quantifier": "all surface meshes, faces and cells", "why_tests_cant": "must hold wherever the mesh is in space; a test mesh around the origin can be right by accident", "anchors": ["src/mesh/Mesh.cc:compute_face_geometry", "src/mesh/Mesh.cc:face_normal"]}
{"id": "C70", "title": "Edge vectors", "statement": "edge_vector(e, p) seen from an end p of edge e leads from p to the other end, with orientation 1 for the first and -1 for the second end; edge_length is the distance of the ends and edge_centroid the midpoint.", "quantifier": "all edges and coordinates", "why_tests_cant": "all real coordinates and both ends", "anchors": ["src/mesh/Mesh.cc:compute_edge_geometry", "src/mesh/Mesh.cc:edge_vector", "src/mesh/Mesh.cc:edge_centroid"]}
{"id": "C71", "title": "Face centroids in one dimension", "statement": "On a one-dimensional mesh face_centroid(f) is the position of the node of f, and face_normal(f) without a cell returns the natural normal.", "quantifier": "all one-dimensional meshes and faces", "why_tests_cant": "all positions and geometries", "anchors": ["src/mesh/Mesh.cc:compute_face_geometry", "src/mesh/Mesh.cc:face_centroid"]}
{"id": "C72", "title": "Geometry of the structured mesh", "statement": "For every cell of a generated 3D structured mesh the volume is the product of the cell widths, the centroid the middle of the cell, the normals of its six faces are the outward axis vectors times the face areas, point_in_cell is true exactly for the points of the closed cell, and the cell volumes add up to the volume of the domain.", "quantifier": "all cell counts, domains, cells and points", "why_tests_cant": "unbounded numbers of cells and real coordinates", "anchors": ["src/mesh/Mesh.cc:compute_cell_geometry", "src/mesh/Mesh.cc:compute_face_geometry", "src/mesh/Mesh.cc:point_in_cell", "src/mesh/mesh_simple/Mesh_simple.cc"]}
{"id": "C73", "title": "Sets of box, plane, polygon and labeled regions", "statement": "The set made for a BOX, PLANE or POLYGON region holds exactly the entities located in it (centroid in the box; all corners on the plane or in the polygon; node in the region), owned ones in OWNED and ghosts in GHOST, each once; it is registered under the region's name and nothing else changes. The set of a labeled region of the kind its entity string names holds exactly the labeled entities; asking it for another kind is an error.", "quantifier": "all meshes, regions and entity kinds", "why_tests_cant": "all meshes and regions", "anchors": ["src/mesh/Mesh.cc:build_set_from_region"]}
{"id": "C74", "title": "Cell set of a point region", "statement": "The CELL set of a POINT region holds exactly the cells of the mesh that contain the point.", "quantifier": "all meshes and points", "why_tests_cant": "depends on the shapes of neighbouring cells", "anchors": ["src/mesh/Mesh.cc:build_set_from_region"]}
{"id": "C75", "title": "Building a set from a region ends", "statement": "Building the set of a region always ends, with a set or a reported error, however logical regions refer to each other.", "quantifier": "all geometric models", "why_tests_cant": "termination over all region graphs", "anchors": ["src/mesh/Mesh.cc:build_set_from_region"]}
{"id": "C76", "title": "Initialisation of sets from the geometric model", "statement": "After init_sets_from_geometric_model every region has a set of every entity kind asked for (or of the default kinds), each holding exactly the entities of that kind in the region, independently of the order of the regions; calling it again changes nothing.", "quantifier": "all geometric models, kind maps and earlier sets", "why_tests_cant": "order and history property", "anchors": ["src/mesh/Mesh.cc:init_sets_from_geometric_model"]}
{"id": "C77", "title": "Set lookup by region", "statement": "find_meshset_from_region returns the registered set of a region and kind, creates it when asked and missing, and returns null only for names that are not regions suitable for the kind.", "quantifier": "all geometric models and registries", "why_tests_cant": "all states of the registry", "anchors": ["src/mesh/Mesh.cc:find_meshset_from_region", "src/mesh/Mesh.cc:valid_region_name"]}
{"id": "C78", "title": "State::add returns the requested vector", "statement": "State::add returns a vector with exactly the requested name, domain, entity kind, entity type, class and element type; if it is new it has one element per entity, equal to the given values.", "quantifier": "all states and all requests", "why_tests_cant": "all states of the manager and all requests", "anchors": ["src/statemanager/JaliState.h:add", "src/statemanager/JaliState.h:find"]}
{"id": "C79", "title": "Multi-material vectors follow the materials", "statement": "A multi-material state vector has, for every material, exactly one value per cell of the material at all times; adding materials or cells keeps earlier values and sets new ones to zero.", "quantifier": "all histories of adding materials, cells and vectors", "why_tests_cant": "history property", "anchors": ["src/statemanager/JaliState.cc:add_material", "src/statemanager/JaliState.cc:add_cells_to_material", "src/statemanager/JaliStateVector.h:MultiStateVector"]}
{"id": "C80", "title": "Sides fill the cell", "statement": "The volumes reported for the sides of a cell add up to the volume of the cell, in two and three dimensions, for closed cells with flat faces that are star-shaped.", "quantifier": "all meshes, cells and coordinates", "why_tests_cant": "holds for every polyhedral or polygonal cell shape", "anchors": ["src/mesh/Mesh.cc:compute_side_geometry", "src/mesh/Mesh.cc:side_volume"]}
{"id": "C81", "title": "Side facet normals", "statement": "The outward facet normal of a side is the area vector of its outer facet; the normals of the sides of a face of a cell add up to the outward face normal, and the normals of two opposite sides are opposite.", "quantifier": "all meshes, faces and coordinates", "why_tests_cant": "holds for every cell shape and face", "anchors": ["src/mesh/Mesh.cc:compute_side_geometry", "src/mesh/Mesh.cc:side_facet_normal"]}
{"id": "C82", "title": "Wedge geometry", "statement": "wedge_get_coordinates with posvol_order gives the corners of the wedge in an order with signed volume wedge_volume, half of the volume of its side; wedge_facet_normal gives the area vectors of facets 0 and 1.", "quantifier": "all meshes, wedges and coordinates", "why_tests_cant": "holds for every cell shape and wedge", "anchors": ["src/mesh/Mesh.cc:wedge_get_coordinates", "src/mesh/Mesh.cc:wedge_facet_normal", "src/mesh/Mesh.cc:wedge_volume"]}
{"id": "C83", "title": "Corner geometry", "statement": "Corner volumes of a cell add up to its volume; corner_get_facetization describes a closed outward oriented surface (a counter-clockwise outline in the plane) enclosing exactly corner_volume; corner_get_coordinates gives its points, counter-clockwise in the plane.", "quantifier": "all meshes, corners and coordinates", "why_tests_cant": "holds for every number of wedges at the corner and every shape", "anchors": ["src/mesh/Mesh.cc:corner_get_facetization", "src/mesh/Mesh.cc:corner_get_coordinates", "src/mesh/Mesh.cc:corner_volume"]}
{"id": "C84", "title": "Sides and corners on the line", "statement": "In one dimension sides, wedges and corners have positive volumes adding up to the cell's length, outward normals, and coordinates in ascending order when asked for in positive volume order.", "quantifier": "all one-dimensional meshes and cells", "why_tests_cant": "holds for every mesh and position", "anchors": ["src/mesh/Mesh.cc:compute_side_geometry", "src/mesh/Mesh.cc:corner_get_coordinates", "src/mesh/Mesh.cc:wedge_get_coordinates"]}
{"id": "C85", "title": "Mesh factory: capability queries agree with what the factory can do", "statement": "framework_available tells which frameworks can be selected; framework_generates, framework_reads and framework_extracts tell for which dimensions and numbers of ranks a factory with that framework creates a mesh from valid input.", "quantifier": "all frameworks, dimensions, numbers of ranks, valid requests and build configurations", "why_tests_cant": "agreement of two tables with code paths for all numbers of ranks and builds; one build cannot test the other", "anchors": ["src/mesh/mesh_factory/MeshFactory.cc:framework_generates", "src/mesh/mesh_factory/MeshFactory.cc:create"]}
{"id": "C86", "title": "Mesh factory: options reach the created mesh", "statement": "A mesh returned by the factory has the tiles, ghost layers, partitioner, geometry type and geometric model set in the factory and represents every kind of entity that included_entities lists; a mesh read from a file has the dimension of the geometric model.", "quantifier": "all options, calls, numbers of ranks and per-rank outcomes", "why_tests_cant": "long positional argument lists; all combinations of options", "anchors": ["src/mesh/mesh_factory/MeshFactory.cc:create", "src/mesh/mesh_simple/Mesh_simple.cc:Mesh_simple"]}
{"id": "C87", "title": "Plane region membership does not depend on the length of the normal", "statement": "PlaneRegion::inside(p) is true exactly when p is within the tolerance of the plane; multiplying the normal by a non-zero number changes no answer; points of another dimension are rejected.", "quantifier": "all planes, normals, scale factors and points", "why_tests_cant": "real-valued inputs; the failing points are within a tolerance", "anchors": ["src/geometry/PlaneRegion.cc:PlaneRegion::inside"]}
{"id": "C88", "title": "Point region membership", "statement": "PointRegion::inside(p) is true exactly when every coordinate of p differs from that of the region's point by less than the tolerance; points of another dimension are rejected.", "quantifier": "all points of any dimension", "why_tests_cant": "real-valued inputs", "anchors": ["src/geometry/PointRegion.cc:PointRegion::inside"]}
{"id": "C89", "title": "Box region: dimension, degeneracy and corners", "statement": "The dimension of a box is the number of coordinates in which its corners differ; is_degenerate reports the number of others; corners() returns the low and the high corner, whatever order the corners were given in.", "quantifier": "all pairs of corners of any dimension", "why_tests_cant": "real-valued inputs and all orders", "anchors": ["src/geometry/BoxRegion.cc:BoxRegion::BoxRegion", "src/geometry/BoxRegion.cc:BoxRegion::is_degenerate", "src/geometry/BoxRegion.hh:corners"]}
{"id": "C90", "title": "A polygon region in the plane is a segment", "statement": "In two dimensions a polygon region contains exactly the points of the segment between its first two points, up to the tolerance, in either order.", "quantifier": "all points and segments", "why_tests_cant": "real-valued inputs", "anchors": ["src/geometry/PolygonRegion.cc:PolygonRegion::inside", "src/geometry/PolygonRegion.cc:PolygonRegion::init"]}
{"id": "C91", "title": "A polygon region in space contains exactly the points of the polygon", "statement": "In space a polygon region contains every point inside the polygon and no point farther from it than the tolerance.", "quantifier": "all polygons and points", "why_tests_cant": "real-valued inputs, all shapes and positions", "anchors": ["src/geometry/PolygonRegion.cc:PolygonRegion::inside", "src/geometry/PolygonRegion.cc:PolygonRegion::init"]}
{"id": "C92", "title": "Ill-defined regions are rejected", "statement": "Constructing a box with corners of different dimensions, a plane with a normal of another dimension, a polygon with too few points or of a dimension other than 2 and 3, or a logical region with an unknown operation throws; other definitions succeed, and the operation name selects the operation.", "quantifier": "all region definitions", "why_tests_cant": "unbounded inputs", "anchors": ["src/geometry/BoxRegion.cc", "src/geometry/PlaneRegion.cc", "src/geometry/PolygonRegion.cc", "src/geometry/LogicalRegion.cc"]}
{"id": "C93", "title": "Texts of error messages", "statement": "what() of a message is the concatenation, in order and without truncation, of everything streamed into it; integers appear as their decimal numerals.", "quantifier": "all sequences of pieces, all integers", "why_tests_cant": "unbounded sequences; a fixed-size buffer is involved", "anchors": ["src/error_handling/errors.cc:operator<<", "src/error_handling/errors.hh:Message"]}
{"id": "C94", "title": "A regular mesh has exactly the entities of the grid", "statement": "Generating a block of a regular hexahedral mesh creates exactly one vertex per grid point of the block, one edge per pair of neighbouring points, one face per elementary rectangle and one cell per elementary box, with the coordinates of the global grid (the last point exactly at the upper corner), without reading outside its arrays; no block arguments means the whole grid.", "quantifier": "all domains, numbers of cells, blocks", "why_tests_cant": "must hold for every grid size and every block; a test sees a few", "anchors": ["src/mesh/mesh_mstk/Mesh_MSTK.cc:generate_regular_mesh"]}
{"id": "C95", "title": "Global ids of a regular mesh are consistent", "statement": "Two entities generated by whatever ranks have the same global id exactly if they are geometrically the same entity, and then carry the same data; over the whole mesh the ids of each kind are 1..n without gaps.", "quantifier": "all domains, all pairs of blocks, all entities", "why_tests_cant": "must hold for every grid size and every block; a test sees a few", "anchors": ["src/mesh/mesh_mstk/Mesh_MSTK.cc:generate_regular_mesh"]}
{"id": "C96", "title": "Entities of a regular mesh are classified on the right geometric entity", "statement": "Every vertex, edge and face generated carries the dimension and number of the corner, edge, face or interior of the domain that contains it, numbered as documented.", "quantifier": "all domains, blocks, entities", "why_tests_cant": "must hold for every grid size and every block; a test sees a few", "anchors": ["src/mesh/mesh_mstk/Mesh_MSTK.cc:generate_regular_mesh"]}
{"id": "C97", "title": "A regular mesh is closed and oriented", "statement": "Every side of a cell is a generated face, every side of a face a generated edge, each exactly one; the corners of a cell are listed in a right-handed order.", "quantifier": "all domains, blocks, cells", "why_tests_cant": "must hold for every grid size and every block; a test sees a few", "anchors": ["src/mesh/mesh_mstk/Mesh_MSTK.cc:generate_regular_mesh"]}
{"id": "C98", "title": "A regular mesh is the same on any number of ranks", "statement": "For every number of ranks up to the number of cells, each rank generates its part without failure, the union of the parts is the mesh a single rank generates, and every cell is on exactly one rank.", "quantifier": "all domains, numbers of ranks", "why_tests_cant": "must hold for every grid size and every block; a test sees a few", "anchors": ["src/mesh/mesh_mstk/Mesh_MSTK.cc:Mesh_MSTK", "src/mesh/block_partition.cc"]}
{"id": "C99", "title": "A regular quadrilateral mesh has exactly the entities of the grid, on any number of ranks", "statement": "Generating a block of a regular two-dimensional mesh creates one vertex per grid point, exactly one edge per pair of neighbouring points, and one cell per elementary rectangle whose edges run counterclockwise; the parts of all ranks together have every entity of the grid, each cell on one rank.", "quantifier": "all domains, blocks, numbers of ranks", "why_tests_cant": "must hold for every grid size, block and number of ranks; a test sees a few", "anchors": ["src/mesh/mesh_mstk/Mesh_MSTK.cc:generate_regular_mesh", "src/mesh/mesh_mstk/Mesh_MSTK.cc:Mesh_MSTK"]}
{"id": "C100", "title": "Neighbouring cells traverse a shared edge in opposite directions", "statement": "In a generated two-dimensional mesh two cells that share an edge use it with opposite directions, and no cell uses an edge twice.", "quantifier": "all domains, blocks, pairs of cells", "why_tests_cant": "must hold for every grid size, block and number of ranks; a test sees a few", "anchors": ["src/mesh/mesh_mstk/Mesh_MSTK.cc:generate_regular_mesh"]}
{"id": "C101", "title": "Global ids of a regular two-dimensional mesh are consistent", "statement": "Two entities generated by whatever ranks have the same global id exactly if they are geometrically the same, and then carry the same data, including direction; over the whole mesh the ids are 1..n.", "quantifier": "all domains, all pairs of blocks, all entities", "why_tests_cant": "must hold for every grid size, block and number of ranks; a test sees a few", "anchors": ["src/mesh/mesh_mstk/Mesh_MSTK.cc:generate_regular_mesh"]}
{"id": "C102", "title": "Entities of a regular two-dimensional mesh are classified on the right geometric entity", "statement": "Every vertex and edge carries the dimension and number of the corner, side or interior that contains it.", "quantifier": "all domains, blocks, entities", "why_tests_cant": "must hold for every grid size, block and number of ranks; a test sees a few", "anchors": ["src/mesh/mesh_mstk/Mesh_MSTK.cc:generate_regular_mesh"]}
{"id": "C103", "title": "An MSTK mesh numbers its entities consecutively by ownership", "statement": "The local ids of the nodes, edges, faces and cells of a mesh built on MSTK are 0,1,...,n-1; first come the owned ones, then the ghosts, then the boundary ghosts; every id names exactly one entity and the id lists by type are exactly the ids of the entities of that type.", "quantifier": "all meshes of any size, any assignment of ownership, with and without boundary ghosts", "why_tests_cant": "the order in which owned and ghost entities occur in the underlying mesh is arbitrary", "anchors": ["src/mesh/mesh_mstk/Mesh_MSTK.cc:init_vertices", "src/mesh/mesh_mstk/Mesh_MSTK.cc:init_edges", "src/mesh/mesh_mstk/Mesh_MSTK.cc:init_faces", "src/mesh/mesh_mstk/Mesh_MSTK.cc:init_cells", "src/mesh/mesh_mstk/Mesh_MSTK.cc:init_vertex_id2handle_maps", "src/mesh/mesh_mstk/Mesh_MSTK.cc:init_cell_id2handle_maps"]}
{"id": "C104", "title": "Global ids identify entities", "statement": "Within a rank, different entities of a kind have different non-negative global ids; in a serial run without global ids the global id is the local id.", "quantifier": "all meshes, all kinds, all pairs of entities", "why_tests_cant": "must hold for every distribution; a test sees a few", "anchors": ["src/mesh/mesh_mstk/Mesh_MSTK.cc:GID"]}
{"id": "C105", "title": "Upward and downward queries of an MSTK mesh agree", "statement": "A face/node is one of a cell's faces/nodes exactly if the cell is one of the face's/node's cells (likewise nodes and faces); queries have an answer exactly for valid ids; the type argument selects from all answers those listed under that type; the two cells of a face see it in opposite directions.", "quantifier": "all meshes (2D and 3D), all entities, all type arguments, any set of flipped faces", "why_tests_cant": "quantifies over all mesh topologies and ownerships", "anchors": ["src/mesh/mesh_mstk/Mesh_MSTK.cc:cell_get_faces_and_dirs_unordered", "src/mesh/mesh_mstk/Mesh_MSTK.cc:cell_get_nodes", "src/mesh/mesh_mstk/Mesh_MSTK.cc:node_get_cells", "src/mesh/mesh_mstk/Mesh_MSTK.cc:node_get_faces", "src/mesh/mesh_mstk/Mesh_MSTK.cc:node_get_cell_faces", "src/mesh/mesh_mstk/Mesh_MSTK.cc:face_get_cells", "src/mesh/mesh_mstk/Mesh_MSTK.cc:face_get_nodes"]}
{"id": "C106", "title": "Neighbours of a cell of an MSTK mesh", "statement": "Face neighbours are exactly the other cells with a common face, in the order of the cell's faces; node neighbours are exactly the other cells with a common node, each once; both relations are symmetric; the type argument selects by ownership.", "quantifier": "all meshes (2D and 3D), all pairs of cells, all type arguments", "why_tests_cant": "quantifies over all mesh topologies and ownerships", "anchors": ["src/mesh/mesh_mstk/Mesh_MSTK.cc:cell_get_face_adj_cells", "src/mesh/mesh_mstk/Mesh_MSTK.cc:cell_get_node_adj_cells"]}
{"id": "C107", "title": "Directions of edges agree with the order of nodes", "statement": "Each edge of a face (or of a 2D cell), traversed in the direction returned with it, goes from a node of the face (cell) to the next one in the order in which the nodes are returned.", "quantifier": "all meshes, all faces and 2D cells, any set of flipped faces and edges", "why_tests_cant": "flips occur only in parallel runs for ghost entities that happen to be oriented differently on their owner", "anchors": ["src/mesh/mesh_mstk/Mesh_MSTK.cc:face_get_edges_and_dirs", "src/mesh/mesh_mstk/Mesh_MSTK.cc:cell_2D_get_edges_and_dirs", "src/mesh/mesh_mstk/Mesh_MSTK.cc:cell_get_faces_and_dirs_unordered", "src/mesh/mesh_mstk/Mesh_MSTK.cc:face_get_nodes", "src/mesh/mesh_mstk/Mesh_MSTK.cc:edge_get_nodes"]}
{"id": "C108", "title": "Directions of shared entities agree on all ranks", "statement": "Every rank that has an edge or face lists its nodes in the same order (a face up to the starting node), and every rank that has a cell sees each of its faces in the same direction; the two cells of a face see it in opposite directions even if they are seen on different ranks.", "quantifier": "all distributions of a mesh over any number of ranks in which the copies match, all entities, all pairs of ranks", "why_tests_cant": "depends on how the orientation of every ghost copy happens to differ from that of its owner; a test sees a few partitions", "anchors": ["src/mesh/mesh_mstk/Mesh_MSTK.cc:init_pedge_dirs", "src/mesh/mesh_mstk/Mesh_MSTK.cc:init_pface_dirs", "src/mesh/mesh_mstk/Mesh_MSTK.cc:init_pface_dirs_3", "src/mesh/mesh_mstk/Mesh_MSTK.cc:init_pface_dirs_2", "src/mesh/mesh_mstk/Mesh_MSTK.cc:edge_get_nodes", "src/mesh/mesh_mstk/Mesh_MSTK.cc:face_get_nodes", "src/mesh/mesh_mstk/Mesh_MSTK.cc:cell_get_faces_and_dirs"]}
{"id": "C109", "title": "Faces of a cell in standard order", "statement": "When ordered faces are requested, a tetrahedron, pyramid, prism or hexahedron lists the faces round its base in the order of the base's edges, then the base, then the face opposite to the base; the list has the same faces with the same directions as the unordered list, for every cell.", "quantifier": "all meshes whose cells have closed surfaces, all cells, any set of flipped faces", "why_tests_cant": "quantifies over all orders in which the faces and edges of a cell may be stored", "anchors": ["src/mesh/mesh_mstk/Mesh_MSTK.cc:cell_get_faces_and_dirs_ordered", "src/mesh/mesh_mstk/Mesh_MSTK.cc:cell_get_faces_and_dirs_unordered"]}
{"id": "C110", "title": "Types of cells", "statement": "A cell is called tetrahedron, pyramid, prism or hexahedron exactly if it has the corresponding numbers of triangular and quadrilateral faces, and then has the numbers of nodes, edges and faces of one; in 2D triangle, quadrilateral or polygon by the number of nodes.", "quantifier": "all closed cells satisfying Euler's formula, all polygons", "why_tests_cant": "quantifies over all cell shapes", "anchors": ["src/mesh/mesh_mstk/Mesh_MSTK.cc:cell_get_type", "src/mesh/mesh_mstk/Mesh_MSTK.cc:label_celltype", "src/mesh/mesh_mstk/Mesh_MSTK.cc:MRegion_Celltype", "src/mesh/mesh_mstk/Mesh_MSTK.cc:MFace_Celltype"]}
{"id": "C111", "title": "Fields stored on a mesh are read back", "statement": "After store_field succeeds, get_field with the same name and kind of entity returns the stored data, every other field is unchanged, and a stored value belongs to the entity whose id is its position in the data; storing a scalar is refused exactly if the name is taken by a field of another type or kind, and reading exactly if there is no such field.", "quantifier": "all meshes, all sets of fields already present, all names, kinds and data", "why_tests_cant": "quantifies over all histories of stores and all orders of owned and ghost entities in the mesh database", "anchors": ["src/mesh/mesh_mstk/Mesh_MSTK.cc:get_field", "src/mesh/mesh_mstk/Mesh_MSTK.cc:store_field", "src/mesh/mesh_mstk/Mesh_MSTK.cc:get_field_info", "src/mesh/mesh_mstk/Mesh_MSTK.hh:get_field_internal", "src/mesh/mesh_mstk/Mesh_MSTK.hh:store_field_internal", "src/mesh/mesh_mstk/Mesh_MSTK.hh:entity_kind_to_mtype"]}
{"id": "C112", "title": "State vectors survive export to and import from the mesh", "statement": "export_to_mesh stores each vector on the mesh and init_from_mesh into a new state yields the same vectors with the same values; exporting a changed vector again replaces the stored field; neither reads or writes outside its arrays.", "quantifier": "all states whose vectors are of exportable types, all meshes, all values", "why_tests_cant": "quantifies over all states, including vectors on owned entities only, on tiles and on every kind of entity", "anchors": ["src/statemanager/JaliState.cc:init_from_mesh", "src/statemanager/JaliState.cc:export_to_mesh"]}
{"id": "C113", "title": "Boundary ghosts", "statement": "If boundary ghosts are requested, exactly one cell is added outside each face that this rank owns, that has one cell and that is not on a boundary between ranks; it has this face only, seen from the other side, and the nodes of the face. Nothing changes for the cells that were there. On one rank every face then has two cells.", "quantifier": "all 2D and 3D meshes, all partitions, all faces", "why_tests_cant": "quantifies over all meshes and orders of their entities", "anchors": ["src/mesh/mesh_mstk/Mesh_MSTK.cc:create_boundary_ghosts", "src/mesh/mesh_mstk/Mesh_MSTK.cc:face_get_cells", "src/mesh/mesh_mstk/Mesh_MSTK.cc:cell_get_faces_and_dirs", "src/mesh/mesh_mstk/Mesh_MSTK.cc:cell_get_nodes"]}
{"id": "C114", "title": "Cached connectivity of an unstructured mesh", "statement": "The public queries for faces of a cell, edges of a face, edges of a cell and nodes of an edge return for every id exactly what the framework knows, edges of a cell are the edges of its faces, each once, and face_to_cell_edge_map gives the place of every edge of a face among the edges of a cell of the face.", "quantifier": "all 2D, surface and 3D meshes, all requests, all ids, all contents of the caller's vector", "why_tests_cant": "ranges over all meshes and all previous contents of output arguments", "anchors": ["src/mesh/Mesh.cc:cache_cell2face_info", "src/mesh/Mesh.cc:cache_face2edge_info", "src/mesh/Mesh.cc:cache_cell2edge_info", "src/mesh/Mesh.cc:cache_edge2node_info", "src/mesh/Mesh.cc:cell_get_faces_and_dirs", "src/mesh/Mesh.cc:face_get_edges_and_dirs", "src/mesh/Mesh.cc:cell_get_edges", "src/mesh/Mesh.cc:cell_2D_get_edges_and_dirs", "src/mesh/Mesh.cc:face_to_cell_edge_map"]}
{"id": "C115", "title": "Sides, wedges and corners of an unstructured mesh", "statement": "For every mesh the framework can hold, on any number of ranks, caching sides and corners succeeds; there is exactly one side for each edge of each face of each cell and one corner for each node of each cell, opposite sides lie in the two cells of a face and have their nodes exchanged, and the nodes of a side run so that its facet points into its cell.", "quantifier": "all meshes, all partitions, all flips of faces and edges", "why_tests_cant": "orientation depends on flips made between ranks, of which there are exponentially many", "anchors": ["src/mesh/Mesh.cc:cache_side_info", "src/mesh/Mesh.cc:cache_corner_info", "src/mesh/Mesh.hh:side_get_node", "src/mesh/Mesh.hh:side_get_opposite_side", "src/mesh/mesh_mstk/Mesh_MSTK.cc:face_get_edges_and_dirs_internal", "src/mesh/mesh_mstk/Mesh_MSTK.cc:init_pface_dirs"]}
{"id": "C116", "title": "Entity types of an unstructured mesh", "statement": "entity_get_type of every node, edge, face and cell says whether it is owned by the rank, a ghost or a boundary ghost, and num_entities counts the entities of the framework; kinds that were not requested have no entities and an unknown type.", "quantifier": "all meshes, partitions and requests, all ids", "why_tests_cant": "ranges over all partitions", "anchors": ["src/mesh/Mesh.cc:cache_type_info", "src/mesh/Mesh.hh:entity_get_type", "src/mesh/Mesh.hh:num_entities", "src/mesh/mesh_mstk/Mesh_MSTK.cc:init_cells"]}
{"id": "C117", "title": "Cells of a face through the public query", "statement": "face_get_cells returns exactly the cells that have the face, at most two, and for a type exactly those among them that have this type.", "quantifier": "all meshes, also with ghosts and boundary ghosts, all faces, all type arguments", "why_tests_cant": "ranges over all meshes and orders in which cells are found", "anchors": ["src/mesh/Mesh.cc:face_get_cells", "src/mesh/Mesh.cc:cache_face2cell_info", "src/mesh/mesh_mstk/Mesh_MSTK.cc:face_get_cells_internal"]}
{"id": "C118", "title": "Tiles of an unstructured mesh", "statement": "If tiles are requested when a mesh is made, building them succeeds; every cell owned by the rank is owned by exactly one tile, its master, ghosts and boundary ghosts by none; the halo of a tile is exactly what can be reached in the given number of layers of cells sharing a node; nodes, faces and edges of owned cells have exactly one owner; the lists of a tile are exactly the entities of its cells, each once.", "quantifier": "all meshes, partitions, requests, numbers of tiles and halo layers", "why_tests_cant": "ranges over all meshes and all numbers of tiles and layers", "anchors": ["src/mesh/Mesh.cc:build_tiles", "src/mesh/Mesh.cc:get_partitioning_by_index_space", "src/mesh/MeshTile.cc:MeshTile", "src/mesh/mesh_mstk/Mesh_MSTK.cc:post_create_steps_", "src/mesh/mesh_mstk/Mesh_MSTK.cc:cell_get_node_adj_cells"]}
{"id": "C119", "title": "Extraction of cells of a 3D mesh", "statement": "A mesh made from a list of cell ids of a 3D mesh has one cell per entry of the list, in that order, and entity_get_parent gives that entry; faces with directions, face nodes in order, cell nodes and node coordinates are those of the parents; nodes and faces have different parents, and exactly the nodes and faces of the listed cells are there. A list with an id that does not exist makes no mesh.", "quantifier": "all 3D meshes in a serial run, all lists of ids, all requests", "why_tests_cant": "ranges over all meshes and all lists, with any sharing of nodes and faces between listed cells", "anchors": ["src/mesh/mesh_mstk/Mesh_MSTK.cc:Mesh_MSTK (from a list of entity ids)", "src/mesh/mesh_mstk/Mesh_MSTK.cc:extract_mstk_mesh", "src/mesh/mesh_mstk/Mesh_MSTK.cc:entity_get_parent"]}
{"id": "C120", "title": "An extracted 3D mesh is a mesh", "statement": "If the source is a mesh of polyhedra and no cell is listed twice, the extracted mesh is one too, complete for its requests, so that all statements about meshes hold of it; cells keep their types; the cells around a face or a node are the listed ones among those around its parent.", "quantifier": "all 3D meshes whose faces have three or more edges, all lists of ids", "why_tests_cant": "ranges over all meshes and lists", "anchors": ["src/mesh/mesh_mstk/Mesh_MSTK.cc:Mesh_MSTK (from a list of entity ids)", "src/mesh/mesh_mstk/Mesh_MSTK.cc:extract_mstk_mesh", "src/mesh/mesh_mstk/Mesh_MSTK.cc:entity_get_parent"]}
{"id": "C121", "title": "Edges of an extracted 3D mesh", "statement": "In a mesh extracted from cells, two nodes are joined by exactly one edge if their parents follow each other around a face of a listed cell, and there are no other edges; entity_get_parent of an edge gives the edge of the source between the parents of its nodes.", "quantifier": "all 3D meshes, all lists of cells, all edges", "why_tests_cant": "ranges over all meshes and lists", "anchors": ["src/mesh/mesh_mstk/Mesh_MSTK.cc:Mesh_MSTK (from a list of entity ids)", "src/mesh/mesh_mstk/Mesh_MSTK.cc:extract_mstk_mesh", "src/mesh/mesh_mstk/Mesh_MSTK.cc:entity_get_parent"]}
{"id": "C122", "title": "Extraction of a surface from faces of a 3D mesh", "statement": "A mesh made from a list of face ids of a 3D mesh is a 2D mesh with one cell per entry of the list; its faces have edges of the source as parents; faces with directions, nodes in order and coordinates are those of the parents, flattening drops the third coordinate; nodes and faces have different parents, and exactly those of the listed faces are there; the surface consists of polygons again. The cells are oriented alike, as the queries of a 2D mesh need it.", "quantifier": "all 3D meshes in a serial run with faces and edges, all lists of face ids, with and without flattening", "why_tests_cant": "ranges over all meshes and lists of faces", "anchors": ["src/mesh/mesh_mstk/Mesh_MSTK.cc:Mesh_MSTK (from a list of entity ids)", "src/mesh/mesh_mstk/Mesh_MSTK.cc:extract_mstk_mesh", "src/mesh/mesh_mstk/Mesh_MSTK.cc:entity_get_parent"]}
{"id": "C123", "title": "Extraction of cells of a 2D mesh", "statement": "A mesh made from a list of cell ids of a 2D or surface mesh has one cell per entry of the list, in that order; faces with directions, face nodes, cell nodes in order, types and coordinates are those of the parents; nodes and faces have different parents, and exactly those of the listed cells are there; if no cell is listed twice the result is a mesh oriented alike.", "quantifier": "all 2D meshes in a serial run, all lists of ids, with and without flattening", "why_tests_cant": "ranges over all meshes and lists of cells", "anchors": ["src/mesh/mesh_mstk/Mesh_MSTK.cc:Mesh_MSTK (from a list of entity ids)", "src/mesh/mesh_mstk/Mesh_MSTK.cc:extract_mstk_mesh", "src/mesh/mesh_mstk/Mesh_MSTK.cc:entity_get_parent"]}
{"id": "C124", "title": "What cannot be extracted", "statement": "Extrusion, lists of nodes, edges or faces of a 2D mesh and flattening of 3D cells or of a mesh that is already in the plane are refused with an exception; nothing else is.", "quantifier": "all meshes, kinds, flags and lists", "why_tests_cant": "ranges over all lists and meshes", "anchors": ["src/mesh/mesh_mstk/Mesh_MSTK.cc:Mesh_MSTK (from a list of entity ids)", "src/mesh/mesh_mstk/Mesh_MSTK.cc:extract_mstk_mesh", "src/mesh/mesh_mstk/Mesh_MSTK.cc:entity_get_parent"]}
{"id": "C125", "title": "An entity without a parent", "statement": "entity_get_parent distinguishes an entity that has no parent from one whose parent is entity 0.", "quantifier": "all meshes, extracted or not, all kinds and ids", "why_tests_cant": "ranges over all meshes and ids", "anchors": ["src/mesh/mesh_mstk/Mesh_MSTK.cc:entity_get_parent", "src/mesh/mesh_mstk/Mesh_MSTK.cc:clear_internals_"]}
{"id": "C126", "title": "Labeled sets", "statement": "get_labeled_set_entities gives exactly the entities of the set of the file with the label of the region, owned ones and ghosts apart; the ids are ids of entities of the kind that was asked for, in the owned and in the ghost list of that kind. A region of another kind and a label that is both an element block and an element set are refused.", "quantifier": "all MSTK meshes, all lists of sets, all regions and kinds", "why_tests_cant": "ranges over all meshes, partitions and contents of files", "anchors": ["src/mesh/mesh_mstk/Mesh_MSTK.cc:get_labeled_set_entities", "src/mesh/mesh_mstk/Mesh_MSTK.cc:internal_name_of_set", "src/mesh/mesh_mstk/Mesh_MSTK.cc:other_internal_name_of_set"]}
{"id": "C127", "title": "Extraction by names of sets", "statement": "A mesh made from names of sets of a kind is the mesh made from the list of the owned entities in these sets, each of them once.", "quantifier": "all MSTK meshes in a serial run, all geometric models, all lists of names", "why_tests_cant": "ranges over all meshes, sets that overlap in any way, lists of names", "anchors": ["src/mesh/mesh_mstk/Mesh_MSTK.cc:Mesh_MSTK (from names of sets)", "src/mesh/mesh_mstk/Mesh_MSTK.cc:extract_mstk_mesh"]}
{"id": "C128", "title": "Sets of an extracted mesh", "statement": "A labeled set of an extracted mesh of the same dimension has exactly the entities whose parents are in the set of the source. On a surface, a set of nodes has the nodes whose parents are in it, a set of cells the cells whose parents are faces of cells in it; a set of faces has the faces whose parents are edges of faces in it, unless a listed face is in it: then it is not inherited.", "quantifier": "all MSTK meshes in a serial run, all lists of different ids, all sets and geometric models", "why_tests_cant": "ranges over all meshes, lists and sets", "anchors": ["src/mesh/mesh_mstk/Mesh_MSTK.cc:inherit_labeled_sets", "src/mesh/mesh_mstk/Mesh_MSTK.cc:extract_mstk_mesh", "src/mesh/mesh_mstk/Mesh_MSTK.cc:get_labeled_set_entities"]}
{"id": "C129", "title": "Coordinates of MSTK meshes and moving nodes", "statement": "After any history of node_set_coordinates the coordinates of a node are those given in the last call about this node, and those it had before if there is none; no other answer of the mesh changes. Coordinates of cells and faces are those of their nodes in the order of cell_get_nodes and face_get_nodes. Every form of a call reads and gives as many numbers as space has dimensions.", "quantifier": "all MSTK meshes, all histories of calls, all nodes, cells and faces", "why_tests_cant": "ranges over all meshes and histories of calls", "anchors": ["src/mesh/mesh_mstk/Mesh_MSTK.cc:node_get_coordinates", "src/mesh/mesh_mstk/Mesh_MSTK.cc:cell_get_coordinates", "src/mesh/mesh_mstk/Mesh_MSTK.cc:face_get_coordinates", "src/mesh/mesh_mstk/Mesh_MSTK.cc:node_set_coordinates"]}
{"id": "C130", "title": "Face normals of MSTK meshes of polyhedra", "statement": "face_normal(f, false, c) is the area vector of the face as seen from outside of cell c, whether or not the face is flipped on this rank; two cells with a common face see opposite normals; the normals of a cell whose faces form a closed surface add up to zero; for a cell that is star-shaped they point away from its inside.", "quantifier": "all MSTK meshes of polyhedra, all positions of nodes, all patterns of flipped faces, all cells and faces", "why_tests_cant": "ranges over all unstructured meshes and positions of nodes", "anchors": ["src/mesh/Mesh.cc:face_normal", "src/mesh/Mesh.cc:compute_face_geometry", "src/mesh/mesh_mstk/Mesh_MSTK.cc:face_get_coordinates", "src/mesh/mesh_mstk/Mesh_MSTK.cc:cell_get_faces_and_dirs_ordered", "src/mesh/mesh_mstk/Mesh_MSTK.cc:face_get_cells"]}
{"id": "C131", "title": "Cell volumes of MSTK meshes of polyhedra", "statement": "cell_volume and cell_centroid of a star-shaped cell are volume and first moment of the solid bounded by its faces (by triangles around the averages of their corners), whatever faces are flipped; the volumes of all cells add up to the volume inside the boundary faces of the mesh.", "quantifier": "all MSTK meshes of polyhedra, all positions of nodes, all patterns of flipped faces, all cells", "why_tests_cant": "ranges over all unstructured meshes and positions of nodes", "anchors": ["src/mesh/Mesh.cc:compute_cell_geometry", "src/geometry/Geometry.cc:polyhed_get_vol_centroid", "src/mesh/mesh_mstk/Mesh_MSTK.cc:cell_get_coordinates"]}
{"id": "C132", "title": "Face normals and cell areas of MSTK meshes of polygons in the plane", "statement": "face_normal(f, false, c) is the edge, as cell c runs along it, turned to the right, whether or not the face is flipped on this rank; two cells with a common face see opposite normals; the normals of a cell add up to zero; a cell is reported to have a positive area exactly if it runs counter-clockwise around the average of its corners, and area and centroid are then those of the polygon; the areas of all cells add up to the area inside the boundary of the mesh.", "quantifier": "all MSTK meshes of polygons in the plane, all positions of nodes, all patterns of flipped faces, all cells and faces", "why_tests_cant": "ranges over all unstructured meshes and positions of nodes", "anchors": ["src/mesh/Mesh.cc:face_normal", "src/mesh/Mesh.cc:compute_cell_geometry", "src/geometry/Geometry.cc:polygon_get_area_centroid_normal", "src/mesh/mesh_mstk/Mesh_MSTK.cc:face_get_coordinates", "src/mesh/mesh_mstk/Mesh_MSTK.cc:cell_get_coordinates"]}
{"id": "C133", "title": "Sides of cells of MSTK meshes of polyhedra", "statement": "side_volume of a side is the volume of the tetrahedron of its two nodes and the centroids of its face and cell, positive if the cell is convex; the volumes of the sides of a cell with flat faces add up to cell_volume; side_facet_normal points out of the cell and the normals of the sides of a cell over one of its faces add up to face_normal(f, false, c).", "quantifier": "all MSTK meshes of polyhedra, all positions of nodes, all patterns of flipped faces and edges, all cells that are not boundary ghosts", "why_tests_cant": "ranges over all unstructured meshes, positions of nodes and patterns of flipped faces", "anchors": ["src/mesh/Mesh.cc:compute_side_geometry", "src/mesh/Mesh.cc:compute_side_geometric_quantities", "src/mesh/Mesh.cc:side_volume", "src/mesh/Mesh.cc:side_facet_normal", "src/mesh/mesh_mstk/Mesh_MSTK.cc:face_get_edges_and_dirs_internal", "src/mesh/mesh_mstk/Mesh_MSTK.cc:cell_get_faces_and_dirs_ordered"]}
{"id": "C134", "title": "Sides and corners of cells of MSTK meshes of polygons in the plane", "statement": "side_volume of a side is the area of the triangle of its two nodes and the centroid of the cell, side_facet_normal is face_normal(f, false, c); no side has a negative volume, and for a cell that runs counter-clockwise around the average of its corners the volumes of its sides add up to cell_volume exactly if no edge runs clockwise seen from its centroid; corner_volume is the area of the quadrilateral of node, middles of the two edges and centroid, if the cell is star-shaped around its centroid. Flipped faces make no difference.", "quantifier": "all MSTK meshes of polygons in the plane, all positions of nodes, all patterns of flipped faces (edges, being the same entities, are flipped alike), all cells that are not boundary ghosts", "why_tests_cant": "ranges over all unstructured meshes, positions of nodes and patterns of flipped faces", "anchors": ["src/mesh/Mesh.cc:compute_side_geometry", "src/mesh/Mesh.cc:side_volume", "src/mesh/Mesh.cc:side_facet_normal", "src/mesh/Mesh.cc:compute_corner_geometry", "src/mesh/Mesh.cc:corner_volume", "src/mesh/Mesh.cc:corner_get_facetization", "src/mesh/mesh_mstk/Mesh_MSTK.cc:face_get_edges_and_dirs_internal", "src/mesh/mesh_mstk/Mesh_MSTK.cc:init_pedge_dirs"]}
{"id": "C135", "title": "Which end of an edge of length zero is kept", "statement": "When a mesh is read and an edge of length zero is collapsed, the vertex with the lower global id is kept if MSTK allows it, otherwise the other one; an error is thrown exactly if MSTK refuses both. The outcome does not depend on the direction in which a rank knows the edge, as long as the two global ids differ.", "quantifier": "all edges, global ids and answers of MSTK, all sequences of edges of length zero", "why_tests_cant": "ranges over all numberings, directions and answers of MSTK on different ranks", "anchors": ["src/mesh/mesh_mstk/Mesh_MSTK.cc:collapse_degen_edges", "src/mesh/mesh_mstk/Mesh_MSTK.cc:init_mesh_from_file_"]}
{"id": "C136", "title": "Sets of a mesh from a file survive the collapse of edges", "statement": "After edges of length zero have been collapsed a set of nodes, edges, faces or cells contains exactly the surviving entities that its members were merged into, directly or in several steps, and its members that were neither merged nor deleted, each once.", "quantifier": "all meshes, sequences of collapses and sets", "why_tests_cant": "ranges over all sequences of collapses and sets", "anchors": ["src/mesh/mesh_mstk/Mesh_MSTK.cc:collapse_degen_edges"]}
{"id": "C137", "title": "Global ids of ghosts after the collapse of edges", "statement": "After edges of length zero have been collapsed a ghost node, edge or face has the global id of the entity that its original was merged into on its own rank, and never an id that has been merged away. The global ids of owned entities do not change.", "quantifier": "all numbers of ranks, meshes and sequences of collapses on every rank", "why_tests_cant": "ranges over all distributions of a mesh and sequences of collapses", "anchors": ["src/mesh/mesh_mstk/Mesh_MSTK.cc:collapse_degen_edges"]}
{"id": "C138", "title": "A mesh without edges of length zero is read as it is", "statement": "Reading a mesh without edges of length zero merges nothing, leaves its sets as they are, and is defined behaviour on every rank.", "quantifier": "all meshes and numbers of ranks", "why_tests_cant": "undefined behaviour that a given compiler tolerates is invisible to tests", "anchors": ["src/mesh/mesh_mstk/Mesh_MSTK.cc:collapse_degen_edges"]}
{"id": "C139", "title": "Kinds of labeled sets are checked when a mesh is completed", "statement": "A mesh is completed exactly if, for each labeled set region of the geometric model, the set of that label in the file has entities of the kind that the region names; otherwise a message of the library is thrown.", "quantifier": "all geometric models, sets and kinds, meshes of polygons and polyhedra", "why_tests_cant": "ranges over all geometric models and files", "anchors": ["src/mesh/mesh_mstk/Mesh_MSTK.cc:init_set_info", "src/mesh/mesh_mstk/Mesh_MSTK.cc:internal_name_of_set"]}
{"id": "C140", "title": "An extraction leaves no mark on its source", "statement": "After a mesh has been extracted from a list of faces or cells no entity of the source mesh carries a mark of the extraction, so that it can be extracted from again.", "quantifier": "all MSTK meshes of polygons or polyhedra, all lists of faces or cells, repeated or not, flattened or not", "why_tests_cant": "ranges over all meshes and lists", "anchors": ["src/mesh/mesh_mstk/Mesh_MSTK.cc:extract_mstk_mesh"]}
{"id": "C141", "title": "The reader of a mesh file is chosen by the extension of its name", "statement": "A file whose name ends in .exo is read as an Exodus file, one whose name ends in .par as a Nemesis file, any other is refused with an exception.", "quantifier": "all names of files", "why_tests_cant": "ranges over all names", "anchors": ["src/mesh/mesh_mstk/Mesh_MSTK.cc:init_mesh_from_file_"]}
{"id": "C142", "title": "A mesh from one file is distributed as asked for", "statement": "On several ranks a mesh from a single file is distributed with the partitioner and the number of ghost layers that the constructor was given, and its global ids are made contiguous exactly if this was asked for; a mesh on one rank is not distributed; a mesh from several files is woven together with that number of ghost layers.", "quantifier": "all partitioners, numbers of ranks and layers, all answers of MSTK", "why_tests_cant": "ranges over all combinations of options", "anchors": ["src/mesh/mesh_mstk/Mesh_MSTK.cc:Mesh_MSTK", "src/mesh/mesh_mstk/Mesh_MSTK.cc:init_mesh_from_file_", "src/mesh/mesh_mstk/Mesh_MSTK.hh:init_mesh_from_file_"]}
{"id": "C143", "title": "Space dimension of a mesh of polygons from a file", "statement": "A mesh of polygons has space_dimension 2 on all ranks exactly if all its nodes on all ranks have the same third coordinate, otherwise 3 on all ranks.", "quantifier": "all meshes of polygons and distributions over ranks", "why_tests_cant": "ranges over all distributions of a mesh", "anchors": ["src/mesh/mesh_mstk/Mesh_MSTK.cc:Mesh_MSTK"]}
{"id": "C144", "title": "All ranks agree on whether a file could be read", "statement": "If the constructor from a file throws on one rank it throws on all ranks; no rank waits for another one that has thrown, and no rank has undefined behaviour.", "quantifier": "all files, numbers of ranks, distributions and answers of MSTK", "why_tests_cant": "ranges over all distributions and failures on single ranks", "anchors": ["src/mesh/mesh_mstk/Mesh_MSTK.cc:Mesh_MSTK", "src/mesh/mesh_mstk/Mesh_MSTK.cc:init_mesh_from_file_"]}
{"id": "C145", "title": "Point in polygon follows the even-odd rule", "statement": "For every polygon, convex or not, simple or not: point_in_polygon gives the same answer at all points that are connected without meeting an edge, the answers at the ends of a segment differ exactly if it crosses an odd number of edges, points outside of the convex hull and points connected to infinity are outside, and a polygon cut into pieces contains the points that are in an odd number of pieces.", "quantifier": "all polygons, points, segments and connected sets", "why_tests_cant": "ranges over all shapes and all paths in the plane", "anchors": ["src/geometry/Geometry.cc:point_in_polygon"]}
{"id": "C146", "title": "Polygon regions that are not convex", "statement": "A polygon region in space contains exactly those points of its plane from which a segment to the outside crosses an odd number of edges, except within the tolerance of an edge; a point beside the plane is contained only within the tolerance of a contained point of the plane. This does not depend on which vertex comes first.", "quantifier": "all plane polygons in space, points and segments", "why_tests_cant": "ranges over all shapes and positions", "anchors": ["src/geometry/PolygonRegion.cc:PolygonRegion::inside", "src/geometry/PolygonRegion.cc:PolygonRegion::init"]}
{"id": "C147", "title": "Point location in plane meshes of convex cells", "statement": "In an MSTK mesh of convex polygons in the plane, possibly with nodes in the middle of sides, point_in_cell is true for exactly one cell for every point strictly inside of a convex domain, also for points on faces and nodes, for at most one cell for any point, and for no cell if the point is outside of the closed domain. If the domain is any polygon, every point the polygon contains by the even-odd rule is in a cell.", "quantifier": "all meshes of convex polygons, all positions of nodes, all points of the plane", "why_tests_cant": "ranges over all meshes and a continuum of points; the interesting points (on faces, on nodes) have measure zero", "anchors": ["src/mesh/Mesh.cc:Mesh::point_in_cell", "src/geometry/Geometry.cc:point_in_polygon", "src/mesh/mesh_mstk/Mesh_MSTK.cc:cell_get_coordinates"]}
{"id": "C148", "title": "Point location in meshes of polyhedra", "statement": "In an MSTK mesh of convex polyhedra point_in_cell is true exactly for the points on the inner side of all triangles the faces of the cell are divided into; every point that is strictly inside of all triangles of the boundary of the domain is in a cell; a point that is in two neighbours is in the planes of the common face.", "quantifier": "all meshes of convex polyhedra with closed surfaces, all positions of nodes, all points of space", "why_tests_cant": "ranges over all meshes and a continuum of points", "anchors": ["src/mesh/Mesh.cc:Mesh::point_in_cell", "src/geometry/Geometry.cc:point_in_polyhed", "src/mesh/mesh_mstk/Mesh_MSTK.cc:cell_get_faces_and_dirs"]}
{"id": "C149", "title": "The graph handed to METIS", "statement": "When a mesh is partitioned with METIS, the arrays allocated for the graph are never written past their end, and they describe a graph METIS accepts: one vertex per owned cell, in the order of the ids METIS' answer is read back with; neighbours are owned cells, no cell is its own neighbour, every edge is listed at both ends; two owned cells are joined exactly once for every face they have in common.", "quantifier": "all structured meshes and all MSTK meshes (2D and 3D, with ghosts), any number of cells", "why_tests_cant": "the arrays are sized by a counting argument that must hold for every mesh; a test sees only the meshes it tries, and METIS does not check its input", "anchors": ["src/mesh/Mesh.cc:get_partitioning_with_metis", "src/mesh/mesh_mstk/Mesh_MSTK.cc:cell_get_face_adj_cells", "src/mesh/mesh_simple/Mesh_simple.cc:cell_get_face_adj_cells"]}
{"id": "C150", "title": "The BLOCK partitioner recognises structured meshes", "statement": "Asking a structured mesh of a box for a BLOCK partitioning into any number of parts from one to the number of cells succeeds: the search for a regular structure finds the number of cells in each direction, the parts are boxes of lattice cells that tile the lattice, and every cell is in exactly one part. In one dimension this is false: every cell is lost and all parts are empty.", "quantifier": "all structured meshes of proper boxes (any number of cells in each direction, any box), all numbers of parts up to the number of cells; all one-dimensional meshes whose domain does not end at the origin", "why_tests_cant": "The tests partition one or two small meshes; the walk from cell to cell, the recognised limits and the distribution of centroids have to be right for every number of cells, every box and every number of parts.", "anchors": ["src/mesh/Mesh.cc: get_partitioning_by_blocks (3262-3421)", "src/mesh/Mesh.cc: compute_face_geometry (1361-1398)", "src/mesh/mesh_simple/Mesh_simple.cc"]}
{"id": "C151", "title": "Clearing and renaming mesh sets", "statement": "A set that has been cleared is empty, is not found under its old kind any more, and can be filled again like a new set: entities added to it become members, split into owned and ghost entities. A renamed set is found under its new name, keeps its entities, and no other set is affected. The part about filling again is false: entities added one by one are dropped, entities added as a list are listed under ALL only, and asking for the number of entities of the set's kind aborts.", "quantifier": "all sets, all histories of additions and removals after clear, all meshes and all registered sets", "why_tests_cant": "No finite number of histories shows that nothing ever enters a cleared set, or that renaming leaves every other set and query alone.", "anchors": ["src/mesh/MeshSet.hh: clear (245-252), set_name (159-161), num_entities (193-198)", "src/mesh/MeshSet.cc: add_entity, add_entities", "src/mesh/Mesh.cc: entity_get_type (2308-2350), find_meshset"]}
{"id": "C152", "title": "State managers of one mesh do not disturb each other", "statement": "Any number of state managers may be created on one mesh, used in turns and destroyed. Each gives the answers - about materials, their cells, state vectors and values - that it would give if its operations were the only ones on the mesh. False for materials of the same name: the two managers share the mesh set, each gets the other's cells in material_cells but not in cell_materials, and a manager made after another one was destroyed starts with the old cells.", "quantifier": "all meshes with their sets, all interleaved histories of creations, destructions and operations of all managers, all queries", "why_tests_cant": "Non-interference is about all interleavings of all operations; a test tries one.", "anchors": ["src/statemanager/JaliState.cc: add_material (59-96), add_cells_to_material, rem_material", "src/statemanager/JaliState.h: State::create, data members (1434-1462)", "src/mesh/MeshSet.cc: make_meshset"]}
{"id": "C153", "title": "State vectors that outlive their state manager", "statement": "A state vector object of the program's own remains usable after the state manager is gone: its values are those it had. False for multi-material vectors: every element access aborts, and assign silently removes all materials and values of the vector. While the manager lives, going through the weak pointer is the same as using the manager.", "quantifier": "all histories before the manager is destroyed, all vectors, elements and assigned arrays", "why_tests_cant": "Lifetime property over all histories and vectors.", "anchors": ["src/statemanager/JaliStateVector.cc: state_get_num_materials, state_get_material_set (64-79)", "src/statemanager/JaliStateVector.h: assign (766-815), operator() (888-929), mystate_ (155)"]}
{"id": "C154", "title": "The regular mesh that MSTK holds is the generated mesh, cell by cell and face by face", "statement": "After generate_regular_mesh in three dimensions, for any block of positive size inside a grid of positive size, every edge and face that MSTK looks for when faces and cells are given by their vertices already exists, so MSTK creates no entities of its own (the counts are those generated, and every entity keeps its global id). The mesh held has the generated edges with their ends, the generated faces with their corners in order, and each cell has six different faces, one on each side of the hexahedron, used in the direction in which it is counterclockwise as seen from outside. All the assumptions that the properties of queries make about meshes hold: edges have two ends, faces are closed walks through different vertices, a face has at most one cell on each side, the surface of a cell is closed. face_get_cells of a face returns exactly the cells that have all its corners, each once: one cell on the boundary of the block, two inside.", "quantifier": "all domains, all grid sizes, all blocks inside the grid, all faces and cells of the mesh", "why_tests_cant": "the identification of sides by vertices must succeed for every cell of every grid size and block offset; tests use one or two sizes", "anchors": ["src/mesh/mesh_mstk/Mesh_MSTK.cc: generate_regular_mesh", "src/mesh/mesh_mstk/Mesh_MSTK.cc: MF_Set_Vertices, MR_Set_Vertices calls", "src/mesh/mesh_mstk/Mesh_MSTK.cc: face_get_cells_internal"]}
{"id": "C155", "title": "Volumes, centroids, areas and normals of a regular MSTK mesh are those of the grid", "statement": "On a mesh made by the constructor of regular meshes in three dimensions, cell_volume of every cell is the volume of the domain divided by the number of cells of the grid and cell_centroid is the middle of the cell; face_area is the product of the two extents of the face and face_centroid the middle between two opposite corners; the normals of the six faces of a cell with respect to it, in the order of cell_get_faces, are minus and plus the areas along the axes; the volumes of the cells of a block add up to the volume of the block. Faces flipped on a rank make no difference.", "quantifier": "all domains, all grid sizes, all blocks inside the grid, all cells and faces, all face flips", "why_tests_cant": "tests compare the geometry of a few cells of one mesh; the statement is about every cell of every grid, for every orientation in which MSTK may store a face", "anchors": ["src/mesh/mesh_mstk/Mesh_MSTK.cc: Mesh_MSTK::Mesh_MSTK(x0,y0,z0,x1,y1,z1,nx,ny,nz,...)", "src/mesh/mesh_mstk/Mesh_MSTK.cc: generate_regular_mesh", "src/mesh/Mesh.cc: compute_cell_geometry, compute_face_geometry, face_normal", "src/geometry/Geometry.cc: polyhed_get_vol_centroid, polygon_get_area_centroid_normal"]}
{"id": "C156", "title": "The regular quadrilateral mesh that MSTK holds is the generated mesh, with the geometry of the grid", "statement": "After generate_regular_mesh in two dimensions, for any block of positive size inside a grid, the mesh MSTK holds has the generated vertices and edges, and each cell has its four edges in the generated order and directions; it is a mesh of closed, simple polygons in which two cells never run along an edge in the same direction. face_get_cells of an edge returns exactly the cells that use it, each once: one on the boundary of the block, two inside. cell_volume is the area of the domain divided by the number of cells, cell_centroid is the middle of the cell, the normals of the sides of a cell in the order of cell_get_faces are down, right, up, left with the length of the side, and the areas of the cells of a block add up to the area of the block.", "quantifier": "all domains, all grid sizes, all blocks inside the grid, all cells and edges, all face flips", "why_tests_cant": "an edge is created by whichever cell meets it first and reused by the other in the opposite direction; this must come out right for all sizes, offsets and positions", "anchors": ["src/mesh/mesh_mstk/Mesh_MSTK.cc: Mesh_MSTK::Mesh_MSTK(x0,y0,x1,y1,nx,ny,...)", "src/mesh/mesh_mstk/Mesh_MSTK.cc: generate_regular_mesh (2D)", "src/mesh/Mesh.cc: compute_cell_geometry, face_normal"]}
{"id": "C157", "title": "Both mesh frameworks generate the same mesh", "statement": "For every box and all numbers of cells, the regular mesh that Mesh_MSTK generates on one rank and the mesh of Mesh_simple are the same up to the numbers of cells and faces: there are renumberings of cells and faces under which corresponding cells have the same corner points, the same faces, the same volume, centroid and outward face normals, and corresponding faces have the same corner points, area, centroid and the same cells on their sides. Mesh_MSTK numbers the cells with the index in Z direction running fastest, Mesh_simple with the index in X direction running fastest.", "quantifier": "all boxes with positive extents and all positive numbers of cells in the three directions", "why_tests_cant": "A test compares the frameworks for a few sizes; the two numberings differ and the correspondence depends on all three numbers of cells.", "anchors": ["src/mesh/mesh_mstk/Mesh_MSTK.cc: generate_regular_mesh", "src/mesh/mesh_simple/Mesh_simple.cc: Mesh_simple::update_internals_3d_", "src/mesh/Mesh.cc: cell_volume, cell_centroid, face_area, face_normal, face_get_cells"]}
{"id": "C158", "title": "The BLOCK partitioner recognises the regular meshes of MSTK", "statement": "Asking the regular three-dimensional mesh that Mesh_MSTK generates on one rank for a BLOCK partitioning into any number of parts from one to the number of cells succeeds: the search for a regular structure finds the number of cells in each direction whatever the numbers of cells, faces and the directions of the faces are, the parts are boxes of lattice cells that tile the lattice, and every cell is in exactly one part.", "quantifier": "all boxes with positive extents, all positive numbers of cells in the three directions, all numbers of parts up to the number of cells", "why_tests_cant": "The walk of the search goes through faces in the order in which MSTK lists them and with normals oriented by its face directions; it has to arrive at the far end for every number of cells in each direction.", "anchors": ["src/mesh/Mesh.cc: get_partitioning_by_blocks (3262-3421)", "src/mesh/mesh_mstk/Mesh_MSTK.cc: generate_regular_mesh"]}
{"id": "C159", "title": "The BLOCK partitioner recognises the regular MSTK meshes in the plane", "statement": "Asking a block of a regular two-dimensional mesh generated by Mesh_MSTK for a BLOCK partitioning into any number of parts from one to the number of cells succeeds: the search for a regular structure finds the number of cells in both directions, the parts are rectangles of lattice cells that tile the lattice, and every cell is in exactly one part.", "quantifier": "all rectangles with positive extents, all positive numbers of cells in the two directions, all blocks of the mesh, all numbers of parts up to the number of cells", "why_tests_cant": "In the plane the search walks through edges, with normals turned from the direction in which the edge was created; which cell created an edge depends on the position in the mesh, so the walk has to be right for every size.", "anchors": ["src/mesh/Mesh.cc: get_partitioning_by_blocks (3262-3421)", "src/mesh/mesh_mstk/Mesh_MSTK.cc: generate_regular_mesh (2D)"]}
{"id": "C160", "title": "Volumes, centroids and point location on one-dimensional meshes", "statement": "On a one-dimensional mesh cell_volume(c) is the width of the cell (Cartesian) or the volume of the spherical shell between its radii (spherical), positive, and the volumes add up to that of the domain; cell_centroid(c) is the mean position of the points of the cell with respect to volume; point_in_cell is true exactly for the points of the closed cell, so every point of the domain is found, in one cell only unless it is the position of a node.", "quantifier": "all one-dimensional meshes with increasing node positions, all geometries, all cells and points", "why_tests_cant": "real positions and any number of cells; the tests look at one mesh of a few cells in one geometry", "anchors": ["src/mesh/Mesh.cc: compute_cell_geometry (1199-1211), point_in_cell", "src/geometry/Geometry.cc: segment_get_vol_centroid (461-472)", "src/mesh/mesh_simple/Mesh_simple.cc (1D)"]}
{"id": "C161", "title": "The BLOCK partitioner ends", "statement": "Asking any mesh for a BLOCK partitioning returns: the search for a regular structure, which walks from cell to cell along each axis, stops.", "quantifier": "all meshes, all numbers of parts", "why_tests_cant": "termination on arbitrary polygonal and polyhedral meshes; the walk has no bound and no record of the cells it has visited", "anchors": ["src/mesh/Mesh.cc: get_partitioning_by_blocks (3262-3421)"]}
{"id": "C162", "title": "A new mesh has only the fields it was given", "statement": "get_field_info on a newly created mesh reports exactly the fields the mesh was read with, none for a generated mesh, so init_from_mesh makes a state vector for each of these and no other; attributes the library keeps for itself are not visible.", "quantifier": "all 2D and 3D MSTK meshes, generated, read or extracted, with or without faces, edges and boundary ghosts, on one or several processors", "why_tests_cant": "depends on every combination of construction options and on what each construction step leaves behind; tests look only for the fields they stored", "anchors": ["src/mesh/mesh_mstk/Mesh_MSTK.cc: post_create_steps_, label_celltype, create_boundary_ghosts, init_pedge_dirs, get_field_info", "src/statemanager/JaliState.cc: init_from_mesh"]}
{"id": "C163", "title": "Extraction from a mesh that was itself extracted", "statement": "A mesh can be extracted from an extracted mesh, any number of times. Asking for parents again and again (entity_get_parent) then leads from every entity of the last mesh to one of the first mesh: cells have the nodes, in order, the faces with their directions, and the type, faces the nodes in order and nodes the coordinates of that ancestor; different nodes and faces have different ancestors; the ancestors are those of the cells listed last and nothing else. The same for a surface extracted at the end.", "quantifier": "all 2D and 3D meshes, all finite histories of extractions with any lists of cells at each step", "why_tests_cant": "tests extract once; the claim is over histories of any length, where each step renumbers everything", "anchors": ["src/mesh/mesh_mstk/Mesh_MSTK.cc: extract_mstk_mesh, entity_get_parent"]}
{"id": "C164", "title": "An extracted mesh has the geometry of its parent", "statement": "cell_volume, cell_centroid and point_in_cell of a cell of an extracted mesh give the same answers as for its parent cell in the source mesh; face_area, face_centroid and face_normal (with and without a cell) of its faces the same as for their parents. The cells of an extracted surface have the area and centroid of the listed faces, its faces the length and midpoint of the edges they were made of. All this after any number of extractions one after another.", "quantifier": "all 2D and 3D meshes with real coordinates, all finite histories of extractions, all lists of cells and faces", "why_tests_cant": "the geometry is recomputed on the new mesh from renumbered faces with recomputed directions; equality must hold for all shapes of cells and all lists", "anchors": ["src/mesh/mesh_mstk/Mesh_MSTK.cc: extract_mstk_mesh", "src/mesh/Mesh.cc: compute_cell_geometry, compute_face_geometry, compute_edge_geometry, face_normal, point_in_cell"]}
{"id": "C165", "title": "Every partitioner divides the owned cells", "statement": "A mesh made with tiles gets as many tiles as asked for, and each owned cell belongs to exactly one tile, whichever partitioner (INDEX, BLOCK, METIS, ZOLTAN_GRAPH, ZOLTAN_RCB) is preferred, with METIS built in or not, in any dimension. METIS is used exactly if it is preferred, available and the mesh is not one-dimensional; a partitioner that is not available is replaced by division of the ids.", "quantifier": "all meshes, partitioners, builds, dimensions, numbers of tiles and layers, and all answers of METIS with part numbers in range", "why_tests_cant": "tests run one build with a few meshes and partitioners; the fall-backs are compile-time alternatives", "anchors": ["src/mesh/Mesh.cc: get_partitioning, build_tiles", "src/mesh/MeshTile.cc"]}
{"id": "C166", "title": "Validity checks of the enumerations", "statement": "entity_valid_kind holds for every kind of entity a mesh has and for no catch-all kind; valid_entity_type and cell_valid_type hold for every value but the unknown one. False for entity_valid_kind: of the nine kinds of entities it rejects SIDE, WEDGE, CORNER, FACET and BOUNDARY_FACE.", "quantifier": "all enumerators of the three enumerations", "why_tests_cant": "the checks are comparisons with end points; a test of some values does not settle the table", "anchors": ["src/mesh/MeshDefs.hh: entity_valid_kind, valid_entity_type, cell_valid_type"]}
{"id": "C167", "title": "Lifetime of meshes, tiles, sets, state managers and vectors", "statement": "For every order in which a program creates, copies and gives up its pointers to meshes, tiles, mesh sets, state managers, state vectors and geometric models: an object exists exactly as long as the program can reach it through pointers that keep it, so nothing leaks and nothing held disappears; everything an existing object stores can be asked; a state manager or a vector on a mesh keeps the mesh, and the mesh its tiles. Anything can be asked of any reachable object as long as the program keeps all its meshes and geometric models. Without this, false: tiles, sets and vectors on tiles do not keep the mesh, a mesh keeps neither its geometric model nor the mesh it was extracted from, so mesh(), region queries and entity_get_parent then use destroyed objects.", "quantifier": "all histories of creating, copying and dropping pointers, all objects, all questions", "why_tests_cant": "depends on the order of destruction in the whole program; tests keep everything until the end", "anchors": ["src/mesh/Mesh.hh: meshtiles, meshsets_, geometric_model_", "src/mesh/MeshTile.hh: mesh_", "src/mesh/MeshSet.hh: mesh_", "src/mesh/mesh_mstk/Mesh_MSTK.cc: ~Mesh_MSTK, entity_get_parent", "src/statemanager/JaliState.h: State::create, mymesh_", "src/statemanager/JaliStateVector.h: mydomain_"]}
{"id": "C168", "title": "Region sets do not depend on the numbers of the entities", "statement": "Build the set of a region on two meshes whose entities are the same up to their numbers: one set is the other renumbered. In particular, for the same box, numbers of cells and geometric model, Mesh_simple and Mesh_MSTK give the same sets of cells, faces and nodes for every box, plane and polygon region and for every logical region made of these, at any depth of nesting. False for point regions: between nodes at the same distance the one with the smaller number decides which cells are looked at.", "quantifier": "all boxes and numbers of cells, all geometric models, all kinds of entities, all regions and depths of nesting", "why_tests_cant": "a test compares two frameworks on some meshes and regions", "anchors": ["src/mesh/Mesh.cc: build_set_from_region, cell_centroid, face_centroid", "src/mesh/mesh_simple/Mesh_simple.cc", "src/mesh/mesh_mstk/Mesh_MSTK.cc", "src/geometry/*Region.cc"]}
{"id": "C169", "title": "Box and plane sets of a regular mesh", "statement": "On a regular mesh of any box and any numbers of cells, the set of a box region holds exactly the cells whose centre x0 + (i + 1/2) hx, y0 + (j + 1/2) hy, z0 + (k + 1/2) hz is in the box up to 1e-8 (nodes: the lattice point), and the set of a plane region exactly the nodes on the plane and the faces with all corners on it up to 1e-12, each once; with Mesh_simple and, in its own numbering, with Mesh_MSTK.", "quantifier": "all boxes, numbers of cells, corners and normals of regions, geometric models with the region", "why_tests_cant": "tests build some sets on some meshes; off-by-one errors at the ends of boxes depend on the numbers", "anchors": ["src/mesh/Mesh.cc: build_set_from_region", "src/geometry/BoxRegion.cc", "src/geometry/PlaneRegion.cc", "src/mesh/mesh_simple/Mesh_simple.cc", "src/mesh/mesh_mstk/Mesh_MSTK.cc"]}
{"id": "C170", "title": "Computations in loops over the tiles of a mesh", "statement": "Looping over the tiles and, in each, over the cells it owns comes across every cell owned by the rank once, in order. So a computation written as a loop over the tiles gives what the loop over the mesh gives: in the example ToyNumerics the average density of a cell is the mean of the densities of the cells sharing a node with it, and the velocity at a node is the sum over its cells of average density times centroid, whatever the numbers of tiles and halo layers.", "quantifier": "all 3D meshes made by MSTK, all numbers of tiles and halo layers, all densities and centroids", "why_tests_cant": "real values, any mesh and any number of tiles; ToyNumerics prints its results and nothing checks them", "anchors": ["examples/ToyNumerics/ToyNumerics.cc: main (166-235), initialize_data (279-317)", "src/mesh/MeshTile.hh: cells, nodes (232, 286)", "src/mesh/Mesh.cc: build_tiles"]}
{"id": "C171", "title": "Direct access to the row of a material", "statement": "In a multi-material vector, get_raw_data(m), get_matdata(m), begin(m)..end(m) and size(m) give the values of material m: as many as num_material_cells(m), the k-th one is the value operator() gives for the k-th of material_cells(m) in either layout, and writing it is writing through operator(). Writing, resize(m, n) and clear(m) change this row only, as for a std::vector; other rows, other vectors and the materials stay. size() is the number of materials.", "quantifier": "all allowed histories of materials and vectors, all materials, positions, sizes and values", "why_tests_cant": "relates two ways to reach the same storage for every history; independence of all other rows and vectors", "anchors": ["src/statemanager/JaliStateVector.h:get_raw_data", "src/statemanager/JaliStateVector.h:get_matdata", "src/statemanager/JaliStateVector.h:MultiStateVector"]}
{"id": "C172", "title": "Sets of box and line regions on regular meshes in the plane", "statement": "On a block of a regular mesh in the plane made by Mesh_MSTK on one rank, the set built for a box region holds, once each, exactly the cells whose centres, the faces whose mid-points and the nodes whose positions are in the box up to 1e-8; the set built for a plane region (a line) holds exactly the nodes on the line, the faces with both ends on it and the cells with all four corners on it, up to 1e-12. The number of a cell at position (i,j) is i*ny+j, of a node i*(ny+1)+j. No cell is in the set of a line unless the normal or the cells are tiny.", "quantifier": "every domain, numbers of cells, block, box, point and normal, and geometric model without labeled regions", "why_tests_cant": "A test checks a few boxes on one mesh; which entities are in must be right for every mesh and region", "anchors": ["src/mesh/Mesh.cc:build_set_from_region", "src/mesh/mesh_mstk/Mesh_MSTK.cc:generate_regular_mesh", "src/geometry/BoxRegion.cc", "src/geometry/PlaneRegion.cc"]}
{"id": "C173", "title": "Sides, wedges and corners of regular meshes", "statement": "On a regular mesh made by Mesh_MSTK on one rank, with sides and corners requested, in space: a cell has 24 sides and eight corners; side_volume of each side is 1/24, wedge_volume of each wedge 1/48 and corner_volume of each corner 1/8 of the volume of a cell, that is of the volume of the domain divided by the number of cells in it; a corner has six wedges; the normal of a side is a quarter of the normal of its face with respect to its cell. In the plane: a cell has four sides and four corners; a side and a corner have a quarter, a wedge an eighth of the area of a cell; the normal of a side is that of its face with respect to its cell.", "quantifier": "every domain, numbers of cells, block of it, cell, side, wedge and corner", "why_tests_cant": "A test checks one or two meshes; the volumes must be right for all of them", "anchors": ["src/mesh/Mesh.cc:compute_side_geometry", "src/mesh/Mesh.cc:compute_corner_geometry", "src/mesh/Mesh.cc:cache_side_info", "src/mesh/Mesh.cc:cache_corner_info", "src/mesh/Mesh.cc:side_volume", "src/mesh/Mesh.cc:wedge_volume", "src/mesh/Mesh.cc:corner_volume", "src/mesh/Mesh.cc:side_facet_normal", "src/mesh/mesh_mstk/Mesh_MSTK.cc:generate_regular_mesh"]}
{"id": "C174", "title": "Sets of cells of point regions on regular meshes", "statement": "On a block of a regular mesh of hexahedra made by Mesh_MSTK on one rank, the set of cells built for a point region holds, once each, exactly the cells whose closed box contains the point: one cell for a point inside a cell, two, four or eight for a point on a face, an edge or a node, none for a point outside of the block; the set is registered under the name of the region. (The cells are wider than 1e-16 and some node is nearer than 1e8.) point_in_cell of a cell of such a mesh is true exactly for the points of its closed box.", "quantifier": "every domain, numbers of cells, block of it, point", "why_tests_cant": "Only the cells at the node nearest to the point are examined; that this finds all cells that contain the point depends on the position of the point, which a test fixes", "anchors": ["src/mesh/Mesh.cc:build_set_from_region", "src/mesh/Mesh.cc:point_in_cell", "src/mesh/mesh_mstk/Mesh_MSTK.cc:generate_regular_mesh", "src/geometry/Geometry.cc:point_in_polyhed"]}
{"id": "C175", "title": "Sets of cells of point regions on regular meshes in the plane", "statement": "On a block of a regular mesh in the plane made by Mesh_MSTK on one rank, the set of cells built for a point region holds exactly one cell, whose closed rectangle contains the point, for every point of the closed rectangle of the block, also if the point is on a side or at a corner of cells, and no cell for a point outside of it. (The cells are wider than 1e-16 and some node is nearer than 1e8; on other meshes see C178.)", "quantifier": "every domain, numbers of cells, block of it, point", "why_tests_cant": "Which of several cells gets a point on a common side depends on comparisons in the crossing rule of point_in_polygon, and on the nearest node; tests use points inside of cells", "anchors": ["src/mesh/Mesh.cc:build_set_from_region", "src/mesh/Mesh.cc:point_in_cell", "src/mesh/mesh_mstk/Mesh_MSTK.cc:generate_regular_mesh", "src/geometry/Geometry.cc:point_in_polygon"]}
{"id": "C176", "title": "Sets of cells of point regions on structured meshes", "statement": "On a structured mesh of Mesh_simple, in three dimensions or in one, the set of cells built for a point region holds exactly the cells whose closed box (interval) contains the point: all cells around it when the point is on a face, an edge or a node, and none when it is outside of the mesh. In three dimensions Mesh_MSTK puts the same cells into the set, up to the numbers both frameworks give to the cells. (The cells are wider than 1e-16 and some node is nearer than 1e8; on other meshes see C178.)", "quantifier": "every box, numbers of cells, coordinates of nodes in one dimension, point", "why_tests_cant": "The search only looks at the cells around the nearest node; that these are enough for points on faces, edges and nodes, where several nodes are equally near, must hold for every mesh and point", "anchors": ["src/mesh/Mesh.cc:build_set_from_region", "src/mesh/Mesh.cc:point_in_cell", "src/mesh/mesh_simple/Mesh_simple.cc:node_get_cells", "src/mesh/mesh_simple/Mesh_simple.cc:update"]}
{"id": "C177", "title": "Types of cells of generated meshes, labeled sets of structured meshes", "statement": "The type that a mesh reports for a cell is that of its shape: on meshes of Mesh_simple and on regular meshes of Mesh_MSTK a cell has the numbers of nodes and faces, and each face the number of nodes, that the type says, which is hexahedron in three dimensions and quadrilateral in the plane. On a structured mesh the set of a labeled set region is made and is empty.", "quantifier": "every size of the mesh, in one, two and three dimensions, every block, cell, kind and label", "why_tests_cant": "The type is a constant in one framework and computed from the faces in the other; that it fits must hold for every cell of every mesh", "anchors": ["src/mesh/mesh_simple/Mesh_simple.cc:cell_get_type", "src/mesh/mesh_simple/Mesh_simple.cc:get_labeled_set_entities", "src/mesh/mesh_mstk/Mesh_MSTK.cc:cell_get_type", "src/mesh/mesh_mstk/Mesh_MSTK.cc:MRegion_Celltype", "src/mesh/Mesh.cc:build_set_from_region"]}
{"id": "C178", "title": "Point regions do not depend on the unit of length", "statement": "The set of cells of a point region on a structured mesh is made and holds the cells that contain the point, however large or small the cells are, that is, in whatever unit of length the mesh is given.", "quantifier": "every structured mesh in one and three dimensions, every size of cells, every point", "why_tests_cant": "The search of the nearest node has fixed distances in it, 1e8 and 1e-16; tests use meshes of unit size", "anchors": ["src/mesh/Mesh.cc:build_set_from_region", "src/mesh/mesh_simple/Mesh_simple.cc:node_get_cells"]}
{"id": "C179", "title": "Sets of boxes and planes on one-dimensional meshes", "statement": "On a one-dimensional structured mesh the set of a box (an interval) holds exactly the cells whose middle, and the faces and nodes whose position, is in the box up to 1e-8; the set of a plane (a point) holds exactly the faces and nodes at it up to 1e-12, and no cells.", "quantifier": "every number of cells, all increasing positions of nodes, Cartesian and spherical geometry, every box and plane", "why_tests_cant": "The sets are tested in two and three dimensions for one geometric model; which entities a region holds is a statement about all meshes and regions", "anchors": ["src/mesh/Mesh.cc:build_set_from_region", "src/mesh/Mesh.cc:compute_face_geometry", "src/mesh/mesh_simple/Mesh_simple.cc:face_get_coordinates", "src/geometry/RegionBox.cc:inside", "src/geometry/RegionPlane.cc:inside"]}
{"id": "C180", "title": "Node set of a point region", "statement": "The NODE set of a POINT region is made and holds exactly the nodes whose coordinates all differ by less than 1e-12 from those of the point; on a regular mesh this is the node at that lattice position, the same in both mesh frameworks.", "quantifier": "all meshes and points; regular and structured meshes in one, two and three dimensions of any size", "why_tests_cant": "Which nodes are found depends on the positions and the numbering of all nodes", "anchors": ["src/mesh/Mesh.cc:build_set_from_region", "src/geometry/PointRegion.cc:PointRegion::inside", "src/mesh/mesh_simple/Mesh_simple.cc:node_get_coordinates", "src/mesh/mesh_mstk/Mesh_MSTK.cc:node_get_coordinates"]}
{"id": "C181", "title": "Which regions make sets of which kinds", "statement": "build_set_from_region rejects a region of a type that does not describe the kind of entity asked for with an exception, and makes the set of any other region; a region that valid_region_name accepts for a kind can be made into a set of that kind by find_meshset_from_region.", "quantifier": "all kinds of entities, types of regions, geometric models and sets made before", "why_tests_cant": "All combinations of kinds and types with all registries; tests use the combinations that work", "anchors": ["src/mesh/Mesh.cc:build_set_from_region", "src/mesh/Mesh.cc:valid_region_name", "src/mesh/Mesh.cc:find_meshset_from_region"]}
{"id": "C182", "title": "Laws of sets hold for mesh sets", "statement": "Expressions of merge, intersect, subtract and complement of mesh sets of one kind that are equal by the laws of sets (absorption, distribution, De Morgan, double complement, ...) give sets of the same owned and the same ghost entities; every intermediate result can be the argument of the next operation, and the sets the expression started from are unchanged.", "quantifier": "all meshes, all families of sets and all expressions over them, of any size", "why_tests_cant": "Infinitely many laws and expressions; tests apply one operation to a few sets", "anchors": ["src/mesh/MeshSet.cc:merge", "src/mesh/MeshSet.cc:intersect", "src/mesh/MeshSet.cc:subtract", "src/mesh/MeshSet.cc:complement"]}
{"id": "C183", "title": "Sets of logical regions on regular meshes", "statement": "On a structured mesh in three dimensions, on the regular mesh of MSTK in space and on a block of one in the plane, the set of a logical region made of boxes holds exactly the cells whose centre is in the region, and the set of nodes of one made of boxes, planes and polygons exactly the nodes in it, where being in a logical region is the union, intersection, difference or complement of being in its components, at any depth of nesting (unions and differences of two or more components, the first one of a difference not named again, not nested in a circle).", "quantifier": "all meshes, all geometric models of such regions, all depths of nesting, meshes on one rank without sets made before", "why_tests_cant": "All formulas of regions, positions and sizes of meshes", "anchors": ["src/mesh/Mesh.cc:build_set_from_region", "src/geometry/LogicalRegion.cc", "src/mesh/mesh_simple/Mesh_simple.cc", "src/mesh/mesh_mstk/Mesh_MSTK.cc"]}
{"id": "C184", "title": "Region sets on a distributed mesh", "statement": "Given a mesh in one piece and the same mesh distributed to ranks, each rank with the entities it owns and ghosts, and a geometric model of boxes, planes, polygons and logical regions of them: the set of a region can be built in one piece and on every rank. The entities of the set of the whole mesh are, over all ranks, each in the OWNED list of the set of exactly the one rank that owns it, and the OWNED lists hold no other entity; the GHOST list of each rank holds exactly the ghosts of the rank that are in the set of the whole mesh. The result is thus the same on any number of ranks.", "quantifier": "all meshes, all distributions to any number of ranks with any ghosts, all geometric models of such regions, any depth of nesting", "why_tests_cant": "All meshes, partitions, ghost layers and formulas of regions", "anchors": ["src/mesh/Mesh.cc:build_set_from_region", "src/mesh/MeshSet.hh:MeshSet::entities", "src/mesh/MeshSet.cc:complement"]}
{"id": "C185", "title": "Copies of mesh sets", "statement": "A copy of a mesh set is a new set of the same contents: every query gives what it gives on the original. It is not known to the mesh: the sets that the mesh lists and finds by name are the same as before. The copy and the original live on independently: after any history of additions, removals, renamings and clearings through the pointers to them and to the other sets, in whatever order, each set is what its own changes alone make of it, and the history goes through if each set can take its own changes.", "quantifier": "all sets, all meshes, all interleaved histories of changes to any of the sets", "why_tests_cant": "All interleavings of changes to sets", "anchors": ["src/mesh/MeshSet.hh:MeshSet(MeshSet const&)", "src/mesh/MeshSet.cc:add_entity", "src/mesh/MeshSet.cc:rem_entity"]}
{"id": "C186", "title": "Materials by name", "statement": "After any history of calls of a state manager that goes through - materials added and removed by number and by name, cells added, state vectors added, copied and written, whatever cell sets the mesh has - the names of the materials are those that the history asks for, in the order of addition and all different (a name in use is not added again). material_index_by_name gives the place of a name in this order and -1 for other names; material_set_by_name gives the set that material_set gives for this number, and a null pointer for other names. rem_material_by_name, where it has a defined result, removes exactly the material of the name: the others keep their names, sets, cells and order; it does nothing if no material has the name.", "quantifier": "all histories of calls of a state manager, all names, all meshes with any sets", "why_tests_cant": "All histories", "anchors": ["src/statemanager/JaliState.h:material_index_by_name", "src/statemanager/JaliState.h:material_set_by_name", "src/statemanager/JaliState.h:rem_material_by_name", "src/statemanager/JaliState.cc:State::add_material"]}
{"id": "C187", "title": "Sides of one-dimensional meshes in spherical and cylindrical geometry", "statement": "On a one-dimensional mesh in spherical geometry the volume of a side is the positive volume of the shell between its node and the centroid of its cell; the volumes of the two sides of a cell add up to the volume of the cell; the normal of a side points out of the cell and is as long as the area of the sphere at the node. The volumes of all sides of a mesh add up to the volume of the domain; a wedge has half the volume of its side, and the corner at a node of a cell has the volume of the side there. In cylindrical geometry sides have volumes and normals as well.", "quantifier": "all one-dimensional meshes at radii that are not negative, all positions of nodes and centroids, all cells", "why_tests_cant": "All positions of nodes", "anchors": ["src/mesh/Mesh.cc:compute_side_geometry", "src/mesh/Mesh.cc:side_volume", "src/mesh/Mesh.cc:side_facet_normal"]}
