# Formal model of lanl/Jali in Lean 4 — design

## Layout

* `lean/Verif/Model/*.lean` — the model. Total, computable functions, one per function (or
  loop) of the C++ code, each with a comment citing file and lines.
* `lean/Verif/Spec/*.lean` — small specifications used by the theorem statements, written without
  reference to the helpers of the model.
* `lean/Verif/Proof/*.lean` — helper lemmas.
* `lean/Verif/Props/*.lean` — the property theorems only, each followed by an `example` that
  exhibits a concrete, non-trivial instance meeting the hypotheses.

## Modelling conventions

* C++ `int` is `Nat` or `Int` without wrap-around (no property listed is about overflow).
* `double` is replaced by exact arithmetic (`Rat`, `Int`, a parameter type, or Mathlib's `ℝ` where a
  square root is taken; those definitions are noncomputable); rounding, NaN and
  infinities are not modelled. Theorems about coordinates are therefore statements about the algorithm in
  exact arithmetic.
* `std::vector`/arrays are `List`s or functions with point update. Reads and writes out of bounds, iterators
  of another container, dangling pointers and failed `assert`s are *distinct outcomes* (`none` /
  `Except.error`), not totalised away, wherever the code can reach them.
* Loops are folds or structural recursion; loops with no static bound take fuel, and the theorem says that
  the fuel suffices.
* Pointer identity (shared_ptr) is modelled by an index into a store when aliasing matters
  (mesh set registry, state vectors); otherwise by value.
* Dependencies not available here (MPI, MSTK, METIS, Zoltan, Boost) are parameters: whatever they
  return, within the contract stated.

## Plan per property

| id | what is modelled | proof |
|----|------------------|-------|
| C01–C03 | `block_partition_regular_mesh` literally: bisection loop, block population, uneven splitting with blanking and squeezing; loop with fuel | measure (number of blocks grows each sweep while a block with two cells is left); count of blocks containing a cell is invariant under every split |
| C04–C12 | `Mesh_simple::update_internals_3d_`: the index functions and the loops that fill the flat arrays; the query functions reading them | mixed radix arithmetic; a general lemma on folds of array writes; general lemma on slot-append |
| C13 | coordinates array, get/set | frame lemma over histories |
| C14 | `update_internals_1d_` | as C04–C12 |
| C15–C17 | the partition loops | loop invariants |
| C18–C24 | `MeshSet` with owned/ghost/all lists and reverse map, error outcomes for undefined behaviour | set semantics by list lemmas; negations by concrete witnesses |
| C25–C28 | `MeshTile` constructor over an abstract mesh (arbitrary incidence lists), `build_tiles` | invariants over the tile list |
| C29–C32 | `cache_side_info`, `cache_wedge_info`, `cache_corner_info` and queries over arbitrary incidence lists | loop invariants |
| C33 | constructor flag logic | case analysis |
| C34 | side geometric cache as the vectors it appends to | history; negation by witness |
| C35–C37 | set registry, `build_set_from_region` (logical part), type tables | induction over histories |
| C38–C44 | `State`, `UniStateVector`, `MultiStateVector` over an explicit heap | invariants over histories |
| C45–C48, C85, C86 | `MeshFactory` (MeshFactory.hh, MeshFactory.cc: options, `reset_options`, capability queries, all `create` overloads; Model/Factory.lean) with an arbitrary environment for what mesh constructors do on each rank | options as a state machine over histories of calls; each `create` as a program of collective sums, run by any number of ranks in lockstep; a rank in a collective others never reach waits for ever |
| C49, C50, C55, C56, C87–C92 | regions, geometric models and domains (`geometry/*Region.*`, `GeometricModel.*`, `Domain.*`; Model/Regions.lean), NaN of 0/0 explicit | coordinate-wise induction over the loops; for polygons: projections of strictly convex polygons, the crossing test of C52, distance bounds in ℝ; histories of `Add_Region`/`Add_*` by induction |
| C57, C93 | `error_handling/exceptions.*` with one variable per translation unit and an arbitrary assignment of raising places to units; `errors.*` with the buffers of `snprintf` (Model/Exceptions.lean) | induction over programs; digits of numerals |
| C37 | `cache_type_info`, `cache_extra_variables`, `entity_get_type`, `num_entities`, entity lists (Model/EntityTypes.lean) on top of Model/Sides.lean | loops over lists as array updates; C29–C32 for sides, wedges, corners |
| C94–C98 | `Mesh_MSTK::generate_regular_mesh` in 3D with its arrays, templates and loops (Model/MstkGenerate.lean), the part of the constructor that chooses the block (Model/MstkConstruct.lean) | closed form of the loops; mixed-radix numbering; C01–C03 for the distribution |
| C99–C102 | the same in 2D, edges found by `MVs_CommonEdge` (Model/MstkGenerate2D.lean) | loop invariant over the cells in lexicographic order |
| C103, C104 | MSTK entities as records in arrays of handles with ownership, id assignment and handle↔id arrays (Model/MstkMesh.lean) | invariant `Numbered` of the assignment loop |
| C105, C106 | connectivity queries of `Mesh_MSTK` over these records | unfolding to relations between handles, `Numbered` as a bijection |
| C107 | directions of edges and faces with flips | cyclic pairs of a simple polygon (Spec/MstkOrient.lean) |
| C108 | ghost directions across ranks | a list of meshes, one for each rank, whose copies match (Spec/MstkWorld.lean); the exchange of attributes by its effect |
| C109 | ordered faces | closed cells (Spec/MstkCells.lean); each edge of the base determines one lateral face |
| C110 | cell types | counting edges over the faces of a closed cell |
| C111 | fields of a mesh | list of attributes; store then get, frame lemma; exact conditions of refusal; order of the database against ids |
| C112 | export to and import from the mesh | C111 with the state model of C38–C44; fold over the vectors |
| C113 | boundary ghosts | one generic fold for regions on faces and faces on edges; numbering of the extended mesh |
| C114 | caches of the base class on top of the MSTK queries | a total query cached in order equals the query; edges of a cell from edges of its faces |
| C115 | sides, wedges, corners of an MSTK mesh | the mesh meets the hypotheses of C29–C32; flips of faces and edges followed to the nodes of a side |
| C116 | entity types and counts of an MSTK mesh | C37 instantiated with the numbering of C103 |
| C117 | public face_get_cells of an MSTK mesh | C64 instantiated; at most two cells from the orientation of regions |
| C118 | tiles of an MSTK mesh | C25–C27 instantiated; halo restated by nodes in common |
| C119 | extraction of 3D cells in a serial run | invariant of the copying loops (copy maps, walks around faces), then answers translated by parents |
| C120 | the extracted 3D mesh | inherited Polygons/Regions; types by counting; cells around translated |
| C121 | edges of an extracted 3D mesh | edges are distinct and used (invariant); parents: negation for every edge |
| C122 | surface from faces of a 3D mesh | invariant of the 2D copying loop; orientation characterised exactly |
| C123 | extraction of 2D cells | the same invariant |
| C124 | refusals of extraction | case analysis of the constructor |
| C125 | absent parents | case analysis of entity_get_parent; negation |
| C126 | labeled sets: lookup by name, owned and ghost entities | numbering invariant on the entities of a set |
| C127 | constructor from names of sets | the list built by List_ChknAdd is the list of ids without repetitions; negations |
| C128 | inherit_labeled_sets | invariant: the attribute copyatt of an entity is the entity whose parent it is; negations |
| C129 | node/cell/face_get_coordinates, node_set_coordinates of Mesh_MSTK | induction over histories of calls; negation for pointers in the plane |
| C130 | geometry of the base class on the queries of an MSTK mesh of polyhedra, with flips | faces as rotations of the corner loop; reversal negates the area vector; closed surfaces: pairing of edge uses |
| C131 | same, compute_cell_geometry | surface handed to polyhed_get_vol_centroid is, up to rotation of loops, the surface of the region; faces seen from both sides cancel in the sum over all cells |
| C132 | same, polygons in the plane | edges of the corner loop; telescoping sums; negation for clockwise triangles |
| C133 | geometry of the sides of MSTK meshes of polyhedra | the mesh as an instance of the solids of C80-C84; flips of faces turn the sides inside out (negation, octahedron cut into two pyramids) |
| C134 | same for sides and corners of MSTK meshes of polygons in the plane | the mesh as an instance of the plane meshes of C80-C84; faces and edges are flipped alike (`flipped_alike`) |
| C135 | loop of `collapse_degen_edges` over an arbitrary `ME_Collapse` | case analysis; induction over the edges |
| C136 | the two loops over sets, for any lists of merged and deleted entities | both loops as a map and a filter (`setAfter_eq`), by induction over the lists; counterexamples |
| C137 | the gathered list of merges and the loops over ghosts | first match in the list; counterexample with two steps |
| C138 | the same, undefined where the code takes the address of element 0 of an empty vector | definitions, for all ranks |
| C139 | `init_set_info` | equivalence with agreement of kinds for all geometric models; counterexamples |
| C140 | the removal of the attribute `copyatt` at the end of `extract_mstk_mesh`, on the state of Model/MstkExtract.lean | marks only on what the clean-up visits (invariant of the copying loops); for faces this needs closed polygons |
| C141, C142 | `init_mesh_from_file_` as the list of calls of MSTK, for any answers | case analysis; counterexamples |
| C143, C144 | the constructor from a file on all ranks in lockstep | maximum over the ranks; induction along ranks with common nodes; counterexamples |
| C145 | `point_in_polygon` on arbitrary polygons | the changes of the answer along a segment are counted edge by edge; the parts that depend on vertices only cancel around the polygon; locally constant functions on connected sets |
| C146 | polygon regions of plane polygons that need not be convex | projection of crossings in the plane of the polygon, C145 |
| C147 | point_in_cell on plane MSTK meshes, all positions of nodes | signed crossings: a convex cell is gone around once or not at all; crossings of common faces cancel, so the number of cells is that of the boundary |
| C148 | point_in_cell on MSTK meshes of polyhedra, all positions of nodes | signed crossings of a vertical line with the triangles of closed surfaces; a surface around a point is hit (slices and central projection), a separated one is not; points in general position nearby |
| C149 | the loop that fills xadj and adjncy, for MSTK meshes (3D, 2D) and Mesh_simple, with the sizes of the arrays | the loop's result in closed form; counting pairs of cells and faces in two ways bounds the array; counts of common faces are symmetric |
| C150 | the search of `get_partitioning_by_blocks` for a regular structure, over the queries of an arbitrary mesh, with face normals and centroids from the geometry model | limits by a fold invariant; the normals of the structured mesh select the far face; the centroid of a flat face lies in its plane; induction along the chain of cells; C62 for the distribution |
| C151 | `clear`, `set_name`, `num_entities(kind, type)` of `MeshSet`, with the type query of the mesh for the kind a cleared set has | induction over histories; look-up theorems of C35 |
| C152 | a mesh with any number of managers, created, used and destroyed in any order; sets belong to the mesh | simulation between the interleaved and the solitary run of one manager, relating sets by name |
| C153 | the weak pointer of a vector to its manager: `state_get_num_materials`, `state_get_material_set`, element access and `assign` through it | equality with C43's operations while alive; case analysis for the expired pointer |
| C154 | the calls of MSTK that `generate_regular_mesh` makes in 3D, and what MSTK is documented to hold afterwards (vertex cycles of faces, edges between them, oriented faces of a region from its eight vertices) | arithmetic of the lattice; the result satisfies the hypotheses (`Polygons`, `Regions`, `OrientedCells`) of the MSTK query theorems |
| C155 | the geometry model of the base class on the mesh of C154 | each face is a parallelogram; the shells are watertight; C130-C132 for the general formula; telescoping for the total volume |
| C156 | the same in 2D: edges made before the faces, `MF_Set_Edges` with directions | as C154/C155 with edges in place of faces |
| C157 | the models of C72 and C155 side by side | both meshes as a lattice of boxes; explicit correspondence of positions; counting |
| C158 | the search of C150 on the mesh of C155 | the renumbering of C157: the limits are the same fold over permuted points, exactly one face of a cell is aligned with a direction, the cells on its sides correspond; the chain of cells is the inverse image of the structured one |
| C159 | the search of C150 on the mesh of C156 | explicit number of the cell at a position, the four edges of a cell with their normals, the cells on both sides of an edge, the centroid of an edge; induction along the chain of cells |
| C160 | compute_cell_geometry, segment_get_vol_centroid and point_in_cell on Mesh_simple's one-dimensional mesh | closed form of each cell, shells as integrals, telescoping sums, induction over the nodes for point location |
| C161 | the search of C150 over an arbitrary mesh | the number of cells further up the axis decreases at every step; a two-cell mesh on which the walk is periodic, for every number of steps |
| C162 | the attributes each construction step leaves on the MSTK mesh (Model/MstkAttributes.lean), get_field_info and init_from_mesh of C111/C112 on top | case analysis over the options, for any attributes of the file; the import theorem of C112 |
| C163 | chains of extractions as an inductive relation (Spec/MstkExtractAgain.lean) over the extraction model of C119 | induction on the chain: an extracted mesh satisfies the hypotheses of the one-step theorems, and translations along parents compose |
| C164 | the geometry code of the base class (Model/MeshGeometry.lean) over an MSTK mesh (Model/MstkGeometry.lean), on both ends of a chain of extractions | the connectivity theorems of C163 give the same lists of corners in the same order and the same directions, so the same code gets the same arguments |
| C165 | the choice of the routine in get_partitioning over the models of the partitioners (C15, C17, C62) and of the tiles (C118); METIS answers any part numbers in range | case analysis over partitioner, build and dimension; the tile theorems of C118 for any lists dividing the owned cells |
| C166 | the three checks as comparisons of enumerator values | case analysis over all enumerators |
| C167 | objects with the shared_ptrs between them (owning) and the raw pointers and references (borrowing); destruction by use counts; each question lists the objects whose memory it uses | invariant over all histories: the owning pointers have no circles, so positive use counts mean reachability from the program |
| C168 | the set construction of C36 on the geometry of C130 and C72 (`geoOf`: centroids and coordinates), regions as the classes of C87-C93; membership in a region as an explicit recursion over logical regions | membership is preserved by a renumbering that keeps positions and corners; the renumberings of C157, and one for the nodes |
| C169 | as C168, with box and plane regions as constructed by the classes | C73 with the centres of C72 and the tests of C49 and C87; transported to MSTK by C168 |
| C170 | Model/ToyNumerics: the two loops of the example as folds over tiles, NaN as `none`; on tiles of any 3D MSTK mesh (C118). The value after k visits is a geometric sum; concrete refutation for the example program on the generated 10x5x5 mesh. |
| C171 | Model/MultiData: rows as lists, changes through `onRow`. Reached states (C41) tie a row to `material_cells`; changes are stated for any state with the row (`OnlyRow`); witnesses for the failures. |
| C172 | as C168, with box and plane regions as constructed by the classes and the generated meshes of C156 | C73 with the areas of C156, the mid-points of C159 and the tests of C49 and C87; directly, for every block |
| C173 | the model of C133/C134 on the generated meshes of C155/C156 | the one side of C133 (C134) on a box (rectangle); the wedges of a corner counted through the incidences of C29 and C32 |
| C174 | the set construction of C74 with real distances on the generated meshes of C155; geometry of the cells by C148 | the nearest node is a corner of every box that contains the point: in each direction a grid point that is no end of the interval is further away than one of its ends; then C74 and the boxes of C155 |
| C175 | as C174 on the generated meshes of C156, the crossing rule evaluated on a rectangle | the rectangle of a cell without its left and upper side; these tile the rectangle of the block without its left and upper side; then C74 |
| C176 | as C174 on the structured meshes of C55 and C160 (`Model/SimpleGeometry`, `Model/MeshSimple`) | `point_in_cell` is the closed box; the nearest node is a corner of every box with the point; then C74, and C174 with the map between the numbers of the cells |
| C177 | `cell_get_type`, `GID`, `get_labeled_set_entities` of Mesh_simple (`Model/SimpleTypes`), the types of C110 on the generated meshes | a table of the numbers of nodes of each type; the faces of the cells of C04 and C154; the set of a region without entities is made |
| C178 | the search of the nearest node of C74 (`Reg.nearestNode`, start 1e16, stop at 1e-32) on the meshes of C176 | right for the sizes of C176; no node is found in the middle of a cell that is 2e8 wide; the search stops at node 0 in cells of 5e-17 |
| C179 | sets of boxes and planes (C75, C87) on the one-dimensional mesh of C14, C160 | cells, nodes, faces of planes: exact; faces of boxes: all or none, by the box containing the origin, since every face has centroid 0 (C71) |
| C180 | the node sets of point regions (`Reg.nodeLists`, loop with `break`) on any mesh, then on the meshes of C4, C14, C157, C172 | the first node inside, by induction on the loop; it is the only one where cells are 2e-12 wide or wider |
| C181 | `Reg.build`, `Reg.findFromRegion`, `Reg.validRegionName` (C73, C77) with a table of kinds and types (Spec/SetKinds.lean) | by cases; the other kinds give null pointers or abort, and `valid_region_name` accepts combinations that throw |
| C182 | the operations of Model/MeshSet (C19–C22), called by a program that evaluates an expression over sets in memory (Spec/SetAlgebra.lean) | by induction on the expression: the result is in order and has what the expression says; laws follow; complements only without ghosts |
| C183 | `Reg.build` (C36) on the geometry of the grids (C169, C172) | membership of an entity is membership of its point, by induction on the depth of nesting (Spec/LogicalSets.lean); then C36 and the centres and nodes of the grids |
| C184 | `Reg.build` (C36) on a whole mesh and on the parts of it that ranks have | an entity of a rank is in a region if its entity of the whole mesh is (same corners and centres, Spec/DistributedSets.lean), by induction on the depth of nesting; then C36 on both and that every entity is owned once |
| C185 | the copy constructor of `MeshSet`; changes of sets in the store one after the other | induction over interleaved histories, against the set alone in the program (Spec/SetCopy.lean) |
| C186 | `material_set`, `material_set_by_name` and the calls of `State` (Model/State.lean) | the names of the materials follow a list of names (Spec/MaterialNames.lean), by induction over histories |
| C187 | `compute_side_geometry` in one dimension (Model/SideGeometry.lean) | computation with the shells between radii, in exact arithmetic |
| C49–C54, C59, C68–C72 | geometry in exact arithmetic (polygon, polyhedron, face normals, structured mesh) | algebra over ℝ / ℚ |
| C55–C58 | small bookkeeping | induction, finite tables |
| C60, C61 | upward queries of `Mesh_simple` with a node or type argument | list lemmas; negation by witness |
| C62, C63 | `get_partitioning_by_blocks` of `Mesh` | geometry of the block grid; negation by witness |
| C64 | cached `face_get_cells` built from cell faces | loop invariant |
| C65, C66 | set queries of a tile; corners/wedges of a node by type | list lemmas |
| C67 | which queries assert, by request flags | case analysis over the flags |
| C73–C77 | `build_set_from_region`, `init_sets_from_geometric_model`, `find_meshset_from_region` over an abstract mesh and abstract regions | induction on nesting depth and on histories |
| C78, C79 | as C38–C44 | invariants over histories |
| C80–C84 | `compute_side_geometry`, `side_volume`, `side_facet_normal`, `side_get_coordinates`, the wedge and corner queries incl. `corner_get_facetization` (Mesh.cc:1428-1560, 1608-1658, 1820-2305) over the side/corner caches of C29–C32 with arbitrary coordinates (Model/SideGeometry.lean) | fans of tetrahedra over polygon edges; the corner surface as a multiset of directed edges; closed surface ⇒ volume independent of the origin |

Where the unchanged code violates a property, the negation is proved with a concrete witness, and the part
that does hold is proved in a theorem with suffix `_partial`. The disagreements are listed below.

## Disagreements between the code and a property

(The notes of the partial claims in MANIFEST.json.)

* **C03** — False of the code for a request of 0 blocks (two blocks returned, or no termination); proved for positive requests.
* **C10** — False of the code: node_get_faces omits faces of the node. Proved: what it returns are faces of the node; negation with a witness.
* **C101** — Ids, coordinates and classification agree; false of the code for the direction: an edge on the boundary of two blocks is directed differently by the two ranks (Mesh_MSTK later flips directions of entities it does not own, C108).
* **C104** — Proved if MSTK gave distinct global ids; boundary ghosts get none, so in a parallel run all have global id -1 (proved).
* **C105** — All proved except the types: node_get_cells returns a boundary ghost cell for PARALLEL_OWNED and not for BOUNDARY_GHOST (proved); face_get_cells is right in public (C117).
* **C106** — Proved except the types in meshes with boundary ghosts; a neighbour across several faces is listed several times (witness).
* **C107** — Proved for faces and edges that are not flipped; face_get_edges_and_dirs ignores the flip of the face and cell_2D_get_edges_and_dirs that of the edge, so for flipped ones the directions are all wrong (proved; Mesh_MSTK.cc:1840-1890).
* **C108** — Proved for edges, for 2D, and for 3D with a layer of ghost cells. Without ghost layers the two cells of a face between ranks see it in the same direction (proved; Mesh_MSTK.cc:3963-3969). MESH_UpdateAttributes is modelled by its effect.
* **C111** — Reading back, frame and refusals proved. An array field can never be stored again (|| for &&, Mesh_MSTK.hh:916); values are indexed by the database's order, so they belong to the entity of that id iff no ghost precedes an owned entity (proved iff); sides, wedges and corners index a table out of range; a field called Cell_type overwrites the types of the cells.
* **C112** — Round trip proved for scalars and for arrays whose size suits the space dimension. A second export leaves vectors and tensors stale, a vector on owned entities only is read past its end, a vector on a tile dereferences null and a field on faces that were not requested overflows the buffer (all proved).
* **C113** — Proved in 3D; in 2D all but the nodes: a boundary ghost of a 2D mesh has only one of the two nodes of its face (proved).
* **C114** — Proved but for cell_2D_get_edges_and_dirs of surface meshes, which reads out of range (proved); for a face that is not a face of the cell, face_to_cell_edge_map leaves what the caller's vector contained (proved).
* **C115** — Proved but for the direction of 3D sides on flipped faces, which are inverted (proved for every such side, and that it occurs). 2D meshes with boundary ghosts are excluded: their one-node cells are no polygons.
* **C117** — Proved for ALL, PARALLEL_OWNED and PARALLEL_GHOST; for BOUNDARY_GHOST nothing is returned although the cells are there (proved).
* **C121** — Proved but for the parents: eparentatt is never set in 3D, every edge is said to have parent 0 (proved for every extraction).
* **C122** — Proved but for the orientation, which holds exactly if no edge has one direction in two listed faces (proved); an example of adjacent faces of one cell for which it fails is given.
* **C124** — Proved but for flattening a mesh in the plane, which is not refused and leaves nodes with one coordinate (proved).
* **C125** — False: 0 is returned for every entity of a mesh that was not extracted and for every edge of an extracted 3D mesh (proved). For cells of an extracted mesh the parent is right (C119).
* **C127** — Proved for labeled sets (element blocks, side sets). False for regions that are not labeled sets and for element sets: the set is looked up in MSTK only and under one name only, and a mesh without cells is made (proved). A name that is not in the geometric model is a null pointer.
* **C128** — Proved for kinds spelt Entity_kind::CELL etc. False for the spelling CELL, FACE, NODE, which queries accept and inherit_labeled_sets does not know, and for element sets: these are empty in the new mesh (proved).
* **C129** — Proved but for node_set_coordinates with a pointer in the plane: three numbers are read although there are two (proved).
* **C131** — Proved for cells with more than four corners. The sign of the volume of a cell with four corners depends on the order in which MR_Vertices gives them, which is not that of its faces (C58).
* **C132** — Proved but for triangles that run clockwise: their area is reported as positive (proved).
* **C133** — False for flipped faces: the sides over a face that is flipped on this rank have negative volume and inward normals (proved, with a cell whose sides do not fill it). Proved for cells without flipped faces; exact values in all cases.
* **C136** — False twice: a set with both ends of a collapsed edge has the kept end twice, and a set loses an entity that was merged with one that is itself merged later (both proved). Proved where neither happens; the exact content of a set is proved in all cases (set_direct).
* **C137** — False for entities merged in several steps: the ghost keeps an id that no entity has (proved). Proved if no id that is kept is given up elsewhere.
* **C138** — False: &(merged_ents_info[0]) of an empty vector is undefined, on every rank that has merged nothing (proved). The part before and after that line is proved to change nothing.
* **C139** — False: regions that name their kind in the short spelling and element sets are not checked, and on plane meshes the error is a bare std::exception (all proved). Proved for the long spelling and sets other than element sets.
* **C141** — False: .exo and .par are looked for anywhere in the name (both failures proved). Proved for .exo, and for .par if .exo is nowhere in the name.
* **C142** — False: the constructor does not pass the partitioner on, METIS is always used (proved for every other partitioner). The rest is proved.
* **C143** — False for a mesh in several pieces, each in a plane of its own on its own rank (proved). Proved for connected meshes; the exact condition is proved in all cases.
* **C144** — False: ranks without cells throw alone or read a null pointer, and the other ranks wait for a rank on which MSTK has failed (all proved). Proved for refused names and for solids on all ranks.
* **C146** — False if the largest signed component of the computed normal is zero, which for polygons that are not convex also depends on the first vertex (proved), and if the first three vertices are on a line (proved). Proved for all other plane polygons, with the exact bounds of the tolerances.
* **C148** — False for cells with triangles among their faces: of a tetrahedron only the first face is looked at, and both tetrahedra of a mesh contain a point far away (proved). Proved for cells without triangles, in exact real arithmetic.
* **C149** — Proved for all structured meshes (Jali.Simple.metis_graph) and for MSTK meshes without boundary ghosts. False with boundary ghosts, which cell_get_face_adj_cells returns as owned: METIS gets neighbours that are not vertices of the graph (proved for every owned cell with a boundary ghost behind a face). False for surfaces with more than two cells at a face: adjncy is written past its end (proved).
* **C150** — Proved for all three-dimensional structured meshes of boxes, in exact arithmetic. False in one dimension: the search compares the centroid of the last face, which is always the origin (C71), with the end of the domain, so no one-dimensional mesh is recognised and every cell is lost (proved for all one-dimensional structured meshes, Cartesian and spherical, that do not end at the origin).
* **C151** — False of the code: clear() sets the kind to UNKNOWN_KIND, for which entity_get_type knows no types, so that nothing can be added to a cleared set one by one, and a list of entities is added to ALL only (both proved for all sets and histories). That clear empties, that look-ups skip a cleared set, and renaming are proved.
* **C152** — Proved for every interleaving when no other manager of the mesh is given a material of the same name. False otherwise: add_material takes over the mesh set of that name, so two managers share it, and a manager made after another was destroyed starts with the old cells (both proved for all cells and meshes). Handles of vectors of one manager are not given to operations of another one.
* **C153** — False for multi-material vectors: the expired weak_ptr counts as a manager without materials, so that every element access fails the assert and assign resizes the data to nothing (proved for all vectors). Univalued vectors and the rows of multi-material ones keep their values.
* **C16** — False of the code (e.g. trailing parts can be empty); proved under the extra hypothesis of the _partial theorem.
* **C160** — Proved for Cartesian meshes; on spherical meshes everything but the centroid. False of the code: on a cylindrical mesh the volume and centroid of a cell are never set (cell_volume returns an uninitialised variable, line_cell_cylindrical_unset); on a spherical mesh the centroid is the middle radius, strictly below the mean radius of the shell (line_centroid_spherical_not_mean).
* **C161** — Proved for every mesh in which crossing a face along an axis always leads to a cell further along it (search_ends_partial). False of the code otherwise: on a mesh of two hook-shaped cells filling a rectangle the search steps from one to the other for ever (search_runs_for_ever).
* **C162** — False of the code: every new mesh reports a field Cell_type on its cells (with boundary ghosts also bndry_ghost), so init_from_mesh of a mesh on which nothing was stored makes a state vector Cell_type holding the cell types; an extracted mesh reports pointer fields *parentatt (which init_from_mesh skips), and on several processors with edges requested the temporary attributes TMP_EV0_ATT and TMP_EV1_ATT of init_pedge_dirs, never deleted, are reported on the edges. Proved: nothing else is reported or imported. Supposes that the file has no attributes of these names; on plane meshes with faces and edges on several processors the temporaries are left out (two attributes of one name are made, a matter of MSTK).
* **C165** — Proved for every partitioner but BLOCK. False of the code for BLOCK: on a mesh that it does not recognise as regular the tiles are built without any cells, and no cell has a master tile (tiles_block_partitioner_lose_cells).
* **C166** — Proved for valid_entity_type and cell_valid_type. False of the code for entity_valid_kind: it rejects SIDE, WEDGE, CORNER, FACET and BOUNDARY_FACE (proved: exactly these).
* **C167** — Proved: existence is reachability, what is stored can be asked, and everything is safe while meshes and geometric models are kept. False of the code without that: a tile, a mesh set or a vector on a tile does not keep its mesh, a mesh does not keep its geometric model or the mesh it was extracted from (witness histories; the exact conditions are proved).
* **C168** — Proved for regions given by positions of entities and logical regions made of them, with the restrictions of C36 (single-component unions, differences naming the first component again; C22); for the two frameworks on one rank. False of the code for point regions (ties between nearest nodes).
* **C170** — Proved for loops over owned cells, for the velocities, and for the averages of cells in no halo of another tile. False of the other averages: tile->cells() also lists the ghost cells of the tile, and the loop body divides the running sum once per visit, so that cells in the halo of another tile get too big an average; a cell without neighbours gets NaN. Run on one rank, the example program itself (10 by 5 by 5 cells, 10 tiles, one halo layer) gets all its 250 averages wrong.
* **C171** — Proved for allowed histories and materials without late cells. False of the code otherwise: after add_cells_to_material the row is in another order than material_cells; after clear(m) or a shrinking resize operator() is undefined behaviour for cells of m; after clear() the next material's row has number 0.
* **C175** — Proved for the rectangle without its left and upper side: the one cell with the point inside, on its right or lower side. False of the code for points on the left or upper side of the block: the set is empty. For blocks on one rank without sets made before. In exact arithmetic.
* **C177** — Proved in three dimensions and in the plane, and for labeled sets. False of the code in one dimension: every cell of a one-dimensional mesh, which has two nodes, is called a hexahedron (proved for every cell; Mesh_simple.cc:641-643).
* **C178** — Proved for cells wider than 1e-16 with a node nearer than 1e8 (C176). False of the code otherwise: where cells are 2e8 wide or wider, the set of the middle of any cell is undefined behaviour (node_get_cells(-1)); where cells are 5e-17 wide or less, the set of a node that is not the first is empty (both proved for every such mesh; Mesh.cc:2705-2720).
* **C179** — Proved for cells, nodes, and the faces of planes. False of the code for the faces of boxes: the centroid of every face of a one-dimensional mesh is the origin (C71), so the set holds all faces if the origin is in the box and none otherwise; proved for every mesh and box, with the box from 2 to 3 on the nodes 1, 2, 3, 4 as an instance. In exact arithmetic, for meshes without sets made before.
* **C180** — Proved in full for structured meshes in one and three dimensions, regular meshes of MSTK in space (one rank) and blocks of them in the plane, with cells 2e-12 wide or wider and without sets made before. On any mesh (with ghosts too) the set holds the first node at the point; false of the code if several nodes are there: the loop stops at the first (Mesh.cc:2917-2919), witness: the mesh of one cell of 5e-13.
* **C181** — Proved for sets of cells, faces and nodes, and for what valid_region_name accepts of boxes and planes. False of the code for other kinds: sets of edges, sides, wedges and corners give a null pointer without a message (Mesh.cc:2951), or abort in logical regions (line 2982); and valid_region_name (lines 2503-2553) accepts color functions for faces and nodes, polygons for cells of surface meshes and points for faces of one-dimensional meshes, for all of which the construction throws, and labeled sets of edges, which give a null pointer.
* **C182** — Proved for expressions of unions, intersections and differences on all meshes, and with complements on meshes numbered owned first without ghosts. False of the code with complements where there are ghosts: on every mesh numbered owned first, the complement of the complement of a set loses the last ghost of the mesh (MeshSet.cc:516-522 runs over 0..nghost-1, C22).
* **C184** — Proved for all regions without complements, and with complements on ranks without ghosts. False of the code for complements where there are ghosts: the complement on a rank takes the cells below the number of ghosts instead of the ghosts (MeshSet.cc:516-522, C22), so the GHOST list of the set is wrong.
* **C187** — Proved in spherical geometry for the first side of a cell, and for the second side up to sign; likewise for wedges and corners, and for the sum over the mesh of absolute values. False of the code: the second side of every cell has a negative volume and an inward normal (side_shells_wrong; Mesh.cc:1529-1540), and in cylindrical geometry nothing is set (side_cylindrical_unset; lines 1514-1527).
* **C22** — Proved without ghosts; false with ghosts for every owned-first mesh (ghost loop uses ids 0..nghost-1).
* **C23** — Membership and lists proved for all add_entity histories; the index position goes stale with ghosts, add_entities is undefined for ghosts only and mis-indexes without ghosts (negations proved).
* **C24** — Membership proved; order and index of rem_entity, index of entities removed by rem_entities and repeated requests are wrong (negations proved).
* **C28** — False of the code: tile sides are built under `if (request_wedges)`. Proved: the claim when wedges are requested; without them tiles have no sides.
* **C34** — False of the code: after a second geometry update the facet normals reported are those of the first; proved for every history. Volumes are current.
* **C36** — Proved at any nesting depth except: union of one component (takes over and renames the component's set), difference naming its first component again (ignored or aborts), no operation (undefined behaviour), complement with ghosts (C22). The excluded cases are proved false of the code.
* **C38** — Proved for every history except copies of vectors of another mesh, which register twice (proved).
* **C39** — False of the code: add without data or with an array stores the position before the new vector; iterating is undefined or yields the previous vector (proved for every such state). Proved for histories adding only by value or copy.
* **C41** — Proved for every allowed history (new cells, new set names, no multi-material vector on a tile); the excluded cases are proved false of the code.
* **C42** — False of the code: reads past the list of a cell unless the material is its last, never renumbers, keeps the mesh set. The exact condition under which removal is right is proved as an equivalence.
* **C43** — Proved for allowed histories; cells added later to a material cannot be read or written because the reverse map of the set is stale (proved).
* **C45** — Proved for all kinds but SIDE, and for SIDE in histories without reset_options; reset_options never changes whether sides are included (proved), so the claim is false of the code for SIDE.
* **C46** — Proved when sides are not included; if they are, the factory differs from a new one exactly in that (proved). MeshFactory.cc:145-180 does not assign request_sides_.
* **C47** — False of the code: factory(x0,x1,nx) makes nx points, hence nx-1 cells ending one spacing before x1, and an error for nx = 1 (proved for all inputs).
* **C48** — Proved for ranks that behave alike, and rejection of invalid sizes on any rank by all ranks; false of the code in three ways, each proved: without MSTK a valid 2D request yields a null mesh; a framework failing on some ranks only leaves these waiting for ever; so does a geometric model that does not fit on some ranks.
* **C50** — False of the code: the projection direction is chosen by the largest signed component of the normal instead of the largest absolute one, so the unit square given clockwise contains a far away line, given counter-clockwise it does not (proved). Proved for convex polygons: the starting vertex never matters, interior points are contained in both orientations, and if neither orientation has zero as its largest normal component both contain only points close to the polygon. Missing: exact agreement inside the tolerance; for polygons that are not convex see C146.
* **C51** — False of the code: triangular faces do not advance the offset, so a tetrahedron accepts points far outside (witness). Proved exactly for polyhedra without triangular faces.
* **C53** — All parts proved in exact arithmetic except flagging: an inverted plane triangle is not flagged (proved for every inverted triangle).
* **C55** — Proved for geometric models and for domains built step by step; the domain constructor taking lists always throws (proved for all inputs; Domain.cc:117-127 tests dim != 2 || dim != 3).
* **C56** — Proved for box, plane, point and polygon regions; copies of logical and labeled set regions lose the operation, component names and labels (proved for all of them).
* **C57** — exception_behavior() proved. False of the code for errors: the variable is in an unnamed namespace of the header, so every translation unit has its own and errors raised by the library always throw, whatever was set (proved for every program).
* **C58** — Holds for kinds, cell types and partitioners; false for Entity_type_string, which is off by one for every value (negation proved).
* **C59** — Proved for solid, plane and one-dimensional meshes; false for surface meshes (C69).
* **C61** — Holds for face_get_cells; false for the node and adjacency queries of the structured mesh, which ignore the type argument (negation proved).
* **C63** — False of the code: the unrecognised mesh only prints a message and leaves every part empty; negation proved.
* **C65** — False of the code for GHOST: the mesh set's own GHOST part is intersected with the tile's ghosts. Proved: what each query returns; a witness where OWNED and GHOST answers miss a member of ALL.
* **C67** — Proved for all queries but node_get_wedges (asserts corners) and for meshes with faces or of dimension at most 2; the two excluded cases are proved to abort.
* **C68** — False for four vertices (proved for every tetrahedron), proved for more.
* **C69** — False of the code: the normal is the same for all cells of the edge (proved for every surface mesh), because the cell centre is accumulated in a Point of dimension 0.
* **C71** — False of the code: the centroid is the origin for every face of every 1D mesh, and the natural normal aborts at r = 0 of a spherical mesh; normals with respect to cells proved right.
* **C74** — Proved where the nearest node is a corner of every cell that contains the point. False of the code: only cells around the nearest node are looked at (witness); undefined behaviour when no node is within 1e8.
* **C75** — Proved for regions nested without a circle; circular logical regions recurse without end.
* **C76** — Contents, frame and existence proved except for regions whose CELL set exists when their turn comes; the order dependence, the missing 2D cell sets and the duplication are proved.
* **C77** — Proved; but labeled set regions declared with a qualified entity string are never valid.
* **C78** — Proved except for kind ANY_KIND and type ALL: with type ALL the vector on owned entities is returned (proved).
* **C79** — Proved for allowed histories (see C41), for the stored rows and element by element. False of the code for add_cells_to_material on a material that has cells: its last cell loses its value in every multi-material vector (operator() gives zero there).
* **C82** — Proved in space. In the plane the normal of facet 1 is not perpendicular to the facet (proved; Mesh.cc:1494-1502 turns the vector from the first node to the cell centroid instead of the one from the edge centre).
* **C83** — Proved except corner_get_coordinates in the plane at reflex corners, where the points run clockwise (proved; Mesh.cc:2238-2250).
* **C84** — On the line only the coordinates of sides are right: the side at the second node has negative volume and an inward normal, recomputing a side volume aborts, the corner at the second node is given in descending order (all proved; Mesh.cc:1529-1543, 2218-2221).
* **C85** — Proved for a library built with MSTK; without it MSTK is still reported as available and capable (proved).
* **C86** — Proved except: 1D meshes never get the geometric model, meshes generated in 3D are always Cartesian (proved).
* **C87** — What the test decides is proved; it depends on the length of the normal, which is not normalised (witness).
* **C89** — Dimension and degeneracy proved; corners() returns the corners as given, so for corners in another order they are not low and high (witness).
* **C91** — Proved for strictly convex polygons: all interior points are contained, and only points near the polygon if the largest component of the normal is not zero. False if it is zero (unbounded region) and if the first three vertices are collinear (plane not tested); both proved. For polygons that are not convex see C146.

## Trusted base

Lean's kernel; the axioms `propext`, `Classical.choice`, `Quot.sound` at most; the faithfulness of the
definitions in `Verif/Model` to the cited source lines (by reading; the code is not executed here).

Modelled files: `mesh/BlockPartition.cc` (all), `mesh/mesh_simple/Mesh_simple.cc` (connectivity, coordinates and
queries of 1D and 3D meshes), `mesh/Mesh.cc`/`Mesh.hh` (constructor flags, caches of faces, sides, wedges and
corners, tiles, partitioning, geometry of faces and cells, sets and regions), `mesh/MeshSet.cc`/`.hh` (all),
`mesh/MeshTile.cc`, `mesh/MeshDefs.hh` (name tables), `geometry/Geometry.cc`, `geometry/Point.hh`,
(in the construction of sets distances are in any ordered field: rational or real)
`geometry/*Region.*`, `geometry/GeometricModel.*`, `geometry/Domain.*`, `error_handling/*`, `mesh/mesh_factory/MeshFactory.*`, the two loops of `examples/ToyNumerics/ToyNumerics.cc`,
`statemanager/JaliState.*`, `statemanager/JaliStateVector.h`,
`mesh/mesh_mstk/Mesh_MSTK.cc` (generation of regular meshes as calls of MSTK, with the effect of `MF_Set_Vertices`, `MR_Set_Vertices` and `MF_Set_Edges` on them as a contract in `Model/MstkBuild*.lean`, numbering, connectivity queries, flips and their exchange, ordered faces, cell types, fields, boundary ghosts, extraction of meshes from lists of ids and names of sets in serial runs, parents, labeled sets, coordinates, collapse of edges of length zero (`ME_Collapse` itself and the other functions of MSTK are assumptions), `init_set_info`, reading of files as a sequence of calls of MSTK; the caches, sides, types, tiles and geometry, also of sides and corners, of the base class on top of them). Who keeps whom in existence is in `Model/Lifetime.lean`. The header comment of each file in `Verif/Model` says what it
leaves out.

In the state manager: assignment onto a vector object held by the manager itself, mesh sets made by the user between
state operations and printing are not modelled; `init_from_mesh` and `export_to_mesh` are in `Model/MstkFields.lean`.

Not modelled: MPI communication, the libraries MSTK/METIS/Zoltan/Boost (the few MSTK
operators used are modelled by what their documentation says), the rest of `Mesh_MSTK`, file I/O, floating-point rounding,
integer overflow, memory allocation failure, threads.
