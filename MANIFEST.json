{
 "claims": [
  {
   "property": "C01",
   "status": "proved",
   "theorems": [
    "Jali.BlockPartition.blockPartition_returns_request"
   ],
   "note": ""
  },
  {
   "property": "C02",
   "status": "proved",
   "theorems": [
    "Jali.BlockPartition.blockPartition_tiles"
   ],
   "note": ""
  },
  {
   "property": "C03",
   "status": "partial",
   "theorems": [
    "Jali.BlockPartition.blockPartition_honours_or_rejects_partial",
    "Jali.BlockPartition.blockPartition_zero_request_gives_two",
    "Jali.BlockPartition.blockPartition_zero_request_diverges"
   ],
   "note": "False of the code for a request of 0 blocks (two blocks returned, or no termination); proved for positive requests."
  },
  {
   "property": "C04",
   "status": "proved",
   "theorems": [
    "Jali.Simple.numbering_bijection"
   ],
   "note": ""
  },
  {
   "property": "C05",
   "status": "proved",
   "theorems": [
    "Jali.Simple.cell_get_nodes_corners"
   ],
   "note": ""
  },
  {
   "property": "C06",
   "status": "proved",
   "theorems": [
    "Jali.Simple.node_get_cells_inverse",
    "Jali.Simple.node_slots_never_overrun",
    "Jali.Simple.writes_in_bounds"
   ],
   "note": ""
  },
  {
   "property": "C07",
   "status": "proved",
   "theorems": [
    "Jali.Simple.face_get_cells_inverse",
    "Jali.Simple.face_get_cells_count"
   ],
   "note": ""
  },
  {
   "property": "C08",
   "status": "proved",
   "theorems": [
    "Jali.Simple.shared_face_opposite_dirs"
   ],
   "note": ""
  },
  {
   "property": "C09",
   "status": "proved",
   "theorems": [
    "Jali.Simple.face_get_nodes_corners",
    "Jali.Simple.face_nodes_are_cell_nodes",
    "Jali.Simple.face_orientation_outward"
   ],
   "note": ""
  },
  {
   "property": "C10",
   "status": "partial",
   "theorems": [
    "Jali.Simple.node_get_faces_partial",
    "Jali.Simple.node_get_faces_not_inverse"
   ],
   "note": "False of the code: node_get_faces omits faces of the node. Proved: what it returns are faces of the node; negation with a witness."
  },
  {
   "property": "C100",
   "status": "proved",
   "theorems": [
    "Jali.MstkGen.shared_edge_opposite"
   ],
   "note": "Within the mesh of one rank."
  },
  {
   "property": "C101",
   "status": "partial",
   "theorems": [
    "Jali.MstkGen.ids2_agree_partial",
    "Jali.MstkGen.ids2_number_grid",
    "Jali.MstkGen.edge_direction_differs"
   ],
   "note": "Ids, coordinates and classification agree; false of the code for the direction: an edge on the boundary of two blocks is directed differently by the two ranks (Mesh_MSTK later flips directions of entities it does not own, C108)."
  },
  {
   "property": "C102",
   "status": "proved",
   "theorems": [
    "Jali.MstkGen.classification2"
   ],
   "note": "There is no figure in the source for two dimensions: corners 1..4 counterclockwise from the lower left, sides 1 bottom, 2 right, 3 top, 4 left."
  },
  {
   "property": "C103",
   "status": "proved",
   "theorems": [
    "Jali.Mstk.ids_consecutive",
    "Jali.Mstk.ids_name_entities"
   ],
   "note": "Marked entities (MEnt_MarkEnt, Set_ID) are modelled as functions of the handle."
  },
  {
   "property": "C104",
   "status": "partial",
   "theorems": [
    "Jali.Mstk.node_gids",
    "Jali.Mstk.serial_gids",
    "Jali.Mstk.cell_gids",
    "Jali.Mstk.other_gids",
    "Jali.Mstk.missing_gids"
   ],
   "note": "Proved if MSTK gave distinct global ids; boundary ghosts get none, so in a parallel run all have global id -1 (proved)."
  },
  {
   "property": "C105",
   "status": "partial",
   "theorems": [
    "Jali.Mstk.faces_cells_agree3",
    "Jali.Mstk.faces_cells_agree2",
    "Jali.Mstk.nodes_cells_agree3",
    "Jali.Mstk.nodes_cells_agree2",
    "Jali.Mstk.nodes_faces_agree3",
    "Jali.Mstk.nodes_faces_agree2",
    "Jali.Mstk.node_cell_faces3",
    "Jali.Mstk.node_cell_faces2",
    "Jali.Mstk.answers3",
    "Jali.Mstk.answers2",
    "Jali.Mstk.cells_listed_once",
    "Jali.Mstk.opposite_dirs3",
    "Jali.Mstk.opposite_dirs2",
    "Jali.Mstk.dirs_unit",
    "Jali.Mstk.types_respected_partial",
    "Jali.Mstk.boundary_ghosts_returned_as_owned"
   ],
   "note": "All proved except the types: node_get_cells returns a boundary ghost cell for PARALLEL_OWNED and not for BOUNDARY_GHOST (proved); face_get_cells is right in public (C117)."
  },
  {
   "property": "C106",
   "status": "partial",
   "theorems": [
    "Jali.Mstk.face_adj3",
    "Jali.Mstk.face_adj2",
    "Jali.Mstk.face_adj_iff3",
    "Jali.Mstk.face_adj_iff2",
    "Jali.Mstk.face_adj_symm",
    "Jali.Mstk.node_adj_iff3",
    "Jali.Mstk.node_adj_iff2",
    "Jali.Mstk.node_adj_listed_once",
    "Jali.Mstk.adj_types_partial",
    "Jali.Mstk.face_adj_repeats"
   ],
   "note": "Proved except the types in meshes with boundary ghosts; a neighbour across several faces is listed several times (witness)."
  },
  {
   "property": "C107",
   "status": "partial",
   "theorems": [
    "Jali.Mstk.cell_faces_walk_nodes2",
    "Jali.Mstk.face_edges_walk_nodes_partial",
    "Jali.Mstk.flipped_face_edges_wrong",
    "Jali.Mstk.cell_edges_2D_partial",
    "Jali.Mstk.face_edge_2D"
   ],
   "note": "Proved for faces and edges that are not flipped; face_get_edges_and_dirs ignores the flip of the face and cell_2D_get_edges_and_dirs that of the edge, so for flipped ones the directions are all wrong (proved; Mesh_MSTK.cc:1840-1890)."
  },
  {
   "property": "C108",
   "status": "partial",
   "theorems": [
    "Jali.Mstk.edge_flags_computed",
    "Jali.Mstk.edge_nodes_agree",
    "Jali.Mstk.face_nodes_agree2",
    "Jali.Mstk.face_dirs_agree2",
    "Jali.Mstk.face_flags_computed",
    "Jali.Mstk.face_nodes_agree3",
    "Jali.Mstk.face_dirs_agree3",
    "Jali.Mstk.opposite_dirs_across_ranks",
    "Jali.Mstk.no_ghost_layer_wrong"
   ],
   "note": "Proved for edges, for 2D, and for 3D with a layer of ghost cells. Without ghost layers the two cells of a face between ranks see it in the same direction (proved; Mesh_MSTK.cc:3963-3969). MESH_UpdateAttributes is modelled by its effect."
  },
  {
   "property": "C109",
   "status": "proved",
   "theorems": [
    "Jali.Mstk.ordered_faces",
    "Jali.Mstk.ordered_perm"
   ],
   "note": "For cells with closed surface; other types of cells get the unordered list."
  },
  {
   "property": "C11",
   "status": "proved",
   "theorems": [
    "Jali.Simple.face_adj_cells_exact"
   ],
   "note": ""
  },
  {
   "property": "C110",
   "status": "proved",
   "theorems": [
    "Jali.Mstk.type_counts",
    "Jali.Mstk.type_by_faces",
    "Jali.Mstk.type2_by_nodes"
   ],
   "note": "Euler's formula is a hypothesis of type_counts."
  },
  {
   "property": "C111",
   "status": "partial",
   "theorems": [
    "Jali.Mstk.get_after_store",
    "Jali.Mstk.store_frame",
    "Jali.Mstk.store_scalar_refused_iff",
    "Jali.Mstk.store_array_again_refused",
    "Jali.Mstk.get_refused_iff",
    "Jali.Mstk.derived_kinds_undefined",
    "Jali.Mstk.stored_for_entity_iff",
    "Jali.Mstk.entity_iff_inOrder",
    "Jali.Mstk.inOrder_iff",
    "Jali.Mstk.cell_type_overwritten"
   ],
   "note": "Reading back, frame and refusals proved. An array field can never be stored again (|| for &&, Mesh_MSTK.hh:916); values are indexed by the database's order, so they belong to the entity of that id iff no ghost precedes an owned entity (proved iff); sides, wedges and corners index a table out of range; a field called Cell_type overwrites the types of the cells."
  },
  {
   "property": "C112",
   "status": "partial",
   "theorems": [
    "Jali.Mstk.init_from_mesh",
    "Jali.Mstk.export_import",
    "Jali.Mstk.export_again",
    "Jali.Mstk.export_again_stale",
    "Jali.Mstk.export_short_undefined",
    "Jali.Mstk.export_tile_undefined",
    "Jali.Mstk.import_faces_overflow"
   ],
   "note": "Round trip proved for scalars and for arrays whose size suits the space dimension. A second export leaves vectors and tensors stale, a vector on owned entities only is read past its end, a vector on a tile dereferences null and a field on faces that were not requested overflows the buffer (all proved)."
  },
  {
   "property": "C113",
   "status": "partial",
   "theorems": [
    "Jali.Mstk.outer_face_ghost3",
    "Jali.Mstk.ghosts_outside3",
    "Jali.Mstk.other_faces3",
    "Jali.Mstk.cells_unchanged3",
    "Jali.Mstk.regions_kept",
    "Jali.Mstk.two_cells3",
    "Jali.Mstk.ghost_nodes3",
    "Jali.Mstk.outer_face_ghost2",
    "Jali.Mstk.ghosts_outside2",
    "Jali.Mstk.other_faces2",
    "Jali.Mstk.cells_unchanged2",
    "Jali.Mstk.cells_kept",
    "Jali.Mstk.two_cells2",
    "Jali.Mstk.ghost_one_node2"
   ],
   "note": "Proved in 3D; in 2D all but the nodes: a boundary ghost of a 2D mesh has only one of the two nodes of its face (proved)."
  },
  {
   "property": "C114",
   "status": "partial",
   "theorems": [
    "Jali.Mstk.cached_connectivity3",
    "Jali.Mstk.cached_connectivity2",
    "Jali.Mstk.surface_edge_dirs_out_of_range",
    "Jali.Mstk.cell_edges_of_faces3",
    "Jali.Mstk.cell_edges_of_faces2",
    "Jali.Mstk.face_to_cell_edges3",
    "Jali.Mstk.face_to_cell_edges2",
    "Jali.Mstk.face_to_cell_edges_stale"
   ],
   "note": "Proved but for cell_2D_get_edges_and_dirs of surface meshes, which reads out of range (proved); for a face that is not a face of the cell, face_to_cell_edge_map leaves what the caller's vector contained (proved)."
  },
  {
   "property": "C115",
   "status": "partial",
   "theorems": [
    "Jali.Mstk.mesh_ok3",
    "Jali.Mstk.mesh_ok2",
    "Jali.Mstk.sides_of_mesh3",
    "Jali.Mstk.side_along3",
    "Jali.Mstk.sides_point_inwards3_partial",
    "Jali.Mstk.sides_of_flipped_faces_inverted",
    "Jali.Mstk.inverted_sides_reachable",
    "Jali.Mstk.sides_of_mesh2",
    "Jali.Mstk.flipped_alike",
    "Jali.Mstk.corners_of_mesh3",
    "Jali.Mstk.opposite_sides_of_mesh3"
   ],
   "note": "Proved but for the direction of 3D sides on flipped faces, which are inverted (proved for every such side, and that it occurs). 2D meshes with boundary ghosts are excluded: their one-node cells are no polygons."
  },
  {
   "property": "C116",
   "status": "proved",
   "theorems": [
    "Jali.Mstk.types_of_mesh3",
    "Jali.Mstk.types_of_mesh2"
   ],
   "note": ""
  },
  {
   "property": "C117",
   "status": "partial",
   "theorems": [
    "Jali.Mstk.face_get_cells_of_mesh3",
    "Jali.Mstk.face_get_cells_of_mesh2",
    "Jali.Mstk.boundary_ghosts_have_no_type"
   ],
   "note": "Proved for ALL, PARALLEL_OWNED and PARALLEL_GHOST; for BOUNDARY_GHOST nothing is returned although the cells are there (proved)."
  },
  {
   "property": "C118",
   "status": "proved",
   "theorems": [
    "Jali.Mstk.tiles_of_mesh3",
    "Jali.Mstk.tiles_of_mesh2"
   ],
   "note": "With the INDEX partitioner; sides are listed only if wedges are requested (C28). 2D meshes with boundary ghosts are excluded."
  },
  {
   "property": "C119",
   "status": "proved",
   "theorems": [
    "Jali.Mstk.cells_extracted_iff",
    "Jali.Mstk.cells_parents",
    "Jali.Mstk.cells_faces",
    "Jali.Mstk.cells_face_nodes",
    "Jali.Mstk.cells_nodes",
    "Jali.Mstk.cells_coordinates",
    "Jali.Mstk.cells_parents_differ",
    "Jali.Mstk.cells_nothing_else"
   ],
   "note": "Serial runs; the source may have boundary ghosts."
  },
  {
   "property": "C12",
   "status": "proved",
   "theorems": [
    "Jali.Simple.node_adj_cells_exact"
   ],
   "note": ""
  },
  {
   "property": "C120",
   "status": "proved",
   "theorems": [
    "Jali.Mstk.cells_make_mesh",
    "Jali.Mstk.cells_listed_twice",
    "Jali.Mstk.cells_types",
    "Jali.Mstk.cells_around"
   ],
   "note": "Also proved: a cell listed twice gives two cells on the same side of a face, so that the result is no mesh."
  },
  {
   "property": "C121",
   "status": "partial",
   "theorems": [
    "Jali.Mstk.cells_edges",
    "Jali.Mstk.cells_edge_parents_wrong"
   ],
   "note": "Proved but for the parents: eparentatt is never set in 3D, every edge is said to have parent 0 (proved for every extraction)."
  },
  {
   "property": "C122",
   "status": "partial",
   "theorems": [
    "Jali.Mstk.surface_extracted_iff",
    "Jali.Mstk.surface_parents",
    "Jali.Mstk.surface_faces",
    "Jali.Mstk.surface_nodes",
    "Jali.Mstk.surface_without_faces",
    "Jali.Mstk.surface_face_nodes",
    "Jali.Mstk.surface_coordinates",
    "Jali.Mstk.surface_parents_differ",
    "Jali.Mstk.surface_nothing_else",
    "Jali.Mstk.surface_make_mesh",
    "Jali.Mstk.surface_oriented_iff"
   ],
   "note": "Proved but for the orientation, which holds exactly if no edge has one direction in two listed faces (proved); an example of adjacent faces of one cell for which it fails is given."
  },
  {
   "property": "C123",
   "status": "proved",
   "theorems": [
    "Jali.Mstk.cells2_extracted_iff",
    "Jali.Mstk.cells2_parents",
    "Jali.Mstk.cells2_faces",
    "Jali.Mstk.cells2_nodes",
    "Jali.Mstk.cells2_face_nodes",
    "Jali.Mstk.cells2_coordinates",
    "Jali.Mstk.cells2_nothing_else",
    "Jali.Mstk.cells2_make_mesh",
    "Jali.Mstk.cells2_types"
   ],
   "note": ""
  },
  {
   "property": "C124",
   "status": "partial",
   "theorems": [
    "Jali.Mstk.extraction_refused_iff",
    "Jali.Mstk.plane_flattened"
   ],
   "note": "Proved but for flattening a mesh in the plane, which is not refused and leaves nodes with one coordinate (proved)."
  },
  {
   "property": "C125",
   "status": "partial",
   "theorems": [
    "Jali.Mstk.no_parent_looks_like_parent_0",
    "Jali.Mstk.cells_edge_parents_wrong",
    "Jali.Mstk.cells_parents"
   ],
   "note": "False: 0 is returned for every entity of a mesh that was not extracted and for every edge of an extracted 3D mesh (proved). For cells of an extracted mesh the parent is right (C119)."
  },
  {
   "property": "C126",
   "status": "proved",
   "theorems": [
    "Jali.Mstk.set_answers",
    "Jali.Mstk.set_ids",
    "Jali.Mstk.other_kind_throws",
    "Jali.Mstk.both_sets_throw"
   ],
   "note": ""
  },
  {
   "property": "C127",
   "status": "partial",
   "theorems": [
    "Jali.Mstk.named_extraction3",
    "Jali.Mstk.named_extraction2",
    "Jali.Mstk.geometric_sets_ignored",
    "Jali.Mstk.element_sets_ignored",
    "Jali.Mstk.unknown_name"
   ],
   "note": "Proved for labeled sets (element blocks, side sets). False for regions that are not labeled sets and for element sets: the set is looked up in MSTK only and under one name only, and a mesh without cells is made (proved). A name that is not in the geometric model is a null pointer."
  },
  {
   "property": "C128",
   "status": "partial",
   "theorems": [
    "Jali.Mstk.cells_sets",
    "Jali.Mstk.cells2_sets",
    "Jali.Mstk.surface_node_sets",
    "Jali.Mstk.surface_cell_sets",
    "Jali.Mstk.surface_face_sets",
    "Jali.Mstk.short_spelling_lost",
    "Jali.Mstk.element_sets_lost"
   ],
   "note": "Proved for kinds spelt Entity_kind::CELL etc. False for the spelling CELL, FACE, NODE, which queries accept and inherit_labeled_sets does not know, and for element sets: these are empty in the new mesh (proved)."
  },
  {
   "property": "C129",
   "status": "partial",
   "theorems": [
    "Jali.Mstk.cell_coordinates_of_nodes",
    "Jali.Mstk.face_coordinates_of_nodes",
    "Jali.Mstk.coordinate_forms_agree",
    "Jali.Mstk.node_has_coordinates",
    "Jali.Mstk.moves_succeed",
    "Jali.Mstk.coordinates_after_moves",
    "Jali.Mstk.pointer_read_past_end"
   ],
   "note": "Proved but for node_set_coordinates with a pointer in the plane: three numbers are read although there are two (proved)."
  },
  {
   "property": "C13",
   "status": "proved",
   "theorems": [
    "Jali.Simple.created_coordinates",
    "Jali.Simple.created_far_corner",
    "Jali.Simple.coordinates_after_history"
   ],
   "note": "Exact arithmetic in place of double."
  },
  {
   "property": "C130",
   "status": "proved",
   "theorems": [
    "Jali.Mstk.normals_of_mesh",
    "Jali.Mstk.normals_opposite",
    "Jali.Mstk.normals_sum_to_zero",
    "Jali.Mstk.normals_point_out"
   ],
   "note": ""
  },
  {
   "property": "C131",
   "status": "partial",
   "theorems": [
    "Jali.Mstk.volume_of_mesh",
    "Jali.Mstk.volumes_fill_domain",
    "Jali.Geom.tetrahedron_order_matters"
   ],
   "note": "Proved for cells with more than four corners. The sign of the volume of a cell with four corners depends on the order in which MR_Vertices gives them, which is not that of its faces (C58)."
  },
  {
   "property": "C132",
   "status": "partial",
   "theorems": [
    "Jali.Mstk.plane_normals_of_mesh",
    "Jali.Mstk.plane_normals_opposite",
    "Jali.Mstk.plane_normals_sum_to_zero",
    "Jali.Mstk.plane_normals_point_out",
    "Jali.Mstk.area_of_mesh",
    "Jali.Mstk.areas_fill_domain",
    "Jali.Mstk.inverted_triangle_cell"
   ],
   "note": "Proved but for triangles that run clockwise: their area is reported as positive (proved)."
  },
  {
   "property": "C133",
   "status": "partial",
   "theorems": [
    "Jali.Mstk.side_of_mesh",
    "Jali.Mstk.side_volumes_of_cell",
    "Jali.Mstk.side_volumes_and_cell",
    "Jali.Mstk.sides_fill_cell_mesh_partial",
    "Jali.Mstk.side_normals_of_face",
    "Jali.Mstk.octa_sides_wrong",
    "Jali.Mstk.sides_do_not_fill_cell",
    "Jali.Mstk.corner_volumes_of_mesh"
   ],
   "note": "False for flipped faces: the sides over a face that is flipped on this rank have negative volume and inward normals (proved, with a cell whose sides do not fill it). Proved for cells without flipped faces; exact values in all cases."
  },
  {
   "property": "C134",
   "status": "proved",
   "theorems": [
    "Jali.Mstk.plane_side_of_mesh",
    "Jali.Mstk.plane_sides_fill_cell",
    "Jali.Mstk.plane_corner_of_mesh",
    "Jali.Mstk.flipped_alike"
   ],
   "note": ""
  },
  {
   "property": "C135",
   "status": "proved",
   "theorems": [
    "Jali.Mstk.direction_irrelevant",
    "Jali.Mstk.lower_kept",
    "Jali.Mstk.higher_kept",
    "Jali.Mstk.collapse_throws",
    "Jali.Mstk.loop_total"
   ],
   "note": ""
  },
  {
   "property": "C136",
   "status": "partial",
   "theorems": [
    "Jali.Mstk.set_direct",
    "Jali.Mstk.sets_kept_partial",
    "Jali.Mstk.sets_kept_fails_twice",
    "Jali.Mstk.sets_kept_fails_lost"
   ],
   "note": "False twice: a set with both ends of a collapsed edge has the kept end twice, and a set loses an entity that was merged with one that is itself merged later (both proved). Proved where neither happens; the exact content of a set is proved in all cases (set_direct)."
  },
  {
   "property": "C137",
   "status": "partial",
   "theorems": [
    "Jali.Mstk.ghosts_kept_partial",
    "Jali.Mstk.ghosts_kept_fails"
   ],
   "note": "False for entities merged in several steps: the ghost keeps an id that no entity has (proved). Proved if no id that is kept is given up elsewhere."
  },
  {
   "property": "C138",
   "status": "partial",
   "theorems": [
    "Jali.Mstk.nothing_to_collapse",
    "Jali.Mstk.nothing_merged_partial",
    "Jali.Mstk.nothing_merged_undefined"
   ],
   "note": "False: &(merged_ents_info[0]) of an empty vector is undefined, on every rank that has merged nothing (proved). The part before and after that line is proved to change nothing."
  },
  {
   "property": "C139",
   "status": "partial",
   "theorems": [
    "Jali.Mstk.kinds_checked_partial",
    "Jali.Mstk.kinds_message",
    "Jali.Mstk.kinds_checked_fails_short",
    "Jali.Mstk.kinds_checked_fails_elemset",
    "Jali.Mstk.kinds_checked_bare"
   ],
   "note": "False: regions that name their kind in the short spelling and element sets are not checked, and on plane meshes the error is a bare std::exception (all proved). Proved for the long spelling and sets other than element sets."
  },
  {
   "property": "C14",
   "status": "proved",
   "theorems": [
    "Jali.Simple1D.downward",
    "Jali.Simple1D.upward"
   ],
   "note": ""
  },
  {
   "property": "C140",
   "status": "proved",
   "theorems": [
    "Jali.Mstk.faces_leave_no_mark",
    "Jali.Mstk.regions_leave_no_mark"
   ],
   "note": ""
  },
  {
   "property": "C141",
   "status": "partial",
   "theorems": [
    "Jali.MstkFile.exo_read",
    "Jali.MstkFile.par_read_partial",
    "Jali.MstkFile.other_refused",
    "Jali.MstkFile.par_read_fails",
    "Jali.MstkFile.other_refused_fails"
   ],
   "note": "False: .exo and .par are looked for anywhere in the name (both failures proved). Proved for .exo, and for .par if .exo is nowhere in the name."
  },
  {
   "property": "C142",
   "status": "partial",
   "theorems": [
    "Jali.MstkFile.distributed_partial",
    "Jali.MstkFile.partitioner_ignored",
    "Jali.MstkFile.not_distributed"
   ],
   "note": "False: the constructor does not pass the partitioner on, METIS is always used (proved for every other partitioner). The rest is proved."
  },
  {
   "property": "C143",
   "status": "partial",
   "theorems": [
    "Jali.MstkFile.space_dimension",
    "Jali.MstkFile.flat_iff_partial",
    "Jali.MstkFile.flat_iff_fails"
   ],
   "note": "False for a mesh in several pieces, each in a plane of its own on its own rank (proved). Proved for connected meshes; the exact condition is proved in all cases."
  },
  {
   "property": "C144",
   "status": "partial",
   "theorems": [
    "Jali.MstkFile.refused_everywhere",
    "Jali.MstkFile.failures_noticed",
    "Jali.MstkFile.no_mesh_after_failure",
    "Jali.MstkFile.solids_everywhere_partial",
    "Jali.MstkFile.ranks_differ",
    "Jali.MstkFile.rank_waits",
    "Jali.MstkFile.rank_without_vertices"
   ],
   "note": "False: ranks without cells throw alone or read a null pointer, and the other ranks wait for a rank on which MSTK has failed (all proved). Proved for refused names and for solids on all ranks."
  },
  {
   "property": "C145",
   "status": "proved",
   "theorems": [
    "Jali.Geom.point_in_polygon_even_odd",
    "Jali.Geom.point_in_polygon_component",
    "Jali.Geom.point_in_polygon_half_plane",
    "Jali.Geom.point_in_polygon_any_ray",
    "Jali.Geom.point_in_polygon_glue",
    "Jali.Geom.point_in_polygon_pieces"
   ],
   "note": "Exact real arithmetic."
  },
  {
   "property": "C146",
   "status": "partial",
   "theorems": [
    "Jali.Geom.polygon_region_even_odd_partial",
    "Jali.Geom.polygon_region_off_plane_partial",
    "Jali.Geom.polygon_region_start_false",
    "Jali.Geom.polygon_region_unbounded",
    "Jali.Geom.polygon_region_collinear_false"
   ],
   "note": "False if the largest signed component of the computed normal is zero, which for polygons that are not convex also depends on the first vertex (proved), and if the first three vertices are on a line (proved). Proved for all other plane polygons, with the exact bounds of the tolerances."
  },
  {
   "property": "C147",
   "status": "proved",
   "theorems": [
    "Jali.Mstk.some_cell_contains",
    "Jali.Mstk.one_cell_contains",
    "Jali.Mstk.cell_contains",
    "Jali.Mstk.same_count_of_same_rim"
   ],
   "note": "Exact real arithmetic. Cells are convex and run counter-clockwise, possibly with nodes on their sides."
  },
  {
   "property": "C148",
   "status": "partial",
   "theorems": [
    "Jali.Mstk.solid_cell_contains_partial",
    "Jali.Mstk.neighbours_share_face_only_partial",
    "Jali.Mstk.some_solid_cell_contains_partial",
    "Jali.Mstk.tet_cell_contains",
    "Jali.Mstk.tet_mesh_wrong"
   ],
   "note": "False for cells with triangles among their faces: of a tetrahedron only the first face is looked at, and both tetrahedra of a mesh contain a point far away (proved). Proved for cells without triangles, in exact real arithmetic."
  },
  {
   "property": "C149",
   "status": "partial",
   "theorems": [
    "Jali.Mstk.metis_graph3_partial",
    "Jali.Mstk.metis_graph2_partial",
    "Jali.Mstk.metis_graph_boundary_ghosts_wrong",
    "Jali.Mstk.metis_graph_overrun",
    "Jali.Simple.metis_graph"
   ],
   "note": "Proved for all structured meshes (Jali.Simple.metis_graph) and for MSTK meshes without boundary ghosts. False with boundary ghosts, which cell_get_face_adj_cells returns as owned: METIS gets neighbours that are not vertices of the graph (proved for every owned cell with a boundary ghost behind a face). False for surfaces with more than two cells at a face: adjncy is written past its end (proved)."
  },
  {
   "property": "C15",
   "status": "proved",
   "theorems": [
    "Jali.Partition.byIndexSpace_partition"
   ],
   "note": ""
  },
  {
   "property": "C150",
   "status": "partial",
   "theorems": [
    "Jali.BlockSearch.blocks_of_structured_mesh_partial",
    "Jali.BlockSearch.search_simple",
    "Jali.BlockSearch.search_starts",
    "Jali.BlockSearch.line_never_recognised",
    "Jali.BlockSearch.line_cells_lost"
   ],
   "note": "Proved for all three-dimensional structured meshes of boxes, in exact arithmetic. False in one dimension: the search compares the centroid of the last face, which is always the origin (C71), with the end of the domain, so no one-dimensional mesh is recognised and every cell is lost (proved for all one-dimensional structured meshes, Cartesian and spherical, that do not end at the origin)."
  },
  {
   "property": "C151",
   "status": "partial",
   "theorems": [
    "Jali.MSet.clear_empties_partial",
    "Jali.MSet.cleared_kind",
    "Jali.MSet.cleared_stays_empty",
    "Jali.MSet.cleared_add_entities",
    "Jali.MSet.cleared_kind_asserts",
    "Jali.MSet.numEntitiesOf_kind",
    "Jali.Reg.rename_lookup",
    "Jali.Reg.clear_lookup"
   ],
   "note": "False of the code: clear() sets the kind to UNKNOWN_KIND, for which entity_get_type knows no types, so that nothing can be added to a cleared set one by one, and a list of entities is added to ALL only (both proved for all sets and histories). That clear empties, that look-ups skip a cleared set, and renaming are proved."
  },
  {
   "property": "C152",
   "status": "partial",
   "theorems": [
    "Jali.St.managers_as_if_alone_partial",
    "Jali.St.managers_undisturbed_partial",
    "Jali.St.shared_material_name",
    "Jali.St.remade_manager"
   ],
   "note": "Proved for every interleaving when no other manager of the mesh is given a material of the same name. False otherwise: add_material takes over the mesh set of that name, so two managers share it, and a manager made after another was destroyed starts with the old cells (both proved for all cells and meshes). Handles of vectors of one manager are not given to operations of another one."
  },
  {
   "property": "C153",
   "status": "partial",
   "theorems": [
    "Jali.St.weak_alive",
    "Jali.St.orphan_copy_partial",
    "Jali.St.orphan_elements",
    "Jali.St.orphan_assign"
   ],
   "note": "False for multi-material vectors: the expired weak_ptr counts as a manager without materials, so that every element access fails the assert and assign resizes the data to nothing (proved for all vectors). Univalued vectors and the rows of multi-material ones keep their values."
  },
  {
   "property": "C154",
   "status": "proved",
   "theorems": [
    "Jali.MstkGen.generated_mesh_is_held",
    "Jali.MstkGen.generated_mesh_is_polyhedral",
    "Jali.MstkGen.generated_face_cells"
   ],
   "note": "For all block sizes. What MSTK holds after MF_Set_Vertices and MR_Set_Vertices (edges between consecutive vertices, the six faces of a hexahedron from its eight vertices with directions) is an assumption stated in Model/MstkBuild.lean."
  },
  {
   "property": "C155",
   "status": "proved",
   "theorems": [
    "Jali.MstkGen.RegularMesh.solid",
    "Jali.MstkGen.generated_cell_geometry",
    "Jali.MstkGen.generated_total_volume",
    "Jali.MstkGen.generated_cell_normals",
    "Jali.MstkGen.generated_face_geometry",
    "Jali.MstkGen.regular_exists"
   ],
   "note": "For all block sizes and boxes with positive extents, in exact arithmetic."
  },
  {
   "property": "C156",
   "status": "proved",
   "theorems": [
    "Jali.MstkGen.generated_mesh2_is_held",
    "Jali.MstkGen.generated_mesh2_is_polygonal",
    "Jali.MstkGen.generated_edge_cells",
    "Jali.MstkGen.generated_cell_area",
    "Jali.MstkGen.generated_cell_normals2",
    "Jali.MstkGen.generated_total_area",
    "Jali.MstkGen.RegularMesh2.flat",
    "Jali.MstkGen.regular2_exists"
   ],
   "note": "For all block sizes and rectangles with positive extents, in exact arithmetic. What MF_Set_Edges does is an assumption stated in Model/MstkBuild2D.lean."
  },
  {
   "property": "C157",
   "status": "proved",
   "theorems": [
    "Jali.MstkGen.same_mesh",
    "Jali.MstkGen.same_mesh_exists",
    "Jali.MstkGen.serial_whole"
   ],
   "note": "For all boxes with rational coordinates (as in the model of Mesh_simple), in exact arithmetic."
  },
  {
   "property": "C158",
   "status": "proved",
   "theorems": [
    "Jali.BlockSearch.blocks_of_mstk_mesh",
    "Jali.BlockSearch.search_same"
   ],
   "note": "For all boxes with rational coordinates below 1e20, in exact arithmetic."
  },
  {
   "property": "C159",
   "status": "proved",
   "theorems": [
    "Jali.MstkGen.blocks_of_mstk_mesh2",
    "Jali.MstkGen.search2",
    "Jali.MstkGen.limits2"
   ],
   "note": "For all blocks whose coordinates are below 1e20, in exact arithmetic."
  },
  {
   "property": "C16",
   "status": "partial",
   "theorems": [
    "Jali.Partition.byIndexSpace_nonempty_partial",
    "Jali.Partition.byIndexSpace_leaves_part_empty"
   ],
   "note": "False of the code (e.g. trailing parts can be empty); proved under the extra hypothesis of the _partial theorem."
  },
  {
   "property": "C160",
   "status": "partial",
   "theorems": [
    "Jali.SimpleGeom.line_cell_cartesian",
    "Jali.SimpleGeom.line_cell_spherical",
    "Jali.SimpleGeom.line_volumes_sum",
    "Jali.SimpleGeom.line_point_in_cell",
    "Jali.SimpleGeom.line_point_found",
    "Jali.SimpleGeom.line_cell_cylindrical_unset",
    "Jali.SimpleGeom.line_centroid_spherical_not_mean"
   ],
   "note": "Proved for Cartesian meshes; on spherical meshes everything but the centroid. False of the code: on a cylindrical mesh the volume and centroid of a cell are never set (cell_volume returns an uninitialised variable, line_cell_cylindrical_unset); on a spherical mesh the centroid is the middle radius, strictly below the mean radius of the shell (line_centroid_spherical_not_mean)."
  },
  {
   "property": "C161",
   "status": "partial",
   "theorems": [
    "Jali.BlockSearch.search_ends_partial",
    "Jali.BlockSearch.partition_endless",
    "Jali.BlockSearch.search_runs_for_ever",
    "Jali.BlockSearch.hooks_valid"
   ],
   "note": "Proved for every mesh in which crossing a face along an axis always leads to a cell further along it (search_ends_partial). False of the code otherwise: on a mesh of two hook-shaped cells filling a rectangle the search steps from one to the other for ever (search_runs_for_ever)."
  },
  {
   "property": "C162",
   "status": "partial",
   "theorems": [
    "Jali.Mstk.new_mesh_fields_3d",
    "Jali.Mstk.new_mesh_fields_2d",
    "Jali.Mstk.import_of_new_mesh_partial",
    "Jali.Mstk.type_vector_3d",
    "Jali.Mstk.type_vector_2d",
    "Jali.Mstk.own_field_values"
   ],
   "note": "False of the code: every new mesh reports a field Cell_type on its cells (with boundary ghosts also bndry_ghost), so init_from_mesh of a mesh on which nothing was stored makes a state vector Cell_type holding the cell types; an extracted mesh reports pointer fields *parentatt (which init_from_mesh skips), and on several processors with edges requested the temporary attributes TMP_EV0_ATT and TMP_EV1_ATT of init_pedge_dirs, never deleted, are reported on the edges. Proved: nothing else is reported or imported. Supposes that the file has no attributes of these names; on plane meshes with faces and edges on several processors the temporaries are left out (two attributes of one name are made, a matter of MSTK)."
  },
  {
   "property": "C163",
   "status": "proved",
   "theorems": [
    "Jali.Mstk.extracted_again",
    "Jali.Mstk.extracted_again_cells",
    "Jali.Mstk.extracted_again_nothing_else",
    "Jali.Mstk.surface_extracted_again",
    "Jali.Mstk.extracted_again_2d"
   ],
   "note": "Extractions with faces requested at every step but the last, from meshes ready as in C119."
  },
  {
   "property": "C164",
   "status": "proved",
   "theorems": [
    "Jali.Mstk.extracted_cell_geometry",
    "Jali.Mstk.extracted_face_geometry",
    "Jali.Mstk.extracted_solid",
    "Jali.Mstk.extracted_cell_geometry_2d",
    "Jali.Mstk.extracted_face_geometry_2d",
    "Jali.Mstk.extracted_flat",
    "Jali.Mstk.surface_cell_geometry",
    "Jali.Mstk.surface_face_geometry"
   ],
   "note": "In exact arithmetic. Normals: for lists without repeated cells (extracted_solid, extracted_flat; a repeated cell gives a mesh that is not one, C120). The natural normal if the face has an area. Normals on extracted surfaces are as in C69."
  },
  {
   "property": "C165",
   "status": "partial",
   "theorems": [
    "Jali.Partition.any_partitioner",
    "Jali.Partition.which_partitioner",
    "Jali.Mstk.tiles_of_parts3",
    "Jali.Mstk.tiles_of_parts2",
    "Jali.Mstk.tiles_any_partitioner3",
    "Jali.Mstk.tiles_any_partitioner2",
    "Jali.Mstk.tiles_block_partitioner_lose_cells"
   ],
   "note": "Proved for every partitioner but BLOCK. False of the code for BLOCK: on a mesh that it does not recognise as regular the tiles are built without any cells, and no cell has a master tile (tiles_block_partitioner_lose_cells)."
  },
  {
   "property": "C166",
   "status": "partial",
   "theorems": [
    "Jali.Defs.valid_checks",
    "Jali.Defs.valid_kind_rejects"
   ],
   "note": "Proved for valid_entity_type and cell_valid_type. False of the code for entity_valid_kind: it rejects SIDE, WEDGE, CORNER, FACET and BOUNDARY_FACE (proved: exactly these)."
  },
  {
   "property": "C167",
   "status": "partial",
   "theorems": [
    "Jali.Life.exists_iff_kept",
    "Jali.Life.drop_one",
    "Jali.Life.answers",
    "Jali.Life.answers_iff",
    "Jali.Life.kept_all_safe",
    "Jali.Life.answers_false"
   ],
   "note": "Proved: existence is reachability, what is stored can be asked, and everything is safe while meshes and geometric models are kept. False of the code without that: a tile, a mesh set or a vector on a tile does not keep its mesh, a mesh does not keep its geometric model or the mesh it was extracted from (witness histories; the exact conditions are proved)."
  },
  {
   "property": "C168",
   "status": "partial",
   "theorems": [
    "Jali.Reg.region_sets_correspond",
    "Jali.Reg.member_meaning",
    "Jali.Reg.point_region_depends_on_numbers",
    "Jali.MstkGen.frameworks_alike",
    "Jali.MstkGen.frameworks_same_region_sets",
    "Jali.MstkGen.same_nodes"
   ],
   "note": "Proved for regions given by positions of entities and logical regions made of them, with the restrictions of C36 (single-component unions, differences naming the first component again; C22); for the two frameworks on one rank. False of the code for point regions (ties between nearest nodes)."
  },
  {
   "property": "C169",
   "status": "proved",
   "theorems": [
    "Jali.MstkGen.structured_box_cells",
    "Jali.MstkGen.structured_nodes",
    "Jali.MstkGen.structured_plane_faces",
    "Jali.MstkGen.regular_region_sets"
   ],
   "note": "For meshes on one rank without sets made before. In exact arithmetic. Faces on planes for Mesh_MSTK follow with frameworks_same_region_sets, without explicit numbers."
  },
  {
   "property": "C17",
   "status": "proved",
   "theorems": [
    "Jali.Partition.withMetis_partition"
   ],
   "note": ""
  },
  {
   "property": "C170",
   "status": "partial",
   "theorems": [
    "Jali.Mstk.tile_loops",
    "Jali.Mstk.toy_averages_partial",
    "Jali.Mstk.toy_averages_false",
    "Jali.Mstk.toy_velocities",
    "Jali.MstkGen.toy_numerics_false"
   ],
   "note": "Proved for loops over owned cells, for the velocities, and for the averages of cells in no halo of another tile. False of the other averages: tile->cells() also lists the ghost cells of the tile, and the loop body divides the running sum once per visit, so that cells in the halo of another tile get too big an average; a cell without neighbours gets NaN. Run on one rank, the example program itself (10 by 5 by 5 cells, 10 tiles, one halo layer) gets all its 250 averages wrong."
  },
  {
   "property": "C171",
   "status": "partial",
   "theorems": [
    "Jali.St.row_of_material_partial",
    "Jali.St.row_changes",
    "Jali.St.row_changes_other",
    "Jali.St.row_shrunk_false",
    "Jali.St.clear_renumbers_false",
    "Jali.St.row_order_false"
   ],
   "note": "Proved for allowed histories and materials without late cells. False of the code otherwise: after add_cells_to_material the row is in another order than material_cells; after clear(m) or a shrinking resize operator() is undefined behaviour for cells of m; after clear() the next material's row has number 0."
  },
  {
   "property": "C172",
   "status": "proved",
   "theorems": [
    "Jali.MstkGen.regular_region_sets2",
    "Jali.MstkGen.cell_on_line"
   ],
   "note": "For blocks on one rank without sets made before. In exact arithmetic."
  },
  {
   "property": "C173",
   "status": "proved",
   "theorems": [
    "Jali.MstkGen.regular_side",
    "Jali.MstkGen.regular_wedge",
    "Jali.MstkGen.regular_corner",
    "Jali.MstkGen.regular_counts",
    "Jali.MstkGen.regular_side2",
    "Jali.MstkGen.regular_wedge2",
    "Jali.MstkGen.regular_corner2",
    "Jali.MstkGen.regular_counts2"
   ],
   "note": "For blocks on one rank without flipped faces (on flipped faces see C133). In exact arithmetic."
  },
  {
   "property": "C174",
   "status": "proved",
   "theorems": [
    "Jali.MstkGen.regular_point_set",
    "Jali.MstkGen.regular_point_in_cell"
   ],
   "note": "For blocks on one rank without sets made before. In exact arithmetic."
  },
  {
   "property": "C175",
   "status": "partial",
   "theorems": [
    "Jali.MstkGen.regular_point_set2_partial",
    "Jali.MstkGen.one_position2",
    "Jali.MstkGen.regular_point_in_cell2",
    "Jali.MstkGen.regular_point_set2_side_false"
   ],
   "note": "Proved for the rectangle without its left and upper side: the one cell with the point inside, on its right or lower side. False of the code for points on the left or upper side of the block: the set is empty. For blocks on one rank without sets made before. In exact arithmetic."
  },
  {
   "property": "C176",
   "status": "proved",
   "theorems": [
    "Jali.SimpleGeom.structured_point_set",
    "Jali.SimpleGeom.point_in_cell_iff",
    "Jali.SimpleGeom.frameworks_same_point_sets",
    "Jali.SimpleGeom.in_cell_at",
    "Jali.SimpleGeom.line_point_set"
   ],
   "note": "For meshes without sets made before, cells wider than 1e-16 and a node nearer than 1e8 (the constants of the search). In exact arithmetic."
  },
  {
   "property": "C177",
   "status": "partial",
   "theorems": [
    "Jali.CellTypes.structured_type_partial",
    "Jali.CellTypes.regular_type",
    "Jali.CellTypes.regular_type2",
    "Jali.CellTypes.line_type_false",
    "Jali.CellTypes.structured_labeled_set"
   ],
   "note": "Proved in three dimensions and in the plane, and for labeled sets. False of the code in one dimension: every cell of a one-dimensional mesh, which has two nodes, is called a hexahedron (proved for every cell; Mesh_simple.cc:641-643)."
  },
  {
   "property": "C178",
   "status": "partial",
   "theorems": [
    "Jali.SimpleGeom.structured_point_set",
    "Jali.SimpleGeom.line_point_set",
    "Jali.SimpleGeom.structured_coarse_undefined",
    "Jali.SimpleGeom.structured_fine_empty",
    "Jali.SimpleGeom.line_coarse_undefined",
    "Jali.Reg.far_point_undefined",
    "Jali.Reg.near_first_empty"
   ],
   "note": "Proved for cells wider than 1e-16 with a node nearer than 1e8 (C176). False of the code otherwise: where cells are 2e8 wide or wider, the set of the middle of any cell is undefined behaviour (node_get_cells(-1)); where cells are 5e-17 wide or less, the set of a node that is not the first is empty (both proved for every such mesh; Mesh.cc:2705-2720)."
  },
  {
   "property": "C179",
   "status": "partial",
   "theorems": [
    "Jali.SimpleGeom.line_cell_sets",
    "Jali.SimpleGeom.line_node_sets",
    "Jali.SimpleGeom.line_face_sets_partial",
    "Jali.SimpleGeom.line_box_faces_false"
   ],
   "note": "Proved for cells, nodes, and the faces of planes. False of the code for the faces of boxes: the centroid of every face of a one-dimensional mesh is the origin (C71), so the set holds all faces if the origin is in the box and none otherwise; proved for every mesh and box, with the box from 2 to 3 on the nodes 1, 2, 3, 4 as an instance. In exact arithmetic, for meshes without sets made before."
  },
  {
   "property": "C18",
   "status": "proved",
   "theorems": [
    "Jali.MSet.construct_lists_and_index",
    "Jali.MSet.construct_out_of_range"
   ],
   "note": ""
  },
  {
   "property": "C180",
   "status": "partial",
   "theorems": [
    "Jali.Reg.point_region_nodes_partial",
    "Jali.MstkGen.structured_point_nodes",
    "Jali.MstkGen.regular_point_nodes",
    "Jali.MstkGen.regular_point_nodes2",
    "Jali.SimpleGeom.line_point_nodes",
    "Jali.SimpleGeom.point_nodes_false"
   ],
   "note": "Proved in full for structured meshes in one and three dimensions, regular meshes of MSTK in space (one rank) and blocks of them in the plane, with cells 2e-12 wide or wider and without sets made before. On any mesh (with ghosts too) the set holds the first node at the point; false of the code if several nodes are there: the loop stops at the first (Mesh.cc:2917-2919), witness: the mesh of one cell of 5e-13."
  },
  {
   "property": "C181",
   "status": "partial",
   "theorems": [
    "Jali.Reg.undescribed_rejected_partial",
    "Jali.Reg.described_made_partial",
    "Jali.Reg.valid_region_made_partial",
    "Jali.Reg.other_kinds_null",
    "Jali.Reg.other_kinds_logical_abort",
    "Jali.Reg.valid_region_false"
   ],
   "note": "Proved for sets of cells, faces and nodes, and for what valid_region_name accepts of boxes and planes. False of the code for other kinds: sets of edges, sides, wedges and corners give a null pointer without a message (Mesh.cc:2951), or abort in logical regions (line 2982); and valid_region_name (lines 2503-2553) accepts color functions for faces and nodes, polygons for cells of surface meshes and points for faces of one-dimensional meshes, for all of which the construction throws, and labeled sets of edges, which give a null pointer."
  },
  {
   "property": "C182",
   "status": "partial",
   "theorems": [
    "Jali.MSet.expression_partial",
    "Jali.MSet.laws_of_sets_partial",
    "Jali.MSet.arguments_unchanged_partial",
    "Jali.MSet.double_complement_false"
   ],
   "note": "Proved for expressions of unions, intersections and differences on all meshes, and with complements on meshes numbered owned first without ghosts. False of the code with complements where there are ghosts: on every mesh numbered owned first, the complement of the complement of a set loses the last ghost of the mesh (MeshSet.cc:516-522 runs over 0..nghost-1, C22)."
  },
  {
   "property": "C183",
   "status": "proved",
   "theorems": [
    "Jali.MstkGen.structured_logical_cells",
    "Jali.MstkGen.structured_logical_nodes",
    "Jali.MstkGen.regular_logical_sets",
    "Jali.MstkGen.regular_logical_sets2"
   ],
   "note": "In exact arithmetic, for meshes on one rank without sets made before; the logical regions left out are those of C36 and C75."
  },
  {
   "property": "C184",
   "status": "partial",
   "theorems": [
    "Jali.Reg.distributed_sets_partial",
    "Jali.Reg.distributed_complement_false"
   ],
   "note": "Proved for all regions without complements, and with complements on ranks without ghosts. False of the code for complements where there are ghosts: the complement on a rank takes the cells below the number of ghosts instead of the ghosts (MeshSet.cc:516-522, C22), so the GHOST list of the set is wrong."
  },
  {
   "property": "C185",
   "status": "proved",
   "theorems": [
    "Jali.Reg.copy_independent"
   ],
   "note": ""
  },
  {
   "property": "C186",
   "status": "proved",
   "theorems": [
    "Jali.St.names_after",
    "Jali.St.set_by_name",
    "Jali.St.removed_by_name"
   ],
   "note": "For removals that have a defined result (see C42), one state manager per mesh and sets that the program does not rename itself."
  },
  {
   "property": "C187",
   "status": "partial",
   "theorems": [
    "Jali.SideGeom.side_shells_partial",
    "Jali.SideGeom.sides_fill_domain_partial",
    "Jali.SideGeom.corner_shells_partial",
    "Jali.SideGeom.side_shells_wrong",
    "Jali.SideGeom.side_cylindrical_unset"
   ],
   "note": "Proved in spherical geometry for the first side of a cell, and for the second side up to sign; likewise for wedges and corners, and for the sum over the mesh of absolute values. False of the code: the second side of every cell has a negative volume and an inward normal (side_shells_wrong; Mesh.cc:1529-1540), and in cylindrical geometry nothing is set (side_cylindrical_unset; lines 1514-1527)."
  },
  {
   "property": "C19",
   "status": "proved",
   "theorems": [
    "Jali.MSet.merge_is_union",
    "Jali.MSet.merge_rejects"
   ],
   "note": ""
  },
  {
   "property": "C20",
   "status": "proved",
   "theorems": [
    "Jali.MSet.subtract_is_difference"
   ],
   "note": ""
  },
  {
   "property": "C21",
   "status": "proved",
   "theorems": [
    "Jali.MSet.intersect_is_intersection",
    "Jali.MSet.intersect_of_nothing"
   ],
   "note": ""
  },
  {
   "property": "C22",
   "status": "partial",
   "theorems": [
    "Jali.MSet.complement_partial",
    "Jali.MSet.complement_ghosts_wrong"
   ],
   "note": "Proved without ghosts; false with ghosts for every owned-first mesh (ghost loop uses ids 0..nghost-1)."
  },
  {
   "property": "C23",
   "status": "partial",
   "theorems": [
    "Jali.MSet.history_membership_partial",
    "Jali.MSet.add_entity_lists_partial",
    "Jali.MSet.add_entity_index_partial",
    "Jali.MSet.add_entity_stale_ghost_index",
    "Jali.MSet.add_entities_ghosts_undefined",
    "Jali.MSet.add_entities_index_wrong",
    "Jali.MSet.add_entities_partial"
   ],
   "note": "Membership and lists proved for all add_entity histories; the index position goes stale with ghosts, add_entities is undefined for ghosts only and mis-indexes without ghosts (negations proved)."
  },
  {
   "property": "C24",
   "status": "partial",
   "theorems": [
    "Jali.MSet.history_membership_partial",
    "Jali.MSet.rem_entity_order_and_index_wrong",
    "Jali.MSet.rem_entities_partial",
    "Jali.MSet.rem_entities_stale_index",
    "Jali.MSet.rem_entities_repeated_removes_other"
   ],
   "note": "Membership proved; order and index of rem_entity, index of entities removed by rem_entities and repeated requests are wrong (negations proved)."
  },
  {
   "property": "C25",
   "status": "proved",
   "theorems": [
    "Jali.Tile.tiles_own_disjointly",
    "Jali.Tile.index_tiles_cover"
   ],
   "note": ""
  },
  {
   "property": "C26",
   "status": "proved",
   "theorems": [
    "Jali.Tile.tile_halo_exact"
   ],
   "note": ""
  },
  {
   "property": "C27",
   "status": "proved",
   "theorems": [
    "Jali.Tile.tile_lists_consistent"
   ],
   "note": ""
  },
  {
   "property": "C28",
   "status": "partial",
   "theorems": [
    "Jali.Tile.tile_sides_partial",
    "Jali.Tile.tile_sides_missing"
   ],
   "note": "False of the code: tile sides are built under `if (request_wedges)`. Proved: the claim when wedges are requested; without them tiles have no sides."
  },
  {
   "property": "C29",
   "status": "proved",
   "theorems": [
    "Jali.Sides.sides_are_incidences",
    "Jali.Sides.side_nodes"
   ],
   "note": ""
  },
  {
   "property": "C30",
   "status": "proved",
   "theorems": [
    "Jali.Sides.opposite_sides",
    "Jali.Sides.opposite_sides_reversed",
    "Jali.Sides.opposite_sides_1d"
   ],
   "note": ""
  },
  {
   "property": "C31",
   "status": "proved",
   "theorems": [
    "Jali.Sides.wedges"
   ],
   "note": ""
  },
  {
   "property": "C32",
   "status": "proved",
   "theorems": [
    "Jali.Sides.corners"
   ],
   "note": ""
  },
  {
   "property": "C33",
   "status": "proved",
   "theorems": [
    "Jali.MeshCache.request_closure"
   ],
   "note": ""
  },
  {
   "property": "C34",
   "status": "partial",
   "theorems": [
    "Jali.MeshCache.side_data_partial",
    "Jali.MeshCache.stale_normals"
   ],
   "note": "False of the code: after a second geometry update the facet normals reported are those of the first; proved for every history. Volumes are current."
  },
  {
   "property": "C35",
   "status": "proved",
   "theorems": [
    "Jali.Reg.find_meshset_first",
    "Jali.Reg.sets_of_kind",
    "Jali.Reg.set_queries",
    "Jali.Reg.find_after_makes"
   ],
   "note": ""
  },
  {
   "property": "C36",
   "status": "partial",
   "theorems": [
    "Jali.Reg.region_set_partial",
    "Jali.Reg.union_of_one_takes_over",
    "Jali.Reg.no_operation_undefined",
    "Jali.Reg.difference_with_itself_aborts",
    "Jali.Reg.difference_ignores_first_again"
   ],
   "note": "Proved at any nesting depth except: union of one component (takes over and renames the component's set), difference naming its first component again (ignored or aborts), no operation (undefined behaviour), complement with ghosts (C22). The excluded cases are proved false of the code."
  },
  {
   "property": "C37",
   "status": "proved",
   "theorems": [
    "Jali.Types.entity_types",
    "Jali.Types.entity_counts"
   ],
   "note": "Manifold dimension 2 and 3; the lists of nodes, edges, faces and cells are those of the framework, numbered without gaps."
  },
  {
   "property": "C38",
   "status": "partial",
   "theorems": [
    "Jali.St.find_returns_first_added_partial",
    "Jali.St.add_again_ignored",
    "Jali.St.foreign_copy_twice"
   ],
   "note": "Proved for every history except copies of vectors of another mesh, which register twice (proved)."
  },
  {
   "property": "C39",
   "status": "partial",
   "theorems": [
    "Jali.St.iterate_kind_partial",
    "Jali.St.iterate_kind_undefined",
    "Jali.St.iterate_kind_previous"
   ],
   "note": "False of the code: add without data or with an array stores the position before the new vector; iterating is undefined or yields the previous vector (proved for every such state). Proved for histories adding only by value or copy."
  },
  {
   "property": "C40",
   "status": "proved",
   "theorems": [
    "Jali.St.names_parallel"
   ],
   "note": ""
  },
  {
   "property": "C41",
   "status": "partial",
   "theorems": [
    "Jali.St.materials_agree_partial",
    "Jali.St.material_additions_succeed",
    "Jali.St.material_takes_over_set",
    "Jali.St.tile_vector_undefined"
   ],
   "note": "Proved for every allowed history (new cells, new set names, no multi-material vector on a tile); the excluded cases are proved false of the code."
  },
  {
   "property": "C42",
   "status": "partial",
   "theorems": [
    "Jali.St.rem_material_tables_partial",
    "Jali.St.rem_material_undefined",
    "Jali.St.rem_material_correct_iff",
    "Jali.St.removed_material_returns"
   ],
   "note": "False of the code: reads past the list of a cell unless the material is its last, never renumbers, keeps the mesh set. The exact condition under which removal is right is proved as an equivalence."
  },
  {
   "property": "C43",
   "status": "partial",
   "theorems": [
    "Jali.St.multi_assign_read_partial",
    "Jali.St.multi_assign_succeeds_partial",
    "Jali.St.multi_write_read_partial",
    "Jali.St.late_cell_unreachable"
   ],
   "note": "Proved for allowed histories; cells added later to a material cannot be read or written because the reverse map of the set is stale (proved)."
  },
  {
   "property": "C44",
   "status": "proved",
   "theorems": [
    "Jali.St.copy_is_deep",
    "Jali.St.get_is_shallow",
    "Jali.St.assigned_write_seen"
   ],
   "note": ""
  },
  {
   "property": "C45",
   "status": "partial",
   "theorems": [
    "Jali.Factory.included_entities_partial",
    "Jali.Factory.reset_keeps_sides",
    "Jali.Factory.reset_sides_wrong"
   ],
   "note": "Proved for all kinds but SIDE, and for SIDE in histories without reset_options; reset_options never changes whether sides are included (proved), so the claim is false of the code for SIDE."
  },
  {
   "property": "C46",
   "status": "partial",
   "theorems": [
    "Jali.Factory.reset_options_partial",
    "Jali.Factory.reset_options_wrong"
   ],
   "note": "Proved when sides are not included; if they are, the factory differs from a new one exactly in that (proved). MeshFactory.cc:145-180 does not assign request_sides_."
  },
  {
   "property": "C47",
   "status": "partial",
   "theorems": [
    "Jali.Factory.line_points_partial",
    "Jali.Factory.line_cells_wrong",
    "Jali.Factory.line_one_cell_error"
   ],
   "note": "False of the code: factory(x0,x1,nx) makes nx points, hence nx-1 cells ending one spacing before x1, and an error for nx = 1 (proved for all inputs)."
  },
  {
   "property": "C48",
   "status": "partial",
   "theorems": [
    "Jali.Factory.mesh_or_error_partial",
    "Jali.Factory.invalid_box3_rejected",
    "Jali.Factory.invalid_box2_rejected",
    "Jali.Factory.invalid_points_rejected",
    "Jali.Factory.invalid_line_rejected",
    "Jali.Factory.box2_null",
    "Jali.Factory.failing_rank_waits",
    "Jali.Factory.misfit_on_one_rank_waits"
   ],
   "note": "Proved for ranks that behave alike, and rejection of invalid sizes on any rank by all ranks; false of the code in three ways, each proved: without MSTK a valid 2D request yields a null mesh; a framework failing on some ranks only leaves these waiting for ever; so does a geometric model that does not fit on some ranks."
  },
  {
   "property": "C49",
   "status": "proved",
   "theorems": [
    "Jali.Geom.box_region_inside",
    "Jali.Geom.box_corner_order"
   ],
   "note": "Exact arithmetic."
  },
  {
   "property": "C50",
   "status": "partial",
   "theorems": [
    "Jali.Geom.polygon_region_orientation_partial",
    "Jali.Geom.polygon_region_orientation_false"
   ],
   "note": "False of the code: the projection direction is chosen by the largest signed component of the normal instead of the largest absolute one, so the unit square given clockwise contains a far away line, given counter-clockwise it does not (proved). Proved for convex polygons: the starting vertex never matters, interior points are contained in both orientations, and if neither orientation has zero as its largest normal component both contain only points close to the polygon. Missing: exact agreement inside the tolerance; for polygons that are not convex see C146."
  },
  {
   "property": "C51",
   "status": "partial",
   "theorems": [
    "Jali.Geom.point_in_polyhed_partial",
    "Jali.Geom.point_in_polyhed_triangles",
    "Jali.Geom.point_in_polyhed_wrong"
   ],
   "note": "False of the code: triangular faces do not advance the offset, so a tetrahedron accepts points far outside (witness). Proved exactly for polyhedra without triangular faces."
  },
  {
   "property": "C52",
   "status": "proved",
   "theorems": [
    "Jali.Geom.point_in_polygon_invariant",
    "Jali.Geom.point_in_polygon_outside",
    "Jali.Geom.point_in_polygon_convex"
   ],
   "note": "Exact real arithmetic."
  },
  {
   "property": "C53",
   "status": "partial",
   "theorems": [
    "Jali.Geom.polygon_normal_contour",
    "Jali.Geom.areaVector_invariance",
    "Jali.Geom.polygon_area_plane",
    "Jali.Geom.triangle_area_plane",
    "Jali.Geom.polygon_area_flat",
    "Jali.Geom.inverted_triangle_not_flagged"
   ],
   "note": "All parts proved in exact arithmetic except flagging: an inverted plane triangle is not flagged (proved for every inverted triangle)."
  },
  {
   "property": "C54",
   "status": "proved",
   "theorems": [
    "Jali.Geom.polyhedron_volume",
    "Jali.SimpleGeom.simple_cell_geometry",
    "Jali.MeshGeom.outward_normals_sum",
    "Jali.SimpleGeom.simple_closed_star"
   ],
   "note": "Exact real arithmetic; proved for every closed star-shaped polyhedron and instantiated to the structured mesh."
  },
  {
   "property": "C55",
   "status": "partial",
   "theorems": [
    "Jali.Geom.find_region_by_name",
    "Jali.Geom.find_region_by_id",
    "Jali.Geom.geometric_model_history",
    "Jali.Geom.model_copy",
    "Jali.Geom.domain_list_constructor_false",
    "Jali.Geom.domain_construction_partial"
   ],
   "note": "Proved for geometric models and for domains built step by step; the domain constructor taking lists always throws (proved for all inputs; Domain.cc:117-127 tests dim != 2 || dim != 3)."
  },
  {
   "property": "C56",
   "status": "partial",
   "theorems": [
    "Jali.Geom.region_copy_partial",
    "Jali.Geom.region_copy_false"
   ],
   "note": "Proved for box, plane, point and polygon regions; copies of logical and labeled set regions lose the operation, component names and labels (proved for all of them)."
  },
  {
   "property": "C57",
   "status": "partial",
   "theorems": [
    "Jali.Err.behaviour_partial",
    "Jali.Err.behaviour_ignored",
    "Jali.Err.behaviour_not_global"
   ],
   "note": "exception_behavior() proved. False of the code for errors: the variable is in an unnamed namespace of the header, so every translation unit has its own and errors raised by the library always throw, whatever was set (proved for every program)."
  },
  {
   "property": "C58",
   "status": "partial",
   "theorems": [
    "Jali.Defs.kind_celltype_partitioner_names",
    "Jali.Defs.entity_type_names_wrong",
    "Jali.Defs.entity_type_names_partial"
   ],
   "note": "Holds for kinds, cell types and partitioners; false for Entity_type_string, which is off by one for every value (negation proved)."
  },
  {
   "property": "C59",
   "status": "partial",
   "theorems": [
    "Jali.MeshGeom.face_normal_cell",
    "Jali.MeshGeom.face_normal_natural",
    "Jali.MeshGeom.face_normal_opposite",
    "Jali.MeshGeom.outward_normals_sum",
    "Jali.MeshGeom.outward_normals_point_out",
    "Jali.MeshGeom.plane_normal_points_out",
    "Jali.MeshGeom.face_normal_1d",
    "Jali.MeshGeom.surface_normal_same"
   ],
   "note": "Proved for solid, plane and one-dimensional meshes; false for surface meshes (C69)."
  },
  {
   "property": "C60",
   "status": "proved",
   "theorems": [
    "Jali.Simple.node_get_cell_faces_exact"
   ],
   "note": ""
  },
  {
   "property": "C61",
   "status": "partial",
   "theorems": [
    "Jali.FaceCells.structured_face_get_cells_type_partial",
    "Jali.FaceCells.structured_node_get_cells_ignores_type",
    "Jali.FaceCells.structured_node_adj_ignores_type"
   ],
   "note": "Holds for face_get_cells; false for the node and adjacency queries of the structured mesh, which ignore the type argument (negation proved)."
  },
  {
   "property": "C62",
   "status": "proved",
   "theorems": [
    "Jali.Partition.byBlocks_partition"
   ],
   "note": ""
  },
  {
   "property": "C63",
   "status": "partial",
   "theorems": [
    "Jali.Partition.byBlocks_unrecognised_loses_cells"
   ],
   "note": "False of the code: the unrecognised mesh only prints a message and leaves every part empty; negation proved."
  },
  {
   "property": "C64",
   "status": "proved",
   "theorems": [
    "Jali.FaceCells.face_get_cells_by_type",
    "Jali.FaceCells.face_with_three_cells_overruns"
   ],
   "note": ""
  },
  {
   "property": "C65",
   "status": "partial",
   "theorems": [
    "Jali.Tile.tile_set_entities_partial",
    "Jali.Tile.tile_set_ghosts_missing"
   ],
   "note": "False of the code for GHOST: the mesh set's own GHOST part is intersected with the tile's ghosts. Proved: what each query returns; a witness where OWNED and GHOST answers miss a member of ALL."
  },
  {
   "property": "C66",
   "status": "proved",
   "theorems": [
    "Jali.Sides.node_queries_by_type"
   ],
   "note": ""
  },
  {
   "property": "C67",
   "status": "partial",
   "theorems": [
    "Jali.MeshCache.queries_available_partial",
    "Jali.MeshCache.node_get_wedges_needs_corners",
    "Jali.MeshCache.solid_mesh_without_faces_aborts"
   ],
   "note": "Proved for all queries but node_get_wedges (asserts corners) and for meshes with faces or of dimension at most 2; the two excluded cases are proved to abort."
  },
  {
   "property": "C68",
   "status": "partial",
   "theorems": [
    "Jali.Geom.vertex_order_irrelevant_partial",
    "Jali.Geom.tetrahedron_volume",
    "Jali.Geom.tetrahedron_order_matters"
   ],
   "note": "False for four vertices (proved for every tetrahedron), proved for more."
  },
  {
   "property": "C69",
   "status": "partial",
   "theorems": [
    "Jali.MeshGeom.surface_normal_same",
    "Jali.MeshGeom.surface_normal_wrong"
   ],
   "note": "False of the code: the normal is the same for all cells of the edge (proved for every surface mesh), because the cell centre is accumulated in a Point of dimension 0."
  },
  {
   "property": "C70",
   "status": "proved",
   "theorems": [
    "Jali.MeshGeom.edge_vector_from",
    "Jali.MeshGeom.edge_length_centroid"
   ],
   "note": "Exact real arithmetic; length and centroid stated for edges in space."
  },
  {
   "property": "C71",
   "status": "partial",
   "theorems": [
    "Jali.MeshGeom.face_centroid_1d",
    "Jali.MeshGeom.face_normal_1d",
    "Jali.MeshGeom.ball_geometry"
   ],
   "note": "False of the code: the centroid is the origin for every face of every 1D mesh, and the natural normal aborts at r = 0 of a spherical mesh; normals with respect to cells proved right."
  },
  {
   "property": "C72",
   "status": "proved",
   "theorems": [
    "Jali.SimpleGeom.simple_cell_geometry",
    "Jali.SimpleGeom.simple_total_volume",
    "Jali.SimpleGeom.simple_point_in_cell",
    "Jali.SimpleGeom.simple_normals",
    "Jali.SimpleGeom.simple_closed_star"
   ],
   "note": "Exact arithmetic."
  },
  {
   "property": "C73",
   "status": "proved",
   "theorems": [
    "Jali.Reg.region_set_exact",
    "Jali.Reg.labeled_region_lists",
    "Jali.Reg.labeled_set_exact"
   ],
   "note": ""
  },
  {
   "property": "C74",
   "status": "partial",
   "theorems": [
    "Jali.Reg.point_region_cells_partial",
    "Jali.Reg.point_region_exact",
    "Jali.Reg.point_region_misses_cell",
    "Jali.Reg.point_far_away_undefined"
   ],
   "note": "Proved where the nearest node is a corner of every cell that contains the point. False of the code: only cells around the nearest node are looked at (witness); undefined behaviour when no node is within 1e8."
  },
  {
   "property": "C75",
   "status": "partial",
   "theorems": [
    "Jali.Reg.nested_regions_end_partial",
    "Jali.Reg.circular_regions_never_end"
   ],
   "note": "Proved for regions nested without a circle; circular logical regions recurse without end."
  },
  {
   "property": "C76",
   "status": "partial",
   "theorems": [
    "Jali.Reg.init_sets_partial",
    "Jali.Reg.kinds_asked_for",
    "Jali.Reg.init_skips_requested_kind",
    "Jali.Reg.no_cell_set_for_logical_in_2d",
    "Jali.Reg.init_twice_duplicates"
   ],
   "note": "Contents, frame and existence proved except for regions whose CELL set exists when their turn comes; the order dependence, the missing 2D cell sets and the duplication are proved."
  },
  {
   "property": "C77",
   "status": "partial",
   "theorems": [
    "Jali.Reg.find_from_region",
    "Jali.Reg.valid_iff_suits",
    "Jali.Reg.labeled_region_not_valid"
   ],
   "note": "Proved; but labeled set regions declared with a qualified entity string are never valid."
  },
  {
   "property": "C78",
   "status": "partial",
   "theorems": [
    "Jali.St.add_returns_requested_partial",
    "Jali.St.add_new_contents",
    "Jali.St.add_all_returns_owned"
   ],
   "note": "Proved except for kind ANY_KIND and type ALL: with type ALL the vector on owned entities is returned (proved)."
  },
  {
   "property": "C79",
   "status": "partial",
   "theorems": [
    "Jali.St.multi_vector_sizes_partial",
    "Jali.St.multi_vector_values_kept_partial",
    "Jali.St.multi_elements_kept_partial",
    "Jali.St.added_cell_loses_value_false"
   ],
   "note": "Proved for allowed histories (see C41), for the stored rows and element by element. False of the code for add_cells_to_material on a material that has cells: its last cell loses its value in every multi-material vector (operator() gives zero there)."
  },
  {
   "property": "C80",
   "status": "proved",
   "theorems": [
    "Jali.SideGeom.side_volumes_3d",
    "Jali.SideGeom.sides_fill_cell_3d",
    "Jali.SideGeom.side_volumes_sum_to_cell_volume",
    "Jali.SideGeom.sides_fill_cell_2d"
   ],
   "note": ""
  },
  {
   "property": "C81",
   "status": "proved",
   "theorems": [
    "Jali.SideGeom.side_normals_sum_to_face",
    "Jali.SideGeom.side_normals_sum_to_face_normal",
    "Jali.SideGeom.side_geometry_3d",
    "Jali.SideGeom.side_geometry_2d",
    "Jali.SideGeom.opposite_side_normals"
   ],
   "note": ""
  },
  {
   "property": "C82",
   "status": "partial",
   "theorems": [
    "Jali.SideGeom.wedge_geometry_3d",
    "Jali.SideGeom.wedge_geometry_2d_partial",
    "Jali.SideGeom.wedge_facet1_normal_2d_wrong"
   ],
   "note": "Proved in space. In the plane the normal of facet 1 is not perpendicular to the facet (proved; Mesh.cc:1494-1502 turns the vector from the first node to the cell centroid instead of the one from the edge centre)."
  },
  {
   "property": "C83",
   "status": "partial",
   "theorems": [
    "Jali.SideGeom.corner_volumes_sum",
    "Jali.SideGeom.corner_surface_3d",
    "Jali.SideGeom.corner_coordinates_3d",
    "Jali.SideGeom.corner_outline_2d",
    "Jali.SideGeom.corner_coordinates_2d_partial",
    "Jali.SideGeom.corner_coordinates_2d_clockwise"
   ],
   "note": "Proved except corner_get_coordinates in the plane at reflex corners, where the points run clockwise (proved; Mesh.cc:2238-2250)."
  },
  {
   "property": "C84",
   "status": "partial",
   "theorems": [
    "Jali.SideGeom.side_coordinates_1d_partial",
    "Jali.SideGeom.sides_fill_line_partial",
    "Jali.SideGeom.side_volumes_1d_wrong",
    "Jali.SideGeom.side_volume_recompute_1d",
    "Jali.SideGeom.corner_coordinates_1d_wrong"
   ],
   "note": "On the line only the coordinates of sides are right: the side at the second node has negative volume and an inward normal, recomputing a side volume aborts, the corner at the second node is given in descending order (all proved; Mesh.cc:1529-1543, 2218-2221)."
  },
  {
   "property": "C85",
   "status": "partial",
   "theorems": [
    "Jali.Factory.available_iff_selectable",
    "Jali.Factory.generates_iff_partial",
    "Jali.Factory.reads_extracts_iff_partial",
    "Jali.Factory.mstk_reported_without_build"
   ],
   "note": "Proved for a library built with MSTK; without it MSTK is still reported as available and capable (proved)."
  },
  {
   "property": "C86",
   "status": "partial",
   "theorems": [
    "Jali.Factory.options_reach_mesh_partial",
    "Jali.Factory.options_lost"
   ],
   "note": "Proved except: 1D meshes never get the geometric model, meshes generated in 3D are always Cartesian (proved)."
  },
  {
   "property": "C87",
   "status": "partial",
   "theorems": [
    "Jali.Geom.plane_inside",
    "Jali.Geom.plane_inside_partial",
    "Jali.Geom.plane_inside_scale_false"
   ],
   "note": "What the test decides is proved; it depends on the length of the normal, which is not normalised (witness)."
  },
  {
   "property": "C88",
   "status": "proved",
   "theorems": [
    "Jali.Geom.point_region_inside"
   ],
   "note": "Exact arithmetic."
  },
  {
   "property": "C89",
   "status": "partial",
   "theorems": [
    "Jali.Geom.box_dimension",
    "Jali.Geom.box_corners_partial",
    "Jali.Geom.box_corners_false"
   ],
   "note": "Dimension and degeneracy proved; corners() returns the corners as given, so for corners in another order they are not low and high (witness)."
  },
  {
   "property": "C90",
   "status": "proved",
   "theorems": [
    "Jali.Geom.polygon_region_2d",
    "Jali.Geom.polygon_region_2d_swap"
   ],
   "note": "Exact arithmetic."
  },
  {
   "property": "C91",
   "status": "partial",
   "theorems": [
    "Jali.Geom.polygon_region_contains",
    "Jali.Geom.polygon_region_bounded_partial",
    "Jali.Geom.polygon_region_unbounded",
    "Jali.Geom.polygon_region_collinear_false"
   ],
   "note": "Proved for strictly convex polygons: all interior points are contained, and only points near the polygon if the largest component of the normal is not zero. False if it is zero (unbounded region) and if the first three vertices are collinear (plane not tested); both proved. For polygons that are not convex see C146."
  },
  {
   "property": "C92",
   "status": "proved",
   "theorems": [
    "Jali.Geom.region_definitions_checked",
    "Jali.Geom.logical_operation_names",
    "Jali.Geom.logical_and_labeled_as_given"
   ],
   "note": ""
  },
  {
   "property": "C93",
   "status": "proved",
   "theorems": [
    "Jali.Err.message_text",
    "Jali.Err.message_constructor",
    "Jali.Err.numeral_inj"
   ],
   "note": "The text that %g gives is a parameter of at most 22 characters; pieces contain no embedded terminator."
  },
  {
   "property": "C94",
   "status": "proved",
   "theorems": [
    "Jali.MstkGen.generate_defined",
    "Jali.MstkGen.generate_entities"
   ],
   "note": "Exact arithmetic; int without overflow. What MSTK does with the entities (MF_Set_Vertices, MR_Set_Vertices) is not modelled."
  },
  {
   "property": "C95",
   "status": "proved",
   "theorems": [
    "Jali.MstkGen.ids_agree",
    "Jali.MstkGen.ids_number_grid"
   ],
   "note": "Three dimensions; see C99 for two."
  },
  {
   "property": "C96",
   "status": "proved",
   "theorems": [
    "Jali.MstkGen.classification"
   ],
   "note": "Three dimensions; the numbering of the model entities is taken from the figure in the source."
  },
  {
   "property": "C97",
   "status": "proved",
   "theorems": [
    "Jali.MstkGen.closure",
    "Jali.MstkGen.cells_right_handed"
   ],
   "note": "Three dimensions."
  },
  {
   "property": "C98",
   "status": "proved",
   "theorems": [
    "Jali.MstkGen.distributed"
   ],
   "note": "The meshes before MSTK weaves them together; the weaving is not modelled."
  },
  {
   "property": "C99",
   "status": "proved",
   "theorems": [
    "Jali.MstkGen.generate2_entities",
    "Jali.MstkGen.distributed2"
   ],
   "note": "MVs_CommonEdge is modelled as a search for an edge with the two given end points."
  }
 ]
}