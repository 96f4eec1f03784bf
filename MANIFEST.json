{
 "claims": [
  {
   "property": "C01",
   "status": "proved",
   "theorems": [
    "Verif.Chain.C01_addObject_keeps_order"
   ],
   "note": "For all acyclic networks, all ordered chains, all blocks; termination included."
  },
  {
   "property": "C02",
   "status": "proved",
   "theorems": [
    "Verif.Chain.C02_exec_order",
    "Verif.Chain.C02_exec_ok_trace"
   ],
   "note": "For every network, chain and failure behaviour of the blocks."
  },
  {
   "property": "C03",
   "status": "proved",
   "theorems": [
    "Verif.Chain.C03_loop_detected",
    "Verif.Chain.C03_loop_iff_unordered"
   ],
   "note": "Cycles of any length among the blocks of the chain; the loop error is exactly 'chain not in dependency order'."
  },
  {
   "property": "C04",
   "status": "proved",
   "theorems": [
    "Verif.Chain.C04_built_chain_executes",
    "Verif.Chain.C04_late_wiring_fails",
    "Verif.Pin.C04_wired_network_executes"
   ],
   "note": "Connections wired before the insertions (C04_late_wiring_fails shows this premise is needed)."
  },
  {
   "property": "C05",
   "status": "partial",
   "theorems": [
    "Verif.Chain.C05_addObject_terminates_fails",
    "Verif.Chain.C05_addObject_terminates_partial"
   ],
   "note": "False as stated: C05_addObject_terminates_fails (three blocks in a ring). Proved on acyclic networks."
  },
  {
   "property": "C06",
   "status": "proved",
   "theorems": [
    "Verif.Chain.C06_ids_unique",
    "Verif.Chain.C06_ids_stable"
   ],
   "note": "Uniqueness on every network; stability on acyclic networks."
  },
  {
   "property": "C07",
   "status": "proved",
   "theorems": [
    "Verif.Chain.C07_delete",
    "Verif.Chain.C07_exec_after_delete"
   ],
   "note": ""
  },
  {
   "property": "C08",
   "status": "proved",
   "theorems": [
    "Verif.Chain.C08_clone"
   ],
   "note": "Except for the id counter (C49)."
  },
  {
   "property": "C09",
   "status": "proved",
   "theorems": [
    "Verif.Pin.C09_both_ends_agree",
    "Verif.Pin.C09_children",
    "Verif.Pin.C09_graph_wellformed"
   ],
   "note": ""
  },
  {
   "property": "C10",
   "status": "proved",
   "theorems": [
    "Verif.Pin.C10_accept_iff_legal",
    "Verif.Pin.C10_types_agree"
   ],
   "note": ""
  },
  {
   "property": "C11",
   "status": "partial",
   "theorems": [
    "Verif.Pin.C11_removeAllPins_fails",
    "Verif.Pin.C11_removeAllPins_partial",
    "Verif.Pin.C11_removeAllPins_exact"
   ],
   "note": "False as stated: C11_removeAllPins_fails. Proved, with an exact condition, when no two connections between the two blocks share a port."
  },
  {
   "property": "C12",
   "status": "partial",
   "theorems": [
    "Verif.Pin.C12_removePin_fails",
    "Verif.Pin.C12_removePin_partial",
    "Verif.Pin.C12_removePin_absent_partial"
   ],
   "note": "False as stated: C12_removePin_fails. Proved for an existing pin whose two ports carry no other connection between the two blocks, and for blocks that are not connected at all."
  },
  {
   "property": "C13",
   "status": "partial",
   "theorems": [
    "Verif.Pin.C13_dangling_link_fails",
    "Verif.Pin.C13_clear_hangs_fails",
    "Verif.Pin.C13_clear_hangs_after_removePin_fails",
    "Verif.Pin.C13_clear_detaches_partial",
    "Verif.Pin.C13_no_trace"
   ],
   "note": "False as stated: dangling links (C13_dangling_link_fails) and non-termination (C13_clear_hangs_fails, C13_clear_hangs_after_removePin_fails). Proved when connections between the same two blocks share no port."
  },
  {
   "property": "C14",
   "status": "proved",
   "theorems": [
    "Verif.Flow.C14_mandatory_iff",
    "Verif.Flow.C14_error_names_culprit"
   ],
   "note": ""
  },
  {
   "property": "C15",
   "status": "proved",
   "theorems": [
    "Verif.Flow.C15_data_flow",
    "Verif.Flow.C15_single_link"
   ],
   "note": "Serialisation is taken faithful (C16); getters are taken not to modify the block."
  },
  {
   "property": "C16",
   "status": "partial",
   "theorems": [
    "Verif.BinStream.C16_transport_partial",
    "Verif.BinStream.C16_nested_map_fails"
   ],
   "note": "False for maps nested in maps (C16_nested_map_fails). Proved for all other types, in particular for all port types of the repository (portTypes_ok)."
  },
  {
   "property": "C17",
   "status": "partial",
   "theorems": [
    "Verif.BinStream.C17_map_read_replaces_fails",
    "Verif.BinStream.C17_map_read_merges_partial",
    "Verif.BinStream.C17_overwrites"
   ],
   "note": "False as stated: C17_map_read_replaces_fails. Proved: exact merge semantics; other containers do overwrite."
  },
  {
   "property": "C18",
   "status": "proved",
   "theorems": [
    "Verif.SharedPtr.C18_memory_safe",
    "Verif.SharedPtr.C18_owner_kinds",
    "Verif.SharedPtr.C18_deleted_with_last_owner",
    "Verif.SharedPtr.C18_reset_own_object_fails"
   ],
   "note": "Programs that hand each raw pointer to one owner only, as the class documentation requires (C18_reset_own_object_fails shows why)."
  },
  {
   "property": "C19",
   "status": "proved",
   "theorems": [
    "Verif.SharedPtr.C19_read_shares",
    "Verif.SharedPtr.C19_late_read_fails"
   ],
   "note": "Other owner alive at reading time; C19_late_read_fails covers the parenthesis of the statement."
  },
  {
   "property": "C20",
   "status": "proved",
   "theorems": [
    "Verif.Registry.C20_ids",
    "Verif.Registry.C20_stable",
    "Verif.Registry.C20_first_registration",
    "Verif.Registry.C20_registration_result",
    "Verif.Registry.C20_types_listed"
   ],
   "note": "Both build types; C20_registration_result covers conflicting registrations."
  },
  {
   "property": "C21",
   "status": "proved",
   "theorems": [
    "Verif.Registry.C21_factory_is_a_map",
    "Verif.Registry.C21_same_creator_twice_fails"
   ],
   "note": "Each registration passes its own creator object (C21_same_creator_twice_fails shows why)."
  },
  {
   "property": "C22",
   "status": "partial",
   "theorems": [
    "Verif.Xml.C22_exact",
    "Verif.Xml.C22_round_trip_partial",
    "Verif.Xml.C22_round_trip_fails",
    "Verif.Xml.C22_absorb"
   ],
   "note": "False as stated: C22_round_trip_fails. C22_exact gives what comes back for all settings; round trip proved for priorities up to INT_MAX and directories without blanks at their ends."
  },
  {
   "property": "C23",
   "status": "partial",
   "theorems": [
    "Verif.Xml.C23_resolve",
    "Verif.Xml.C23_absorb",
    "Verif.Xml.C23_round_trip_partial",
    "Verif.Xml.C23_forced_connection_fails",
    "Verif.Xml.C23_two_names_fails"
   ],
   "note": "False as stated: C23_forced_connection_fails. Proved when connections respect port types; the reading part C23_absorb is proved in full."
  },
  {
   "property": "C24",
   "status": "proved",
   "theorems": [
    "Verif.Field.C24_field_transport"
   ],
   "note": "Value types: all that reading overwrites (everything but maps); pointers as 8-byte values."
  },
  {
   "property": "C25",
   "status": "proved",
   "theorems": [
    "Verif.Field.C25_complete",
    "Verif.Field.C25_refuse"
   ],
   "note": "bitpit container modelled as list of distinct ids."
  },
  {
   "property": "C26",
   "status": "partial",
   "theorems": [
    "Verif.Field.C26_squeeze_partial",
    "Verif.Field.C26_order_kept",
    "Verif.Field.C26_repeated_id_fails"
   ],
   "note": "Fails for a repeated id in the list in the default mode (C26_repeated_id_fails); proved for keepOrder and for lists without repetitions."
  },
  {
   "property": "C27",
   "status": "proved",
   "theorems": [
    "Verif.Field.C27_getDataFrom"
   ],
   "note": ""
  },
  {
   "property": "C28",
   "status": "partial",
   "theorems": [
    "Verif.Field.C28_set_location_partial",
    "Verif.Field.C28_validity_predicate_fails"
   ],
   "note": "setDataLocation proved for all integers; the validity predicate is constantly true (C28_validity_predicate_fails)."
  },
  {
   "property": "C29",
   "status": "proved",
   "theorems": [
    "Verif.Interp.C29_points_to_cells_exact",
    "Verif.Interp.C29_points_to_cells_bounds",
    "Verif.Interp.C29_cells_to_points_exact",
    "Verif.Interp.C29_cells_to_points_bounds",
    "Verif.Interp.C29_constants",
    "Verif.Interp.C29_points_to_interfaces"
   ],
   "note": "Values and weights in any linearly ordered field (no rounding); exact weighted-average formula plus bounds; also interface version."
  },
  {
   "property": "C30",
   "status": "partial",
   "theorems": [
    "Verif.Mesh.C30_fresh_partial",
    "Verif.Mesh.C30_swap_fails",
    "Verif.Mesh.C30_degrade_fails"
   ],
   "note": "Proved over all histories of constructors (type, patch), edits, PID operations, builds, cleans, updates, triangulate, cleanGeometry, resetPatch and external edits followed by setUnsyncAll. False for swap (C30_swap_fails) and for degradeDegenerateElements (C30_degrade_fails)."
  },
  {
   "property": "C31",
   "status": "partial",
   "theorems": [
    "Verif.Mesh.C31_no_stale_partial",
    "Verif.Mesh.C31_succeeds",
    "Verif.Mesh.C31_none_stays",
    "Verif.Mesh.C31_up_to_date_partial",
    "Verif.Mesh.C31_empty_mesh_fails",
    "Verif.Mesh.C31_interfaces_fails"
   ],
   "note": "No stale structure after update on any reachable object, except the kd-tree of a mesh without vertices (C31_empty_mesh_fails); structures never requested stay unbuilt except adjacencies needed by stale interfaces (C31_interfaces_fails)."
  },
  {
   "property": "C32",
   "status": "partial",
   "theorems": [
    "Verif.Mesh.C32_reset_partial",
    "Verif.Mesh.C32_reset_unknown_type",
    "Verif.Mesh.C32_support_partial",
    "Verif.Mesh.C32_build_partial",
    "Verif.Mesh.C32_list_constructor_fails",
    "Verif.Mesh.C32_list_constructor_null_fails",
    "Verif.Mesh.C32_reset_fails"
   ],
   "note": "Holds along every history starting from the type and patch constructors; false for the constructor from vertex and connectivity lists and after resetPatch of a point cloud (null dereference)."
  },
  {
   "property": "C33",
   "status": "proved",
   "theorems": [
    "Verif.Mesh.C33_addVertex",
    "Verif.Mesh.C33_addConnectedCell",
    "Verif.Mesh.C33_addCell"
   ],
   "note": ""
  },
  {
   "property": "C34",
   "status": "partial",
   "theorems": [
    "Verif.Mesh.C34_readback_partial",
    "Verif.Mesh.C34_range_fails",
    "Verif.Mesh.C34_map_fails",
    "Verif.Mesh.C34_resync",
    "Verif.Mesh.C34_listed_partial",
    "Verif.Mesh.C34_setPID_list_partial"
   ],
   "note": "Read-back holds for values in the int range; false for long values out of range and for the map setter's PID list (see _fails theorems)."
  },
  {
   "property": "C35",
   "status": "proved",
   "theorems": [
    "Verif.Mesh.C35_partition",
    "Verif.Mesh.C35_exact",
    "Verif.Mesh.C35_subdivision",
    "Verif.Mesh.C35_needs_order"
   ],
   "note": ""
  },
  {
   "property": "C36",
   "status": "partial",
   "theorems": [
    "Verif.Mesh.C36_vertices",
    "Verif.Mesh.C36_cells",
    "Verif.Mesh.C36_without_ghosts_fails",
    "Verif.Mesh.C36_wrong_ghosts_fails"
   ],
   "note": "Proved with ghosts included; the other modes are refuted (C36_*_fails)."
  },
  {
   "property": "C37",
   "status": "proved",
   "theorems": [
    "Verif.Mesh.C37_vertices",
    "Verif.Mesh.C37_cells",
    "Verif.Mesh.C37_roundtrip"
   ],
   "note": ""
  },
  {
   "property": "C38",
   "status": "partial",
   "theorems": [
    "Verif.Mesh.C38_check_exact",
    "Verif.Mesh.C38_negative_entry_fails",
    "Verif.Mesh.C38_desume_coherent",
    "Verif.Mesh.C38_recognised_partial",
    "Verif.Mesh.C38_small_polygon_fails"
   ],
   "note": "checkCellConnCoherence is exact on non-negative entries; desumeElement returns coherent elements; small polygons and negative entries refute the full claim."
  },
  {
   "property": "C39",
   "status": "proved",
   "theorems": [
    "Verif.Mesh.C39_triangulate",
    "Verif.Mesh.C39_surfaces_only",
    "Verif.Mesh.C39_number"
   ],
   "note": "triangles only, old triangles untouched, pieces per cell, PIDs, fresh ids and vertices, for every surface mesh built through the API"
  },
  {
   "property": "C40",
   "status": "partial",
   "theorems": [
    "Verif.Mesh.C40_degrade_partial",
    "Verif.Mesh.C40_valid_kept_partial",
    "Verif.Mesh.C40_valid_mesh_untouched",
    "Verif.Mesh.C40_polygon_fails",
    "Verif.Mesh.C40_pixel_fails",
    "Verif.Mesh.C40_voxel_fails",
    "Verif.Mesh.C40_hexahedron_fails",
    "Verif.Mesh.C40_shared_fails",
    "Verif.Mesh.C40_collapsed_list_fails"
   ],
   "note": "ids, PIDs, elements and positions proved for meshes of triangles, quads, tetrahedra, pyramids, wedges, hexahedra, lines, vertices. Fails: polygons are deleted, pixels/voxels relabelled as quads/hexahedra, sides of the new element, shared vertices, repeated insertion in the list of collapsed vertices"
  },
  {
   "property": "C41",
   "status": "partial",
   "theorems": [
    "Verif.Mesh.C41_pieces_partial",
    "Verif.Mesh.C41_empty_fails"
   ],
   "note": "proved for every non-empty mesh with a coherent adjacency table, also non-manifold; an empty mesh throws"
  },
  {
   "property": "C42",
   "status": "partial",
   "theorems": [
    "Verif.Mesh.C42_cells_partial",
    "Verif.Mesh.C42_not_supported",
    "Verif.Mesh.C42_vertices_partial",
    "Verif.Mesh.C42_vertices_without_seeds_fails",
    "Verif.Mesh.C42_repeated_seed_fails",
    "Verif.Mesh.C42_adjacencies_fails"
   ],
   "note": "exact band proved when the adjacencies of the mesh are built and no close seed is repeated; fails: vertex search without seeds is always empty, repeated seeds throw, adjacencies of the searched mesh are never updated"
  },
  {
   "property": "C43",
   "status": "partial",
   "theorems": [
    "Verif.Mesh.C43_restore_partial",
    "Verif.Mesh.C43_new_target",
    "Verif.Mesh.C43_used_target_fails"
   ],
   "note": "Round trip proved for every object of types 1-4 into any target: type, vertices, cells, statuses, PIDs and names (exactly those in use for a target without PIDs). The target's former PIDs and PID names survive a restore (C43_used_target_fails). The patch's own stream format is external."
  },
  {
   "property": "C44",
   "status": "proved",
   "theorems": [
    "Verif.Mesh.C44_neighbours",
    "Verif.Mesh.C44_symmetric",
    "Verif.Mesh.C44_surface_edges",
    "Verif.Mesh.C44_tetra_edges",
    "Verif.Mesh.C44_cloud"
   ],
   "note": ""
  },
  {
   "property": "C45",
   "status": "partial",
   "theorems": [
    "Verif.Mesh.C45_closed_partial",
    "Verif.Mesh.C45_ends_iff",
    "Verif.Mesh.C45_ghost_fails"
   ],
   "note": "proved without ghost cells and, in general, exactly when the loop ends; with ghosts it may never end"
  },
  {
   "property": "C46",
   "status": "proved",
   "theorems": [
    "Verif.Mesh.C46_apply",
    "Verif.Mesh.C46_apply_twice"
   ],
   "note": ""
  },
  {
   "property": "C47",
   "status": "partial",
   "theorems": [
    "Verif.Chain.C47_addObject_keeps_blocks_fails",
    "Verif.Chain.C47_addObject_keeps_blocks_partial",
    "Verif.Chain.C47_addObject_invents_nothing"
   ],
   "note": "False as stated: C47_addObject_keeps_blocks_fails. Proved on acyclic networks."
  },
  {
   "property": "C48",
   "status": "partial",
   "theorems": [
    "Verif.Chain.C48_returned_index_fails",
    "Verif.Chain.C48_returned_index_partial"
   ],
   "note": "False as stated: C48_returned_index_fails. Proved when no rearrangement is needed."
  },
  {
   "property": "C49",
   "status": "partial",
   "theorems": [
    "Verif.Chain.C49_ids_after_clone_fails",
    "Verif.Chain.C49_fresh_id_partial"
   ],
   "note": "False as stated: C49_ids_after_clone_fails. Proved for requested ids that are fresh."
  },
  {
   "property": "C50",
   "status": "proved",
   "theorems": [
    "Verif.Flow.C50_order_independent"
   ],
   "note": ""
  },
  {
   "property": "C51",
   "status": "partial",
   "theorems": [
    "Verif.Registry.C51_createPortOut",
    "Verif.Registry.C51_createPortIn_fails",
    "Verif.Registry.C51_createPortIn_partial"
   ],
   "note": "Output ports: proved. Input ports: false as stated (C51_createPortIn_fails), proved when the block has no port of that name."
  },
  {
   "property": "C52",
   "status": "partial",
   "theorems": [
    "Verif.Registry.C52_lookup_registers_fails",
    "Verif.Registry.C52_lookup_partial"
   ],
   "note": "False as stated in release builds: C52_lookup_registers_fails. Proved for registered names and debug builds."
  },
  {
   "property": "C53",
   "status": "partial",
   "theorems": [
    "Verif.Registry.C53_returned_count_fails",
    "Verif.Registry.C53_returned_count_partial"
   ],
   "note": "False as stated: C53_returned_count_fails. Proved: always one more than the number of creators."
  },
  {
   "property": "C54",
   "status": "partial",
   "theorems": [
    "Verif.Field.C54_resize_name_fails",
    "Verif.Field.C54_resize_partial"
   ],
   "note": "The name is lost (C54_resize_name_fails); everything else proved."
  },
  {
   "property": "C55",
   "status": "proved",
   "theorems": [
    "Verif.Field.C55_initialize",
    "Verif.Field.C55_data_as_vector",
    "Verif.Field.C55_set_data"
   ],
   "note": ""
  },
  {
   "property": "C56",
   "status": "partial",
   "theorems": [
    "Verif.Interp.C56_maximum_partial",
    "Verif.Interp.C56_gradient_formula_partial",
    "Verif.Interp.C56_linear_reproduction_fails",
    "Verif.Interp.C56_maximum_average_fails"
   ],
   "note": "False: the gradient term is multiplied by the cell value (C56_linear_reproduction_fails) and 'maximum' is not an average (C56_maximum_average_fails); the formula actually computed is proved."
  },
  {
   "property": "C57",
   "status": "partial",
   "theorems": [
    "Verif.Field.C57_ids_check_fails",
    "Verif.Field.C57_ids_check_partial",
    "Verif.Field.C57_size_check"
   ],
   "note": "False for an empty field without location (C57_ids_check_fails); proved otherwise; size check proved."
  },
  {
   "property": "C58",
   "status": "proved",
   "theorems": [
    "Verif.Mesh.C58_from_cells",
    "Verif.Mesh.C58_from_vertices"
   ],
   "note": ""
  },
  {
   "property": "C59",
   "status": "proved",
   "theorems": [
    "Verif.Mesh.C59_inverse"
   ],
   "note": ""
  },
  {
   "property": "C60",
   "status": "partial",
   "theorems": [
    "Verif.Mesh.C60_clone_partial",
    "Verif.Mesh.C60_tolerance_fails",
    "Verif.Mesh.C60_listed_pids_fails",
    "Verif.Mesh.C60_other_element_fails"
   ],
   "note": "Proved for objects whose elements suit their type; the tolerance is not copied, PIDs listed but not in use are lost, and the clone throws when an element of another kind was added (three _fails theorems). That the cloned patch shares nothing with the original is bitpit's contract."
  },
  {
   "property": "C61",
   "status": "partial",
   "theorems": [
    "Verif.Mesh.C61_outline_partial",
    "Verif.Mesh.C61_pixel_fails"
   ],
   "note": "proved for quads and n-gons; C61_pixel_fails: a pixel (z-ordered vertices) is split as if ring-ordered, so the triangles overlap"
  },
  {
   "property": "C62",
   "status": "partial",
   "theorems": [
    "Verif.Shape.C62_world_local_world_partial",
    "Verif.Shape.C62_edge_plane_fails",
    "Verif.Shape.C62_local_world_local_partial",
    "Verif.Shape.C62_basic"
   ],
   "note": "Both round trips proved for every shape with a valid frame and positive dimensions, away from the plane of the sharp edge of a wedge (C62_edge_plane_fails) and for regular points of curved shapes."
  },
  {
   "property": "C63",
   "status": "partial",
   "theorems": [
    "Verif.Shape.C63_three_axes",
    "Verif.Shape.C63_refused",
    "Verif.Shape.C63_one_axis_partial",
    "Verif.Shape.C63_parallel_fails",
    "Verif.Shape.C63_one_axis_refused",
    "Verif.Shape.C63_always_valid"
   ],
   "note": "Three-axis form: accepted axes give a unit frame with its inverse, refused axes change nothing. One-axis form: orthonormal, except when the axis is parallel to the next coordinate axis, where the frame becomes NaN (C63_parallel_fails)."
  },
  {
   "property": "C64",
   "status": "proved",
   "theorems": [
    "Verif.Shape.C64_bounded",
    "Verif.Shape.C64_stored",
    "Verif.Shape.C64_lower_limit",
    "Verif.Shape.C64_lower_keeps_span",
    "Verif.Shape.C64_origin",
    "Verif.Shape.C64_origin_moves"
   ],
   "note": "Over all histories of constructors and setters."
  },
  {
   "property": "C65",
   "status": "partial",
   "theorems": [
    "Verif.Shape.C65_sector_fails",
    "Verif.Shape.C65_turned_wedge_fails",
    "Verif.Shape.C65_point_sound",
    "Verif.Shape.C65_point_complete_partial",
    "Verif.Shape.C65_axis_fails",
    "Verif.Shape.C65_include_sound",
    "Verif.Shape.C65_include_complete_partial"
   ],
   "note": "Soundness for every shape; completeness for shapes that are not portions and, for wedges, not turned (C65_axis_fails, C65_sector_fails, C65_turned_wedge_fails)."
  },
  {
   "property": "C66",
   "status": "proved",
   "theorems": [
    "Verif.Shape.C66_exclude_geometry",
    "Verif.Shape.C66_no_tree",
    "Verif.Shape.C66_patch",
    "Verif.Shape.C66_points"
   ],
   "note": "All four selections, any included list without repetitions."
  },
  {
   "property": "C67",
   "status": "partial",
   "theorems": [
    "Verif.Shape.C67_include_sound",
    "Verif.Shape.C67_include_complete_partial",
    "Verif.Shape.C67_cylinder_fails",
    "Verif.Shape.C67_exclude_fails"
   ],
   "note": "Soundness for every shape; completeness for cuboids and wedges in any frame and whole cylinders and spheres in the default frame (C67_cylinder_fails). excludeCloudPoints compares with cell ids (C67_exclude_fails)."
  },
  {
   "property": "C68",
   "status": "proved",
   "theorems": [
    "Verif.Grid.C68_node_there",
    "Verif.Grid.C68_node_back",
    "Verif.Grid.C68_cell_there",
    "Verif.Grid.C68_cell_back",
    "Verif.Grid.C68_cell_vertices"
   ],
   "note": "All grids, all valid indices, both directions."
  },
  {
   "property": "C69",
   "status": "proved",
   "theorems": [
    "Verif.Grid.C69_dimensions",
    "Verif.Grid.C69_nodes",
    "Verif.Grid.C69_centres",
    "Verif.Grid.C69_lists",
    "Verif.Grid.C69_spacing"
   ],
   "note": "After build, every state; positions of nodes for shapes reachable through the setters."
  },
  {
   "property": "C70",
   "status": "proved",
   "theorems": [
    "Verif.Grid.C70_locate",
    "Verif.Grid.C70_inside"
   ],
   "note": "Real arithmetic."
  },
  {
   "property": "C71",
   "status": "proved",
   "theorems": [
    "Verif.Grid.C71_points",
    "Verif.Grid.C71_cells",
    "Verif.Grid.C71_range",
    "Verif.Grid.C71_samples",
    "Verif.Grid.C71_integers"
   ],
   "note": "Real arithmetic; spec is a trilinear interpolation stated on its own."
  },
  {
   "property": "C72",
   "status": "partial",
   "theorems": [
    "Verif.Grid.C72_copy",
    "Verif.Grid.C72_assign_partial",
    "Verif.Grid.C72_swap_partial",
    "Verif.Grid.C72_assign_fails",
    "Verif.Grid.C72_swap_fails"
   ],
   "note": "Copy constructor proved; assignment and swap lose parts of the state (C72_assign_fails, C72_swap_fails)."
  },
  {
   "property": "C73",
   "status": "partial",
   "theorems": [
    "Verif.Grid.C73_stored",
    "Verif.Grid.C73_before_partial",
    "Verif.Grid.C73_rechoose_partial",
    "Verif.Grid.C73_cylinder_fails",
    "Verif.Grid.C73_code_fails"
   ],
   "note": "Settings given before the shape are replayed by build; the exceptions are proved as failures."
  },
  {
   "property": "C74",
   "status": "partial",
   "theorems": [
    "Verif.Grid.C74_built_partial",
    "Verif.Grid.C74_cut_fails"
   ],
   "note": "Holds for what build leaves; a request cut by an earlier shape is not restored (C74_cut_fails)."
  },
  {
   "property": "C75",
   "status": "proved",
   "theorems": [
    "Verif.Grid.C75_dofs"
   ],
   "note": "All shapes, all dimensions."
  },
  {
   "property": "C76",
   "status": "partial",
   "theorems": [
    "Verif.Grid.C76_same_partial",
    "Verif.Grid.C76_wedge_fails",
    "Verif.Grid.C76_axis_fails",
    "Verif.Grid.C76_sphere_fails",
    "Verif.Grid.C76_sector_fails"
   ],
   "note": "Proved for boxes, tubes and sectors of hollow spheres; the claim is false for wedges, axes, complete spheres and sectors marked periodic (C76_*_fails)."
  },
  {
   "property": "C77",
   "status": "partial",
   "theorems": [
    "Verif.Manip.C77_bend_partial",
    "Verif.Manip.C77_bend_fails",
    "Verif.Manip.C77_translation",
    "Verif.Manip.C77_rotation",
    "Verif.Manip.C77_scale",
    "Verif.Manip.C77_twist",
    "Verif.Manip.C77_no_geometry",
    "Verif.Manip.C77_apply"
   ],
   "note": "BendGeometry with a local system whose axes are not orthonormal fails (C77_bend_fails): the filter does not scale the part due to the axes."
  },
  {
   "property": "C78",
   "status": "partial",
   "theorems": [
    "Verif.Manip.C78_again_partial",
    "Verif.Manip.C78_new_vertex_fails"
   ],
   "note": "The completed filter is kept in the block: vertices added after the first execution get weight 0 (C78_new_vertex_fails); holds while no vertex is added."
  },
  {
   "property": "C79",
   "status": "partial",
   "theorems": [
    "Verif.Manip.C79_given_partial",
    "Verif.Manip.C79_turn_partial",
    "Verif.Manip.C79_direction",
    "Verif.Manip.C79_axis_fails"
   ],
   "note": "Holds for unit directions (setDirection); the constructor, setAxis and the ports take the direction as it is (C79_axis_fails: a non-unit direction does not give a rotation)."
  },
  {
   "property": "C80",
   "status": "partial",
   "theorems": [
    "Verif.Manip.C80_given_partial",
    "Verif.Manip.C80_same_vector",
    "Verif.Manip.C80_length_partial",
    "Verif.Manip.C80_port_fails"
   ],
   "note": "Length exact after setDirection; port and constructor do not normalise (C80_port_fails)."
  },
  {
   "property": "C81",
   "status": "proved",
   "theorems": [
    "Verif.Manip.C81_scale",
    "Verif.Manip.C81_differences",
    "Verif.Manip.C81_mean",
    "Verif.Manip.C81_given"
   ],
   "note": "Over the reals."
  },
  {
   "property": "C82",
   "status": "partial",
   "theorems": [
    "Verif.Manip.C82_given_partial",
    "Verif.Manip.C82_twist_partial",
    "Verif.Manip.C82_direction",
    "Verif.Manip.C82_negative_fails"
   ],
   "note": "Nonnegative angles, positive maximum distance; negative angles twist by a wrong, unclamped angle (C82_negative_fails). Zero distance (0/0) is outside."
  },
  {
   "property": "C83",
   "status": "partial",
   "theorems": [
    "Verif.Manip.C83_bend_partial",
    "Verif.Manip.C83_local_partial",
    "Verif.Manip.C83_setters",
    "Verif.Manip.C83_constant_fails",
    "Verif.Manip.C83_port_fails",
    "Verif.Manip.C83_frame_fails",
    "Verif.Manip.C83_polynomials"
   ],
   "note": "Constant terms of degree 0 are dropped (C83_constant_fails), the system set through a port is ignored (C83_port_fails), non-orthonormal axes move vertices with zero polynomials (C83_frame_fails)."
  },
  {
   "property": "C84",
   "status": "partial",
   "theorems": [
    "Verif.Manip.C84_vector_partial",
    "Verif.Manip.C84_again_fails",
    "Verif.Manip.C84_scalar_partial",
    "Verif.Manip.C84_replaced_input_fails",
    "Verif.Manip.C84_unusable",
    "Verif.Manip.C84_volume_filter_fails",
    "Verif.Manip.C84_filter_alone_fails",
    "Verif.Manip.C84_no_geometry"
   ],
   "note": "Holds for one execution with a usable input. Fails: second execution filters twice (C84_again_fails), filter on non-surfaces moves nothing (C84_volume_filter_fails), vector input ignored after a scalar input (C84_replaced_input_fails), filter without input is undefined behaviour (C84_filter_alone_fails)."
  },
  {
   "property": "C85",
   "status": "proved",
   "theorems": [
    "Verif.Manip.C85_vector",
    "Verif.Manip.C85_scalar",
    "Verif.Manip.C85_threshold",
    "Verif.Manip.C85_still"
   ],
   "note": "Vector and scalar inputs."
  },
  {
   "property": "C86",
   "status": "partial",
   "theorems": [
    "Verif.Manip.C86_translation",
    "Verif.Manip.C86_rotation",
    "Verif.Manip.C86_scale",
    "Verif.Manip.C86_twist",
    "Verif.Manip.C86_bend",
    "Verif.Manip.C86_apply_partial",
    "Verif.Manip.C86_apply_fails"
   ],
   "note": "Transformation blocks and Apply without filter; the copy constructor of Apply (and ApplyFilter) drops the filter (C86_apply_fails)."
  },
  {
   "property": "C87",
   "status": "partial",
   "theorems": [
    "Verif.Manip.C87_filter_partial",
    "Verif.Manip.C87_again_fails",
    "Verif.Manip.C87_refused"
   ],
   "note": "One execution, vector input; the second execution filters twice (C87_again_fails). Scalar inputs not proved."
  },
  {
   "property": "C88",
   "status": "proved",
   "theorems": [
    "Verif.Grid.C88_clear",
    "Verif.Grid.C88_dimensions",
    "Verif.Grid.C88_spacing",
    "Verif.Grid.C88_shape"
   ],
   "note": "Any previous state of the object."
  },
  {
   "property": "C89",
   "status": "partial",
   "theorems": [
    "Verif.Ffd.C89_built_partial",
    "Verif.Ffd.C89_first_partial"
   ],
   "note": "Points within the limits of the shape; a point accepted only by the tolerance of the shape is left out (for periodic, symmetric and unclamped directions it can read node -1). Positive weights."
  },
  {
   "property": "C90",
   "status": "partial",
   "theorems": [
    "Verif.Ffd.C90_bounds",
    "Verif.Ffd.C90_translation_partial",
    "Verif.Ffd.C90_still"
   ],
   "note": "Bounds and rest hold for every point the combination is defined for; translation for vertices within the limits (points taken only by tolerance left out). At rest with local displacements: not on the edge plane of a wedge."
  },
  {
   "property": "C91",
   "status": "partial",
   "theorems": [
    "Verif.Ffd.C91_filter_partial"
   ],
   "note": "Vertices within the limits, as C89."
  },
  {
   "property": "C92",
   "status": "partial",
   "theorems": [
    "Verif.Ffd.C92_local_partial"
   ],
   "note": "Reach stated for clamped and periodic directions; symmetric and unclamped types set by the user are not restricted."
  },
  {
   "property": "C93",
   "status": "proved",
   "theorems": [
    "Verif.Ffd.C93_node",
    "Verif.Ffd.C93_face"
   ],
   "note": "Corners, nodes of degree-one directions, faces and edges; global and local displacements."
  },
  {
   "property": "C94",
   "status": "partial",
   "theorems": [
    "Verif.Ffd.C94_cylinder_partial",
    "Verif.Ffd.C94_sphere_fails"
   ],
   "note": "Full cylinders with global displacements. Fails on spheres: the wrong node of each parallel shares the first degree of freedom (C94_sphere_fails)."
  },
  {
   "property": "C95",
   "status": "proved",
   "theorems": [
    "Verif.Ffd.C95_degrees"
   ],
   "note": "Any state whose grid can be built."
  },
  {
   "property": "C96",
   "status": "partial",
   "theorems": [
    "Verif.Ffd.C96_scale",
    "Verif.Ffd.C96_set",
    "Verif.Ffd.C96_rebuild_fails",
    "Verif.Ffd.C96_first_fails"
   ],
   "note": "Set and build on a built lattice. Fails: weights are lost at the build after the next (C96_rebuild_fails); setting a weight before the first build is undefined behaviour (C96_first_fails)."
  },
  {
   "property": "C97",
   "status": "partial",
   "theorems": [
    "Verif.Ffd.C97_point_partial",
    "Verif.Ffd.C97_order_fails"
   ],
   "note": "Cuboids with numbers of nodes not decreasing from direction to direction. Otherwise the tables are read out of range (C97_order_fails)."
  },
  {
   "property": "C98",
   "status": "partial",
   "theorems": [
    "Verif.Ffd.C98_short_fails",
    "Verif.Ffd.C98_long_partial"
   ],
   "note": "Excess is ignored; too few on a built lattice is undefined behaviour (C98_short_fails)."
  },
  {
   "property": "C99",
   "status": "partial",
   "theorems": [
    "Verif.Ffd.C99_cube",
    "Verif.Ffd.C99_local_partial"
   ],
   "note": "Cuboids in full; other shapes where the resulting local coordinates are regular (inside the range of the angle, positive radius)."
  },
  {
   "property": "C100",
   "status": "partial",
   "theorems": [
    "Verif.Ffd.C100_sound",
    "Verif.Ffd.C100_complete_partial",
    "Verif.Ffd.C100_border_fails"
   ],
   "note": "Only vertices of cells entirely in the shape move (C100_border_fails); those of such cells do, for whole shapes (C100_complete_partial), and no others (C100_sound)."
  },
  {
   "property": "C101",
   "status": "proved",
   "theorems": [
    "Verif.Select.C101_merged",
    "Verif.Select.C101_exact",
    "Verif.Select.C101_cloud"
   ],
   "note": "Meshes with cells: C101_merged, C101_exact; point clouds: C101_cloud. bitpit's removal of coincident vertices enters as the relation Cleaned."
  },
  {
   "property": "C102",
   "status": "partial",
   "theorems": [
    "Verif.Select.C102_list_fails",
    "Verif.Select.C102_pid",
    "Verif.Select.C102_shape",
    "Verif.Select.C102_cloud_fails"
   ],
   "note": "Proved for selections by PID (C102_pid) and by shapes over meshes with cells (C102_shape). False for shapes over point clouds (C102_cloud_fails) and for selections by lists, where the option has no effect (C102_list_fails)."
  },
  {
   "property": "C103",
   "status": "partial",
   "theorems": [
    "Verif.Select.C103_asked_partial",
    "Verif.Select.C103_remove_after_fails",
    "Verif.Select.C103_still_selected_fails",
    "Verif.Select.C103_zero_fails",
    "Verif.Select.C103_all_but_fails",
    "Verif.Select.C103_negative_fails",
    "Verif.Select.C103_geometry_fails"
   ],
   "note": "Proved for histories with removals before the first execution, of positive PIDs individually asked, on one geometry. Each excluded case is refuted by a theorem: removal after an execution, replacing all, removing PID 0, removing from all, indices below -1, change of geometry."
  },
  {
   "property": "C104",
   "status": "partial",
   "theorems": [
    "Verif.Select.C104_cells_partial",
    "Verif.Select.C104_points_partial"
   ],
   "note": "Proved without the dual option, which has no effect (C102_list_fails)."
  },
  {
   "property": "C105",
   "status": "partial",
   "theorems": [
    "Verif.Select.C105_boundary_partial",
    "Verif.Select.C105_corner_fails"
   ],
   "note": "Proved: all such vertices are returned and only border vertices of the patch are. False: vertices on the border of the mother may be returned as well (C105_corner_fails)."
  },
  {
   "property": "C106",
   "status": "partial",
   "theorems": [
    "Verif.Select.C106_inputs",
    "Verif.Select.C106_union_partial",
    "Verif.Select.C106_exact_partial",
    "Verif.Select.C106_topology_fails",
    "Verif.Select.C106_polyhedron_fails"
   ],
   "note": "Proved for blocks made from XML and geometries without polyhedra, in any order of visit. False for blocks constructed with a topology (C106_topology_fails) and for polyhedra, which are all dropped (C106_polyhedron_fails)."
  },
  {
   "property": "C107",
   "status": "partial",
   "theorems": [
    "Verif.Select.C107_keep_partial",
    "Verif.Select.C107_repid_partial",
    "Verif.Select.C107_last_names_partial",
    "Verif.Select.C107_names_fails",
    "Verif.Select.C107_no_pid_fails",
    "Verif.Select.C107_negative_fails"
   ],
   "note": "PIDs proved with and without re-PID, for geometries with non-negative PIDs and at least one PID; the other cases are refuted (C107_no_pid_fails, C107_negative_fails). Names are proved for the geometry visited last only; all others get a wrong name (C107_names_fails)."
  },
  {
   "property": "C108",
   "status": "partial",
   "theorems": [
    "Verif.Recon.C108_id",
    "Verif.Recon.C108_pid_cells",
    "Verif.Recon.C108_pid_points_partial",
    "Verif.Recon.C108_mapping_partial",
    "Verif.Recon.C108_refused",
    "Verif.Recon.C108_stale_fails",
    "Verif.Recon.C108_mapping_fails",
    "Verif.Recon.C108_cloud_pid_fails"
   ],
   "note": "ID mode and PID mode on cells proved in full; PID mode on vertices for every geometry but clouds; proximity: the ids of the close target cells are looked up in the source (the search itself is a parameter). C108_stale_fails, C108_mapping_fails and C108_cloud_pid_fails show what does not hold"
  },
  {
   "property": "C109",
   "status": "partial",
   "theorems": [
    "Verif.Recon.C109_mode",
    "Verif.Recon.C109_tolerance",
    "Verif.Recon.C109_xml_partial",
    "Verif.Recon.C109_xml_fails",
    "Verif.Recon.C109_clear"
   ],
   "note": "setters proved; C109_xml_fails: the mode is written to XML and never read"
  },
  {
   "property": "C110",
   "status": "partial",
   "theorems": [
    "Verif.Recon.C110_incomplete_fails",
    "Verif.Recon.C110_covers",
    "Verif.Recon.C110_extremes",
    "Verif.Recon.C110_scalar_extremes",
    "Verif.Recon.C110_vector_extremes",
    "Verif.Recon.C110_scalar_sums",
    "Verif.Recon.C110_vector_sums",
    "Verif.Recon.C110_restrictions",
    "Verif.Recon.C110_fresh"
   ],
   "note": "proved for inputs that have a value on every shared entity, over the real numbers; C110_incomplete_fails: otherwise the run is undefined"
  },
  {
   "property": "C111",
   "status": "partial",
   "theorems": [
    "Verif.Recon.C111_remove_partial",
    "Verif.Recon.C111_remove_fails",
    "Verif.Recon.C111_add_partial",
    "Verif.Recon.C111_null_fails",
    "Verif.Recon.C111_criterion",
    "Verif.Recon.C111_empty",
    "Verif.Recon.C111_location_fails",
    "Verif.Recon.C111_order_fails"
   ],
   "note": "C111_remove_fails, C111_order_fails, C111_null_fails and C111_location_fails show what does not hold"
  },
  {
   "property": "C112",
   "status": "partial",
   "theorems": [
    "Verif.Select.C112_coefficients_partial",
    "Verif.Select.C112_origin",
    "Verif.Select.C112_scale_fails",
    "Verif.Select.C112_sides",
    "Verif.Select.C112_patch",
    "Verif.Select.C112_cloud_fails"
   ],
   "note": "proved for planes given by point and normal and for coefficients with a normal of length one; C112_scale_fails: other coefficients clip by another plane; C112_cloud_fails: point clouds; centroids are a parameter, arithmetic is that of the reals"
  },
  {
   "property": "C113",
   "status": "partial",
   "theorems": [
    "Verif.Select.C113_first_run_partial",
    "Verif.Select.C113_second_run_fails",
    "Verif.Select.C113_coefficients_win",
    "Verif.Select.C113_no_plane",
    "Verif.Select.C113_xml_partial",
    "Verif.Select.C113_xml_fails",
    "Verif.Select.C113_xml_unset_fails"
   ],
   "note": "C113_second_run_fails: point and normal set after a run are ignored; C113_xml_fails, C113_xml_unset_fails: saving changes the plane"
  },
  {
   "property": "C114",
   "status": "partial",
   "theorems": [
    "Verif.Rbf.C114_scalar",
    "Verif.Rbf.C114_superposition",
    "Verif.Rbf.C114_filter",
    "Verif.Rbf.C114_no_displacements_fails",
    "Verif.Rbf.C114_zero_fails",
    "Verif.Rbf.C114_vector"
   ],
   "note": "Proved: the sum for vectors and scalars, linearity (displacements of the nodes added). Fails: without displacements of nodes the execution reads beyond a list (C114_no_displacements_fails); all displacements zero and no radius gives division by zero (C114_zero_fails)."
  },
  {
   "property": "C115",
   "status": "partial",
   "theorems": [
    "Verif.Rbf.C115_outside_partial",
    "Verif.Rbf.C115_same",
    "Verif.Rbf.C115_large_fails"
   ],
   "note": "Proved for radii not larger than the diagonal of the target times the factor (C115_outside_partial). Fails for larger ones: every vertex is treated (C115_large_fails)."
  },
  {
   "property": "C116",
   "status": "partial",
   "theorems": [
    "Verif.Rbf.C116_last",
    "Verif.Rbf.C116_list_ignored",
    "Verif.Rbf.C116_nonneg_partial",
    "Verif.Rbf.C116_negative_fails"
   ],
   "note": "Last request counts, unusable ones are ignored. Negative radii in a list are used as they are (C116_negative_fails); otherwise radii are not negative (C116_nonneg_partial)."
  },
  {
   "property": "C117",
   "status": "partial",
   "theorems": [
    "Verif.Rbf.C117_common_radius",
    "Verif.Rbf.C117_interpolates_partial"
   ],
   "note": "Common radius proved for all reachable states; interpolation proved under the assumption that the solver of bitpit (external) returns an exact solution. Greedy mode: only through the same assumption on its result."
  },
  {
   "property": "C118",
   "status": "partial",
   "theorems": [
    "Verif.Rbf.C118_field_partial",
    "Verif.Rbf.C118_unlinked",
    "Verif.Rbf.C118_list_displacements_fails",
    "Verif.Rbf.C118_scalar_field_fails",
    "Verif.Rbf.C118_list_radii_fails",
    "Verif.Rbf.C118_field_for_list_fails",
    "Verif.Rbf.C118_radii_partial",
    "Verif.Rbf.C118_radii_gap_fails"
   ],
   "note": "Proved: vector fields with one radius; radii by a field on an initial part of the vertices by id; refusal. Fails: lists of displacements or radii with nodes by geometry are dropped, scalar fields do not switch to scalars, fields for nodes by list are not used, fields of radii with gaps write beyond a list."
  },
  {
   "property": "C119",
   "status": "partial",
   "theorems": [
    "Verif.Rbf.C119_vector",
    "Verif.Rbf.C119_scalar",
    "Verif.Rbf.C119_not_surface",
    "Verif.Rbf.C119_before_execution_fails"
   ],
   "note": "Vector and scalar apply proved for all meshes (normals are a parameter). Fails before an execution with scalar displacements (C119_before_execution_fails)."
  },
  {
   "property": "C120",
   "status": "partial",
   "theorems": [
    "Verif.Rbf.C120_reported",
    "Verif.Rbf.C120_single_kept",
    "Verif.Rbf.C120_clean_partial",
    "Verif.Rbf.C120_three_fails"
   ],
   "note": "Reported nodes characterised; single nodes stay; clean if no node is close to two others. Fails for three nodes in one place (C120_three_fails)."
  },
  {
   "property": "C121",
   "status": "partial",
   "theorems": [
    "Verif.Rbf.C121_heaviside",
    "Verif.Rbf.C121_slope_partial",
    "Verif.Rbf.C121_slope_fails",
    "Verif.Rbf.C121_dsigmoid"
   ],
   "note": "Range, monotony, value at the radius, symmetry proved. The slope is half of the one documented (C121_slope_fails, C121_slope_partial)."
  },
  {
   "property": "C122",
   "status": "partial",
   "theorems": [
    "Verif.Rbf.C122_copy",
    "Verif.Rbf.C122_copy_cloud",
    "Verif.Rbf.C122_clear_fails"
   ],
   "note": "Copies proved equivalent, for nodes by list and by geometry. clear() leaves a tolerance of 1e-5 and keeps function, support and fields of radii (C122_clear_fails)."
  },
  {
   "property": "C123",
   "status": "partial",
   "theorems": [
    "Verif.Rbf.C123_box",
    "Verif.Rbf.C123_contains",
    "Verif.Rbf.C123_moved",
    "Verif.Rbf.C123_input",
    "Verif.Rbf.C123_empty_fails"
   ],
   "note": "Box, containment and link to MRBF proved. A cloud without nodes gives a box with negative sides (C123_empty_fails)."
  },
  {
   "property": "C124",
   "status": "partial",
   "theorems": [
    "Verif.Rbf.C124_round_trip_partial",
    "Verif.Rbf.C124_radii_fails",
    "Verif.Rbf.C124_precedence"
   ],
   "note": "Round trip at the level of option values for radii not given as a list; order of precedence. Lists of radii are not written (C124_radii_fails)."
  },
  {
   "property": "C125",
   "status": "partial",
   "theorems": [
    "Verif.Utils.C125_moved_partial",
    "Verif.Utils.C125_length",
    "Verif.Utils.C125_length_fails",
    "Verif.Utils.C125_zero_fails",
    "Verif.Utils.C125_repeat",
    "Verif.Utils.C125_kept",
    "Verif.Utils.C125_copy"
   ],
   "note": "Proved for a direction of unit length and for every call sequence (_moved_partial); for other lengths the distance is alpha times the length (C125_length, C125_length_fails: the normalised copy is dropped), and without a direction the division by a zero norm gives no point (C125_zero_fails). Repeating and copying proved. XML section not modelled."
  },
  {
   "property": "C126",
   "status": "partial",
   "theorems": [
    "Verif.Utils.C126_turned",
    "Verif.Utils.C126_rigid",
    "Verif.Utils.C126_chain",
    "Verif.Utils.C126_back",
    "Verif.Utils.C126_repeat",
    "Verif.Utils.C126_default_fails",
    "Verif.Utils.C126_zero_fails",
    "Verif.Utils.C126_copy"
   ],
   "note": "Proved for every direction longer than the smallest positive double, given axes and call sequence. Fails before axes are given (third default axis is zero, C126_default_fails) and without a direction (axes only scaled by the cosine, C126_zero_fails). XML section not modelled."
  },
  {
   "property": "C127",
   "status": "partial",
   "theorems": [
    "Verif.Utils.C127_axes",
    "Verif.Utils.C127_orthonormal",
    "Verif.Utils.C127_box",
    "Verif.Utils.C127_contains",
    "Verif.Utils.C127_order",
    "Verif.Utils.C127_again",
    "Verif.Utils.C127_list",
    "Verif.Utils.C127_drawn",
    "Verif.Utils.C127_none",
    "Verif.Utils.C127_parallel_fails",
    "Verif.Utils.C127_zero_axis_fails",
    "Verif.Utils.C127_empty_fails"
   ],
   "note": "Proved for axes whose lengths exceed the smallest positive double and that are not parallel, coordinates in the range of doubles. Fails: parallel axes give no origin, a zero axis silently selects other axes, an empty geometry gives negative sides. Ghost vertices, MPI reductions and XML not modelled."
  },
  {
   "property": "C128",
   "status": "partial",
   "theorems": [
    "Verif.Utils.C128_mirrored_partial",
    "Verif.Utils.C128_coefficients",
    "Verif.Utils.C128_coefficients_fails",
    "Verif.Utils.C128_no_cloud",
    "Verif.Utils.C128_no_normal_fails",
    "Verif.Utils.C128_settings",
    "Verif.Utils.C128_surface"
   ],
   "note": "Proved for planes given by origin and normal, or by coefficients with a unit normal, for clouds whose copy is defined. Coefficients with a normal of another length give images through another plane (C128_coefficients says which one, C128_coefficients_fails); without a normal the result is a copy with zero data (C128_no_normal_fails). Projection is a parameter."
  },
  {
   "property": "C129",
   "status": "partial",
   "theorems": [
    "Verif.Utils.C129_side_partial",
    "Verif.Utils.C129_other_side_fails"
   ],
   "note": "Proved with force off and no surface: points beyond 1e-12 on the side chosen have images, all others have none. A new block has force on, so points of the other side have images as well (C129_other_side_fails). With a surface the tolerance grows with its area."
  },
  {
   "property": "C130",
   "status": "partial",
   "theorems": [
    "Verif.Utils.C130_plane",
    "Verif.Utils.C130_coefficients_partial",
    "Verif.Utils.C130_points_partial",
    "Verif.Utils.C130_implicit_fails",
    "Verif.Utils.C130_again_fails",
    "Verif.Utils.C130_clear_fails",
    "Verif.Utils.C130_copy"
   ],
   "note": "A plane given at once, and coefficients with a unit normal, are in force until the next plane; origin and normal are in force in a block that had no plane and was not executed. After a plane, an execution, or clear, origin and normal are ignored (C130_implicit_fails, C130_again_fails, C130_clear_fails)."
  },
  {
   "property": "C131",
   "status": "partial",
   "theorems": [
    "Verif.Utils.C131_projected",
    "Verif.Utils.C131_on_target",
    "Verif.Utils.C131_again",
    "Verif.Utils.C131_settings",
    "Verif.Utils.C131_missing_partial",
    "Verif.Utils.C131_no_patch_fails"
   ],
   "note": "All parts proved except the report of a missing patch: a null pointer is dereferenced (C131_no_patch_fails). The projection of a point is a parameter."
  },
  {
   "property": "C132",
   "status": "partial",
   "theorems": [
    "Verif.Tree.C132_closest_partial",
    "Verif.Tree.C132_any_partial",
    "Verif.Tree.C132_boxes_partial",
    "Verif.Tree.C132_ghosts_fails"
   ],
   "note": "Proved for trees whose nodes all hold some cell asked for (all cells asked for: always). Refuted otherwise: with cells not asked for (ghosts) a node can prune the one that holds the cell (C132_ghosts_fails)."
  },
  {
   "property": "C133",
   "status": "partial",
   "theorems": [
    "Verif.Tree.C133_leaves",
    "Verif.Tree.C133_complete_partial",
    "Verif.Tree.C133_far_fails",
    "Verif.Tree.C133_extract_fails"
   ],
   "note": "The cells of the close leaves are selected exactly and nothing within the tolerance is missed. Refuted: cells far away that share a leaf (C133_far_fails), extractTarget on a tree of one leaf without checking it (C133_extract_fails)."
  },
  {
   "property": "C134",
   "status": "partial",
   "theorems": [
    "Verif.Tree.C134_segment_complete",
    "Verif.Tree.C134_segment_sound",
    "Verif.Tree.C134_segment_point",
    "Verif.Tree.C134_triangle_plane",
    "Verif.Tree.C134_triangle_complete",
    "Verif.Tree.C134_triangle_sound_partial",
    "Verif.Tree.C134_flat_fails",
    "Verif.Tree.C134_far_fails",
    "Verif.Tree.C134_near_fails",
    "Verif.Tree.C134_polygon_fan",
    "Verif.Tree.C134_polygon_complete_partial",
    "Verif.Tree.C134_concave_fails",
    "Verif.Tree.C134_few_fails"
   ],
   "note": "Segments: complete, and sound up to a factor sqrt 2. Triangles: exact condition in the plane; exact for tolerance zero. Convex polygons: complete. Refuted: points within the tolerance rejected (C134_near_fails), points many tolerances away accepted (C134_far_fails), triangles without area (C134_flat_fails), concave polygons (C134_concave_fails), fewer than three vertices (C134_few_fails)."
  },
  {
   "property": "C135",
   "status": "partial",
   "theorems": [
    "Verif.Tree.C135_distance_partial",
    "Verif.Tree.C135_closing_fails"
   ],
   "note": "Least distance over the triangles of the barycenter and consecutive vertices; the closing triangle is missing (C135_closing_fails)."
  },
  {
   "property": "C136",
   "status": "partial",
   "theorems": [
    "Verif.Tree.C136_signed",
    "Verif.Tree.C136_normal_fails",
    "Verif.Tree.C136_projected_partial",
    "Verif.Tree.C136_radius_fails",
    "Verif.Tree.C136_unsigned"
   ],
   "note": "Sign and distance, projection to the closest point when that is not closer than the tolerance and within the radius. Refuted: radius too small (C136_radius_fails), zero interpolated normal (C136_normal_fails). The closest cell, barycentric coordinates and vertex normals are bitpit's and assumed."
  },
  {
   "property": "C137",
   "status": "partial",
   "theorems": [
    "Verif.Tree.C137_belongs",
    "Verif.Tree.C137_located_partial",
    "Verif.Tree.C137_sound",
    "Verif.Tree.C137_empty_fails"
   ],
   "note": "Points of segments, triangles and convex polygons are located on a cell that holds them. Refuted: surface without cells (C137_empty_fails); the meaning of the tolerance is that of C134. The search is bitpit's and assumed."
  },
  {
   "property": "C138",
   "status": "partial",
   "theorems": [
    "Verif.Tree.C138_seeds",
    "Verif.Tree.C138_vertex_seeds",
    "Verif.Tree.C138_all",
    "Verif.Tree.C138_vertices_fails",
    "Verif.Tree.C138_adjacencies_fails",
    "Verif.Tree.C138_none"
   ],
   "note": "Cells: exact set with and without seeds, termination, ids once. Vertices with seeds the same. Violated: without seeds no vertex is ever found (candidates are stored in a shadowed variable); when the adjacencies of the mesh are not stored only seeds are found, since those of the surface are updated instead."
  },
  {
   "property": "C139",
   "status": "partial",
   "theorems": [
    "Verif.Utils.C139_distance",
    "Verif.Utils.C139_violation",
    "Verif.Utils.C139_short",
    "Verif.Utils.C139_settings",
    "Verif.Utils.C139_nofield_fails",
    "Verif.Utils.C139_loose_fails"
   ],
   "note": "Proved for fields on the vertices of the geometry and vertices that belong to cells. Violated: without a field (input not mandatory) values that are not there are read; a vertex of no cell counts as displaced by the largest number."
  },
  {
   "property": "C140",
   "status": "partial",
   "theorems": [
    "Verif.Utils.C140_values",
    "Verif.Utils.C140_close",
    "Verif.Utils.C140_clear",
    "Verif.Utils.C140_far_fails",
    "Verif.Utils.C140_nofield_fails",
    "Verif.Utils.C140_settings"
   ],
   "note": "Proved when centre and points are within 1e12 of every constraint; search correctness is assumed of bitpit. Violated: a point out of reach of all 1000 radii counts as a violation of 1e25 when the centre is on the positive side; without a field values that are not there are read."
  },
  {
   "property": "C141",
   "status": "partial",
   "theorems": [
    "Verif.Utils.C141_add",
    "Verif.Utils.C141_set",
    "Verif.Utils.C141_remove",
    "Verif.Utils.C141_path_partial",
    "Verif.Utils.C141_bare_fails"
   ],
   "note": "Lists of files exact. Paths with a directory are taken apart correctly; violated for a file given by its bare name, whose directory becomes the name itself."
  },
  {
   "property": "C142",
   "status": "partial",
   "theorems": [
    "Verif.Utils.C142_curve",
    "Verif.Utils.C142_segment",
    "Verif.Utils.C142_settings",
    "Verif.Utils.C142_missing",
    "Verif.Utils.C142_cells_fails",
    "Verif.Utils.C142_clear_fails"
   ],
   "note": "Proved for a positive number of cells, a surface within reach and normals that do not vanish; points closer than the tolerance of the surface are only as close as C136 says. Violated: zero and negative numbers of cells are accepted and execution then gives no mesh; clear keeps the trees asked for."
  },
  {
   "property": "C143",
   "status": "partial",
   "theorems": [
    "Verif.Utils.C143_absorb",
    "Verif.Utils.C143_ends",
    "Verif.Utils.C143_round_trip_partial",
    "Verif.Utils.C143_segment_fails"
   ],
   "note": "Proved for reading and for the round trip of number of cells and trees. Violated: the six coordinates are written without separators, so that no segment with whole coordinates comes back."
  },
  {
   "property": "C144",
   "status": "proved",
   "theorems": [
    "Verif.Create.C144_cloud",
    "Verif.Create.C144_lists",
    "Verif.Create.C144_settings"
   ],
   "note": "All raw data and ids; serial."
  },
  {
   "property": "C145",
   "status": "partial",
   "theorems": [
    "Verif.Create.C145_curve",
    "Verif.Create.C145_point",
    "Verif.Create.C145_few_points_fails",
    "Verif.Create.C145_again_fails",
    "Verif.Create.C145_settings"
   ],
   "note": "Proved for at least one line to draw; C145_few_points_fails: a run without points (settings of a new block) takes the top of an empty queue; C145_again_fails: the number of lines of a run stays as the number asked for the next."
  },
  {
   "property": "C146",
   "status": "proved",
   "theorems": [
    "Verif.Create.C146_absorb",
    "Verif.Create.C146_round_trip"
   ],
   "note": "All ints; signs modelled."
  },
  {
   "property": "C147",
   "status": "partial",
   "theorems": [
    "Verif.Recon.C147_first",
    "Verif.Recon.C147_mapping_first",
    "Verif.Recon.C147_mapping_mean",
    "Verif.Recon.C147_mapping_scalar",
    "Verif.Recon.C147_refused",
    "Verif.Recon.C147_again",
    "Verif.Recon.C147_mapping_first_fails",
    "Verif.Recon.C147_name_fails"
   ],
   "note": "Geometry and name modes, refused runs and repeated runs proved; mapping proved for long and string fields (first value) and, for scalar and vector fields, as the mean of all values offered. The documented first value does not hold for scalar fields (C147_mapping_first_fails), nor do the documented names of block and result (C147_name_fails). Proximity searches are parameters, assumed to list no id twice."
  },
  {
   "property": "C148",
   "status": "partial",
   "theorems": [
    "Verif.Recon.C148_lists",
    "Verif.Recon.C148_reachable",
    "Verif.Recon.C148_clear",
    "Verif.Recon.C148_never_mapping",
    "Verif.Recon.C148_location",
    "Verif.Recon.C148_round_trip_partial",
    "Verif.Recon.C148_mapping_fails"
   ],
   "note": "Lists, settings, clear and refused locations proved; the XML round trip holds for the modes by geometry and by name. A mapping block comes back as a name block (C148_mapping_fails) and no section can ask for mapping (C148_never_mapping): SelectType is read as a boolean."
  },
  {
   "property": "C149",
   "status": "partial",
   "theorems": [
    "Verif.Refine.C149_ternary",
    "Verif.Refine.C149_size",
    "Verif.Refine.C149_outline_partial",
    "Verif.Refine.C149_pixel_fails"
   ],
   "note": "Serial; centroids and new ids are external (parameters). The outline is proved for cells stored as rings; for pixels, stored row by row, it fails (C149_pixel_fails)."
  },
  {
   "property": "C150",
   "status": "partial",
   "theorems": [
    "Verif.Refine.C150_unique",
    "Verif.Refine.C150_size",
    "Verif.Refine.C150_size_only",
    "Verif.Refine.C150_redgreen"
   ],
   "note": "Serial, refinement without mapping and patches; adjacencies and interfaces of bitpit are a parameter of which only what C150 needs is assumed (Wired). Degenerate triangles (a vertex twice) are excluded."
  },
  {
   "property": "C151",
   "status": "partial",
   "theorems": [
    "Verif.Refine.C151_redgreen",
    "Verif.Refine.C151_no_hanging",
    "Verif.Refine.C151_active",
    "Verif.Refine.C151_outline",
    "Verif.Refine.C151_three_cells_fails"
   ],
   "note": "Serial. Needs at most two cells at each side: with one interface for each pair of cells, three cells at a side get different new vertices there (C151_three_cells_fails). Called by execute with all cells only; the set of cells is a parameter of the model."
  },
  {
   "property": "C152",
   "status": "partial",
   "theorems": [
    "Verif.Refine.C152_hull",
    "Verif.Refine.C152_mesh",
    "Verif.Refine.C152_smoothing",
    "Verif.Refine.C152_negative_fails",
    "Verif.Refine.C152_triangle_fails"
   ],
   "note": "The second sub-step is never done when no constrained vertices are given, which is always so in execute: proved that the documented step is not what happens unless the mesh is already at rest (C152_negative_fails, C152_triangle_fails), and what happens instead (C152_smoothing, C152_hull). Real coordinates, serial; isolated vertices in a release build."
  },
  {
   "property": "C153",
   "status": "partial",
   "theorems": [
    "Verif.Refine.C153_unique",
    "Verif.Refine.C153_refused",
    "Verif.Refine.C153_redgreen",
    "Verif.Refine.C153_ternary",
    "Verif.Refine.C153_settings",
    "Verif.Refine.C153_round_trip",
    "Verif.Refine.C153_absorb",
    "Verif.Refine.C153_text_fails"
   ],
   "note": "Serial; base class XML in C22/C23. A text for the method that is not a number selects the ternary method silently (C153_text_fails). Executions of the red-green method that raise an exception are not described."
  },
  {
   "property": "C154",
   "status": "partial",
   "theorems": [
    "Verif.Triang.C154_copy",
    "Verif.Triang.C154_target",
    "Verif.Triang.C154_refused",
    "Verif.Triang.C154_settings",
    "Verif.Triang.C154_round_trip",
    "Verif.Triang.C154_leftover_fails"
   ],
   "note": "Copy mode, target mode, refusals, settings and XML are proved. An exception in copy mode leaves an untouched copy as result (C154_leftover_fails). Surfaces with element types outside triangle, quadrilateral, pixel, polygon are not covered."
  },
  {
   "property": "C155",
   "status": "partial",
   "theorems": [
    "Verif.Select.C155_mesh",
    "Verif.Select.C155_cloud",
    "Verif.Select.C155_refused",
    "Verif.Select.C155_settings",
    "Verif.Select.C155_twice_fails",
    "Verif.Select.C155_lost_fails",
    "Verif.Select.C155_cloud_fails"
   ],
   "note": "Proved for geometries in good order and fields whose ids are in the geometry. Repeated runs stop (C155_twice_fails), fields with foreign ids lose all values (C155_lost_fails), non-point fields of clouds stay on the mother (C155_cloud_fails)."
  },
  {
   "property": "C156",
   "status": "partial",
   "theorems": [
    "Verif.Select.C156_select",
    "Verif.Select.C156_patch",
    "Verif.Select.C156_refused"
   ],
   "note": "C156_select (the ids selected), C156_patch (the part extracted), C156_refused. The proximity search (skdTreeUtils::selectByPatch / MimmoGeometry reading) is a parameter: which cells are within the tolerance of a geometry is what the search of bitpit returns."
  },
  {
   "property": "C157",
   "status": "partial",
   "theorems": [
    "Verif.Select.C157_calls",
    "Verif.Select.C157_settings",
    "Verif.Select.C157_constructor_fails",
    "Verif.Select.C157_constructor_partial",
    "Verif.Select.C157_path",
    "Verif.Select.C157_path_fails",
    "Verif.Select.C157_topology",
    "Verif.Select.C157_absorb",
    "Verif.Select.C157_round_trip",
    "Verif.Select.C157_allowed",
    "Verif.Select.C157_file"
   ],
   "note": "C157_calls (every call on the lists), C157_settings, C157_path, C157_topology, C157_absorb, C157_round_trip. The claim fails for the constructor with lists, which links only surfaces and accepts a negative tolerance (C157_constructor_fails, C157_constructor_partial says when it works), and for a path without a directory, whose whole text is taken as directory (C157_path_fails). Paths with blanks around them are trimmed when read (hypothesis of C157_round_trip)."
  },
  {
   "property": "C158",
   "status": "partial",
   "theorems": [
    "Verif.Check.C158_status",
    "Verif.Check.C158_parts",
    "Verif.Check.C158_refused",
    "Verif.Check.C158_again_fails",
    "Verif.Check.C158_border_fails"
   ],
   "note": "C158_status, C158_parts, C158_refused for the first execution of a block. The claim fails for later executions, whose indicators start from those found before: once a check has failed no mesh is good any more (C158_again_fails); and cells at skewed interfaces of the border are not reported (C158_border_fails). Volumes, centres, normals, areas, adjacencies and interfaces are what bitpit computes; the angle is a function of its two vectors; a division by zero counts as not comparable, as with doubles that are not negative."
  },
  {
   "property": "C159",
   "status": "partial",
   "theorems": [
    "Verif.Check.C159_settings",
    "Verif.Check.C159_round_trip_partial",
    "Verif.Check.C159_skew_fails",
    "Verif.Check.C159_absorb",
    "Verif.Check.C159_copy",
    "Verif.Check.C159_copy_fails"
   ],
   "note": "C159_settings, C159_absorb, C159_copy, C159_round_trip_partial (all but angles). The claim fails for the tolerances of skewness, written in radians and read in degrees (C159_skew_fails); and for the plot of a copy of an executed block and for an assigned block, which keeps its own geometry and parts (C159_copy_fails). Numbers of a section are rationals, sci is their rounding when written."
  },
  {
   "property": "C160",
   "status": "proved",
   "theorems": [
    "Verif.Utils.C160_axes",
    "Verif.Utils.C160_box",
    "Verif.Utils.C160_contains",
    "Verif.Utils.C160_thick",
    "Verif.Utils.C160_aligned",
    "Verif.Utils.C160_minvol",
    "Verif.Utils.C160_none",
    "Verif.Utils.C160_again"
   ],
   "note": "All clauses, over the reals, for vertices whose coordinates along the axes are within the initial extrema of the code (FitsAlong) and solvers returning orthonormal rows for symmetric matrices."
  },
  {
   "property": "C161",
   "status": "partial",
   "theorems": [
    "Verif.Utils.C161_surface",
    "Verif.Utils.C161_principal",
    "Verif.Utils.C161_spread",
    "Verif.Utils.C161_zero_area_fails",
    "Verif.Utils.C161_order",
    "Verif.Utils.C161_moved",
    "Verif.Utils.C161_cloud_partial",
    "Verif.Utils.C161_unset_fails",
    "Verif.Utils.C161_clouds_fails",
    "Verif.Utils.C161_polygon",
    "Verif.Utils.C161_quad_fails",
    "Verif.Utils.C161_clouds_order_fails"
   ],
   "note": "Proved for triangulated surfaces (integral specification, spread, order, translation) when eigenvalues are equal or apart by more than the threshold. Fails for quadrilaterals and polygons (C161_quad_fails: one triangle stands for the cell), for clouds and curves (C161_unset_fails: memory never set; C161_clouds_fails, C161_clouds_order_fails: first clouds counted again), and for surfaces of zero area (C161_zero_area_fails: division by zero). C161_cloud_partial: one cloud with the memory zero."
  },
  {
   "property": "C162",
   "status": "proved",
   "theorems": [
    "Verif.Utils.C162_list",
    "Verif.Utils.C162_strategy",
    "Verif.Utils.C162_rest",
    "Verif.Utils.C162_absorb",
    "Verif.Utils.C162_round_trip",
    "Verif.Utils.C162_initial"
   ],
   "note": "All clauses."
  },
  {
   "property": "C163",
   "status": "partial",
   "theorems": [
    "Verif.Io.C163_read",
    "Verif.Io.C163_missing",
    "Verif.Io.C163_round_trip",
    "Verif.Io.C163_template_fails",
    "Verif.Io.C163_unset_fails",
    "Verif.Io.C163_bare_fails",
    "Verif.Io.C163_precision_fails"
   ],
   "note": "Reading of any file with well formed rows, round trip up to the printed precision, missing files proved. Negated: numbers are printed with six digits (some change), a template reads as zeros, a bare first row uses an unset label and a later one repeats the label before it. Number format is a parameter."
  },
  {
   "property": "C164",
   "status": "partial",
   "theorems": [
    "Verif.Io.C164_labels",
    "Verif.Io.C164_unique_fails",
    "Verif.Io.C164_count_fails",
    "Verif.Io.C164_file",
    "Verif.Io.C164_template_name_fails",
    "Verif.Io.C164_modes",
    "Verif.Io.C164_clear",
    "Verif.Io.C164_absorb",
    "Verif.Io.C164_round_trip",
    "Verif.Io.C164_empty_mode_fails"
   ],
   "note": "Labels, modes, single file, XML proved. Negated: labels given twice are written twice; setNDispl changes the number although displacements are present and has no effect on the file; a template replaces the data file; an empty IOmode cannot be absorbed."
  },
  {
   "property": "C165",
   "status": "partial",
   "theorems": [
    "Verif.Io.C165_read",
    "Verif.Io.C165_fields_partial",
    "Verif.Io.C165_fields_fails",
    "Verif.Io.C165_unknown_fails",
    "Verif.Io.C165_missing_fails",
    "Verif.Io.C165_twice",
    "Verif.Io.C165_missing_file",
    "Verif.Io.C165_unset_fails"
   ],
   "note": "C165_read gives for every file the cloud and the fields that are read; C165_fields_partial is the claim for labels 0, 1, 2, ... in order. Violations: C165_fields_fails (values keyed by position), C165_unknown_fails, C165_missing_fails, C165_unset_fails; C165_twice: a repeated value raises an exception."
  },
  {
   "property": "C166",
   "status": "partial",
   "theorems": [
    "Verif.Io.C166_same_partial",
    "Verif.Io.C166_file",
    "Verif.Io.C166_template_fails",
    "Verif.Io.C166_null_fails",
    "Verif.Io.C166_modes",
    "Verif.Io.C166_clear",
    "Verif.Io.C166_copy_fails",
    "Verif.Io.C166_absorb",
    "Verif.Io.C166_xml_round_trip",
    "Verif.Io.C166_empty_mode_fails",
    "Verif.Io.C166_foreign_fails",
    "Verif.Io.C166_round_trip"
   ],
   "note": "C166_round_trip gives what is read back in full (points by id, values by position); C166_same_partial is the claim for ids 0, 1, 2, ... in order. Violations: C166_template_fails, C166_foreign_fails, C166_copy_fails, C166_null_fails, C166_empty_mode_fails."
  },
  {
   "property": "C167",
   "status": "partial",
   "theorems": [
    "Verif.Csv.C167_numbers",
    "Verif.Csv.C167_number",
    "Verif.Csv.C167_number_fails",
    "Verif.Csv.C167_array",
    "Verif.Csv.C167_arrays",
    "Verif.Csv.C167_vector_partial",
    "Verif.Csv.C167_vector_fails",
    "Verif.Csv.C167_empty"
   ],
   "note": "A single number, arrays, vectors of arrays and the empty vector come back (C167_number, C167_array, C167_arrays, C167_empty). Violated: the vector of numbers loses its last value (C167_vector_fails); a file with one number and no separator leaves the variable unset (C167_number_fails). Right if a separator follows every value (C167_vector_partial)."
  },
  {
   "property": "C168",
   "status": "partial",
   "theorems": [
    "Verif.Csv.C168_round_trip_partial",
    "Verif.Csv.C168_empty_fails",
    "Verif.Csv.C168_words_fails",
    "Verif.Csv.C168_no_name_fails",
    "Verif.Csv.C168_location_fails",
    "Verif.Csv.C168_binary_name_fails",
    "Verif.Csv.C168_same_file",
    "Verif.Csv.C168_missing",
    "Verif.Csv.C168_geometry_partial",
    "Verif.Csv.C168_geometry_fails"
   ],
   "note": "Proved for fields with values and a name of one word in CSV (C168_round_trip_partial, scalars by reads_scal, arrays by reads_arr), same file and mode (C168_same_file), geometry up to the name (C168_geometry_partial). Violated: empty fields, names of several words, no name, locations that do not exist, binary names, names with a geometry (theorems with _fails). The ASCII format of bitpit is a parameter."
  },
  {
   "property": "C169",
   "status": "partial",
   "theorems": [
    "Verif.Csv.C169_value_partial",
    "Verif.Csv.C169_unset_fails",
    "Verif.Csv.C169_clear_fails",
    "Verif.Csv.C169_same_file",
    "Verif.Csv.C169_number",
    "Verif.Csv.C169_absorb",
    "Verif.Csv.C169_section_partial",
    "Verif.Csv.C169_section_fails"
   ],
   "note": "Violated: C169_unset_fails (null pointer), C169_clear_fails (clearInput keeps the result), C169_section_fails (directory and file of an input without a file are not absorbed). The rest is proved."
  },
  {
   "property": "C170",
   "status": "partial",
   "theorems": [
    "Verif.Lapl.C170_exists",
    "Verif.Lapl.C170_linear",
    "Verif.Lapl.C170_constant",
    "Verif.Lapl.C170_small_fails",
    "Verif.Lapl.C170_plane_fails",
    "Verif.Lapl.C170_fit"
   ],
   "note": "Violated: directions with offsets below 1e-12 are dropped (C170_small_fails); neighbours in a plane that is not a coordinate plane give a singular matrix (C170_plane_fails). Everything else proved over the reals."
  },
  {
   "property": "C171",
   "status": "proved",
   "theorems": [
    "Verif.Lapl.C171_exists",
    "Verif.Lapl.C171_tangent",
    "Verif.Lapl.C171_normal",
    "Verif.Lapl.C171_linear",
    "Verif.Lapl.C171_mesh",
    "Verif.Lapl.C171_neumann",
    "Verif.Lapl.C171_dirichlet_normal",
    "Verif.Lapl.C171_dirichlet_linear"
   ],
   "note": "All parts over the reals."
  },
  {
   "property": "C172",
   "status": "partial",
   "theorems": [
    "Verif.Lapl.C172_value",
    "Verif.Lapl.C172_constant",
    "Verif.Lapl.C172_linear",
    "Verif.Lapl.C172_conservation",
    "Verif.Lapl.C172_some_interfaces_fails"
   ],
   "note": "Violated: stencils also at cells with interfaces missing (C172_some_interfaces_fails)."
  },
  {
   "property": "C173",
   "status": "partial",
   "theorems": [
    "Verif.Lapl.C173_points",
    "Verif.Lapl.C173_row",
    "Verif.Lapl.C173_mean",
    "Verif.Lapl.C173_constant",
    "Verif.Lapl.C173_max",
    "Verif.Lapl.C173_min",
    "Verif.Lapl.C173_isolated_fails"
   ],
   "note": "Violated at points without neighbours (C173_isolated_fails)."
  },
  {
   "property": "C174",
   "status": "partial",
   "theorems": [
    "Verif.Lapl.C174_system",
    "Verif.Lapl.C174_mean",
    "Verif.Lapl.C174_compare",
    "Verif.Lapl.C174_bounds",
    "Verif.Lapl.C174_constant",
    "Verif.Lapl.C174_unique",
    "Verif.Lapl.C174_steps",
    "Verif.Lapl.C174_relax_fails",
    "Verif.Lapl.C174_no_patch_fails"
   ],
   "note": "Exact linear solver assumed. Violated for relaxation 0 (C174_relax_fails) and without patches (C174_no_patch_fails)."
  },
  {
   "property": "C175",
   "status": "partial",
   "theorems": [
    "Verif.Lapl.C175_distance",
    "Verif.Lapl.C175_range",
    "Verif.Lapl.C175_default_fails",
    "Verif.Lapl.C175_decay_fails",
    "Verif.Lapl.C175_volume"
   ],
   "note": "Violated for the default inner distance (C175_default_fails) and decay 0 (C175_decay_fails)."
  },
  {
   "property": "C176",
   "status": "partial",
   "theorems": [
    "Verif.Lapl.C176_values",
    "Verif.Lapl.C176_order_partial",
    "Verif.Lapl.C176_order_fails",
    "Verif.Lapl.C176_same_patch_fails",
    "Verif.Lapl.C176_one",
    "Verif.Lapl.C176_pointers_fails"
   ],
   "note": "Violated: order dependence (C176_order_fails, C176_same_patch_fails) and pointers to a moved buffer (C176_pointers_fails)."
  },
  {
   "property": "C177",
   "status": "partial",
   "theorems": [
    "Verif.Lapl.C177_setters",
    "Verif.Lapl.C177_absent",
    "Verif.Lapl.C177_spelling",
    "Verif.Lapl.C177_roundtrip_partial",
    "Verif.Lapl.C177_exact",
    "Verif.Lapl.C177_tolerance_fails",
    "Verif.Lapl.C177_threshold_fails",
    "Verif.Lapl.C177_vector_fails",
    "Verif.Lapl.C177_inactive_fails"
   ],
   "note": "C177_tolerance_fails, C177_threshold_fails, C177_vector_fails, C177_inactive_fails; C177_absent and C177_spelling describe what is read from incomplete and old sections."
  },
  {
   "property": "C178",
   "status": "partial",
   "theorems": [
    "Verif.Vprop.C178_system",
    "Verif.Vprop.C178_values",
    "Verif.Vprop.C178_bounds",
    "Verif.Vprop.C178_plane",
    "Verif.Vprop.C178_average",
    "Verif.Vprop.C178_curved_fails",
    "Verif.Vprop.C178_opposite_fails",
    "Verif.Vprop.C178_reference_partial",
    "Verif.Vprop.C178_reference_fails",
    "Verif.Vprop.C178_stale_fails",
    "Verif.Vprop.C178_coherent",
    "Verif.Vprop.C178_incoherent_fails",
    "Verif.Vprop.C178_unique"
   ],
   "note": "Violated: C178_curved_fails, C178_opposite_fails, C178_reference_fails, C178_stale_fails, C178_incoherent_fails. C178_reference_partial: the projection is a parameter."
  },
  {
   "property": "C179",
   "status": "partial",
   "theorems": [
    "Verif.Vprop.C179_values",
    "Verif.Vprop.C179_shares",
    "Verif.Vprop.C179_update_partial",
    "Verif.Vprop.C179_threshold_fails",
    "Verif.Vprop.C179_small_fails",
    "Verif.Vprop.C179_damping_fails"
   ],
   "note": "Violated: C179_threshold_fails, C179_small_fails, C179_damping_fails. C179_update_partial: when every moving point moves beyond the threshold and the damping is unchanged elsewhere."
  },
  {
   "property": "C180",
   "status": "proved",
   "theorems": [
    "Verif.FvSel.C180_boundary",
    "Verif.FvSel.C180_lists",
    "Verif.FvSel.C180_closed"
   ],
   "note": "Face tables and numbering of faces are a parameter (bitpit); faces are the same when their vertex sets agree."
  },
  {
   "property": "C181",
   "status": "partial",
   "theorems": [
    "Verif.FvSel.C181_patches",
    "Verif.FvSel.C181_missing",
    "Verif.FvSel.C181_warning",
    "Verif.FvSel.C181_border",
    "Verif.FvSel.C181_outside_fails",
    "Verif.FvSel.C181_pids_fails"
   ],
   "note": "C181_outside_fails: boundary cells that are faces of no selected bulk cell; C181_pids_fails: PIDs of removed cells stay listed. The patches are exactly described."
  },
  {
   "property": "C182",
   "status": "partial",
   "theorems": [
    "Verif.FvSel.C182_internal",
    "Verif.FvSel.C182_disjoint",
    "Verif.FvSel.C182_exact_partial",
    "Verif.FvSel.C182_region",
    "Verif.FvSel.C182_strip_fails",
    "Verif.FvSel.C182_complement_fails",
    "Verif.FvSel.C182_pids_fails"
   ],
   "note": "C182_strip_fails, C182_complement_fails, C182_pids_fails; C182_exact_partial needs that no cut face has all its vertices on the boundary patch."
  },
  {
   "property": "C183",
   "status": "partial",
   "theorems": [
    "Verif.FvSel.C183_types",
    "Verif.FvSel.C183_option",
    "Verif.FvSel.C183_dual_fails",
    "Verif.FvSel.C183_copy_fails",
    "Verif.FvSel.C183_shape",
    "Verif.FvSel.C183_sphere_fails",
    "Verif.FvSel.C183_section",
    "Verif.FvSel.C183_topology",
    "Verif.FvSel.C183_empty_fails"
   ],
   "note": "C183_dual_fails, C183_copy_fails, C183_sphere_fails (the constructor with a sphere casts a SelectionByCylinder), C183_empty_fails."
  },
  {
   "property": "C184",
   "status": "partial",
   "theorems": [
    "Verif.Seeds.C184_spread",
    "Verif.Seeds.C184_greedy",
    "Verif.Seeds.C184_ends",
    "Verif.Seeds.C184_unit",
    "Verif.Seeds.C184_nearest",
    "Verif.Seeds.C184_grid_fails",
    "Verif.Seeds.C184_sensitivity_fails"
   ],
   "note": "Violated: the decimation ends only with more distinct (modulated) candidates than points (C184_ends is the exact condition; C184_grid_fails: one or two points with the grid hang on every surface), and points of zero sensitivity coincide (C184_sensitivity_fails). Projection, boxes and the k-d tree are external."
  },
  {
   "property": "C185",
   "status": "partial",
   "theorems": [
    "Verif.Seeds.C185_bound",
    "Verif.Seeds.C185_exact_partial",
    "Verif.Seeds.C185_level",
    "Verif.Seeds.C185_short_fails",
    "Verif.Seeds.C185_gap_fails"
   ],
   "note": "Exact when |A| > 1e-12 or the difference equals the edge (C185_exact_partial, C185_level for edges longer than 1e-3 with equal values); violated for shorter edges (C185_short_fails) and in the gap (C185_gap_fails, in real arithmetic)."
  },
  {
   "property": "C186",
   "status": "partial",
   "theorems": [
    "Verif.Seeds.C186_ends",
    "Verif.Seeds.C186_covers",
    "Verif.Seeds.C186_lower",
    "Verif.Seeds.C186_convex",
    "Verif.Seeds.C186_upper_partial",
    "Verif.Seeds.C186_neighbour"
   ],
   "note": "All but the upper bound hold for all triangulations; the upper bound needs angles that are not obtuse and values off the gap of C185 (C186_upper_partial). The heap is any extraction of a smallest key."
  },
  {
   "property": "C187",
   "status": "partial",
   "theorems": [
    "Verif.Seeds.C187_points_partial",
    "Verif.Seeds.C187_spread",
    "Verif.Seeds.C187_distance",
    "Verif.Seeds.C187_exhausted_fails",
    "Verif.Seeds.C187_zero_fails"
   ],
   "note": "Violated when no vertex with a positive value is left (C187_exhausted_fails) and for no points (C187_zero_fails); the rest proved under the premise that there is one (C187_points_partial)."
  },
  {
   "property": "C188",
   "status": "partial",
   "theorems": [
    "Verif.Seeds.C188_scaled",
    "Verif.Seeds.C188_range",
    "Verif.Seeds.C188_roundtrip_partial",
    "Verif.Seeds.C188_pattern",
    "Verif.Seeds.C188_signature_fails",
    "Verif.Seeds.C188_fixed_fails"
   ],
   "note": "Violated: RandomSignature is not read (C188_signature_fails); RandomFixed is written with the signature (C188_fixed_fails). Empty options are not modelled."
  },
  {
   "property": "C189",
   "status": "partial",
   "theorems": [
    "Verif.Obj.C189_points_partial",
    "Verif.Obj.C189_blank_fails",
    "Verif.Obj.C189_header_fails",
    "Verif.Obj.C189_order_fails",
    "Verif.Obj.C189_comment_fails"
   ],
   "note": "Violated outside files in the order of NeatFile: C189_blank_fails, C189_header_fails, C189_order_fails, C189_comment_fails."
  },
  {
   "property": "C190",
   "status": "partial",
   "theorems": [
    "Verif.Obj.C190_facets_partial",
    "Verif.Obj.C190_last_fails",
    "Verif.Obj.C190_quad_fails",
    "Verif.Obj.C190_mixed_fails"
   ],
   "note": "Holds for NeatFile; C190_last_fails/C190_quad_fails: the last corner of v-only facets is lost without a trailing blank; C190_mixed_fails."
  },
  {
   "property": "C191",
   "status": "partial",
   "theorems": [
    "Verif.Obj.C191_attributes_partial",
    "Verif.Obj.C191_objects_fails",
    "Verif.Obj.C191_words_fails"
   ],
   "note": "Holds for NeatFile per object; C191_objects_fails, C191_words_fails."
  },
  {
   "property": "C192",
   "status": "partial",
   "theorems": [
    "Verif.Obj.C192_null_fails",
    "Verif.Obj.C192_both_partial"
   ],
   "note": "Violated: C192_null_fails for every file without textures or normals; C192_both_partial otherwise. Cleaning of the mesh after reading is not modelled."
  },
  {
   "property": "C193",
   "status": "proved",
   "theorems": [
    "Verif.Obj.C193_written",
    "Verif.Obj.C193_facets",
    "Verif.Obj.C193_once"
   ],
   "note": "For the model of the writer: digits, words and the order of unordered_set are parameters."
  },
  {
   "property": "C194",
   "status": "partial",
   "theorems": [
    "Verif.Obj.C194_uv_fails",
    "Verif.Obj.C194_roundtrip_partial",
    "Verif.Obj.C194_bare_fails"
   ],
   "note": "C194_roundtrip_partial through scanFile; C194_bare_fails, C194_uv_fails."
  },
  {
   "property": "C195",
   "status": "proved",
   "theorems": [
    "Verif.Obj.C195_keys",
    "Verif.Obj.C195_regroup"
   ],
   "note": ""
  },
  {
   "property": "C196",
   "status": "partial",
   "theorems": [
    "Verif.Obj.C196_groups_partial",
    "Verif.Obj.C196_single_partial",
    "Verif.Obj.C196_second_fails",
    "Verif.Obj.C196_bare_fails"
   ],
   "note": "C196_groups_partial (all parts), C196_single_partial (one part); C196_second_fails, C196_bare_fails."
  },
  {
   "property": "C197",
   "status": "partial",
   "theorems": [
    "Verif.ObjData.C197_strategies",
    "Verif.ObjData.C197_noBlanks_partial",
    "Verif.ObjData.C197_again_partial",
    "Verif.ObjData.C197_again_fails",
    "Verif.ObjData.C197_inside_fails",
    "Verif.ObjData.C197_named"
   ],
   "note": "C197_again_fails (GETALL), C197_inside_fails (GETALLNOBLANKS)."
  },
  {
   "property": "C198",
   "status": "partial",
   "theorems": [
    "Verif.ObjData.C198_lists_partial",
    "Verif.ObjData.C198_inside_fails",
    "Verif.ObjData.C198_twice_fails",
    "Verif.ObjData.C198_null_fails"
   ],
   "note": "C198_inside_fails, C198_twice_fails, C198_null_fails. long to int conversion of smoothing groups not modelled."
  },
  {
   "property": "C199",
   "status": "partial",
   "theorems": [
    "Verif.ObjData.C199_average_partial",
    "Verif.ObjData.C199_check",
    "Verif.ObjData.C199_length_fails",
    "Verif.ObjData.C199_zero_fails"
   ],
   "note": "Violated: C199_length_fails, C199_zero_fails; C199_check for those not recomputed. Real numbers for doubles."
  },
  {
   "property": "C200",
   "status": "partial",
   "theorems": [
    "Verif.ObjData.C200_roundtrip_partial",
    "Verif.ObjData.C200_strategy_fails",
    "Verif.ObjData.C200_smooth_fails",
    "Verif.ObjData.C200_words_fails",
    "Verif.ObjData.C200_absorb"
   ],
   "note": "C200_strategy_fails, C200_smooth_fails, C200_words_fails."
  },
  {
   "property": "C201",
   "status": "partial",
   "theorems": [
    "Verif.Vtu.C201_used",
    "Verif.Vtu.C201_roundtrip_partial",
    "Verif.Vtu.C201_lone_fails"
   ],
   "note": "Proved for every mesh: the cells and the vertices of cells come back (C201_used), the whole mesh if every vertex belongs to a cell (C201_roundtrip_partial); isolated vertices are lost (C201_lone_fails). Rounding of printed coordinates is a parameter."
  },
  {
   "property": "C202",
   "status": "proved",
   "theorems": [
    "Verif.Vtu.C202_vertices",
    "Verif.Vtu.C202_cells"
   ],
   "note": "Both for vertices and cells, any file."
  },
  {
   "property": "C203",
   "status": "partial",
   "theorems": [
    "Verif.Vtu.C203_indices_partial",
    "Verif.Vtu.C203_index_fails",
    "Verif.Vtu.C203_short_fails"
   ],
   "note": "Proved for cells which are not polyhedra and indices of points (C203_indices_partial); indices out of range become id 0 (C203_index_fails), short arrays are overrun (C203_short_fails). Missing: polyhedra."
  },
  {
   "property": "C204",
   "status": "partial",
   "theorems": [
    "Verif.Vtu.C204_standard_partial",
    "Verif.Vtu.C204_few_fails"
   ],
   "note": "Proved when the faces have at least as many entries as there are cells (C204_standard_partial); refused otherwise (C204_few_fails)."
  },
  {
   "property": "C205",
   "status": "partial",
   "theorems": [
    "Verif.Vtu.C205_again_partial",
    "Verif.Vtu.C205_stale_fails"
   ],
   "note": "Proved for files with every array; violated otherwise (C205_stale_fails). The blocks of the library use a new streamer each time."
  },
  {
   "property": "C206",
   "status": "proved",
   "theorems": [
    "Verif.Vtu.C206_types",
    "Verif.Vtu.C206_refused",
    "Verif.Vtu.C206_noConn"
   ],
   "note": "Twelve types, refusal of others and of short connectivity."
  },
  {
   "property": "C207",
   "status": "proved",
   "theorems": [
    "Verif.Vtu.C207_wellformed"
   ],
   "note": "Any patch which can be written."
  },
  {
   "property": "C208",
   "status": "partial",
   "theorems": [
    "Verif.Main.C208_documented_partial",
    "Verif.Main.C208_stray_fails",
    "Verif.Main.C208_inside_fails"
   ],
   "note": "Documented spellings, values without '='. C208_stray_fails: keymap[18] is the empty string, which is found in every argument, and 18 % 6 = 0: any other argument becomes the dictionary, or not, as the unordered_set is visited. C208_inside_fails: find looks everywhere in the argument."
  },
  {
   "property": "C209",
   "status": "partial",
   "theorems": [
    "Verif.Main.C209_order_partial",
    "Verif.Main.C209_twice_fails",
    "Verif.Main.C209_help"
   ],
   "note": "Independence of the order when no two arguments are taken for the same option; C209_twice_fails: otherwise the hash order chooses. C209_help in full."
  },
  {
   "property": "C210",
   "status": "partial",
   "theorems": [
    "Verif.Main.C210_blocks",
    "Verif.Main.C210_all_partial",
    "Verif.Main.C210_twice_fails"
   ],
   "note": "C210_blocks describes the result for all dictionaries; C210_all_partial: every section is there when the names are distinct; C210_twice_fails: mapInst[idstring] replaces the earlier block."
  },
  {
   "property": "C211",
   "status": "partial",
   "theorems": [
    "Verif.Main.C211_schedule_partial",
    "Verif.Main.C211_all_partial",
    "Verif.Main.C211_inversion_fails"
   ],
   "note": "C211_schedule_partial: all visiting orders, all priorities, failing blocks; suppliers precede receivers unless their priority is lower; C211_inversion_fails for those."
  },
  {
   "property": "C212",
   "status": "partial",
   "theorems": [
    "Verif.Main.C212_priority_partial",
    "Verif.Main.C212_across_fails",
    "Verif.Main.C212_dropped_fails"
   ],
   "note": "C212_priority_partial for any network; C212_across_fails: checkLoops sees only the blocks of its chain; C212_dropped_fails: the -1 of addObject is ignored and the block left out."
  },
  {
   "property": "C213",
   "status": "partial",
   "theorems": [
    "Verif.Foam.C213_shapes",
    "Verif.Foam.C213_oriented_partial",
    "Verif.Foam.C213_pyramid_fails"
   ],
   "note": "Types, vertices and faces are proved for the four shapes, orientation for hexahedra, tetrahedra and prisms; pyramids are inverted (C213_pyramid_fails)."
  },
  {
   "property": "C214",
   "status": "proved",
   "theorems": [
    "Verif.Foam.C214_polyhedra",
    "Verif.Foam.C214_opposite"
   ],
   "note": "For meshes whose owner has the smaller number (upper triangular ordering)."
  },
  {
   "property": "C215",
   "status": "partial",
   "theorems": [
    "Verif.Foam.C215_face_partial",
    "Verif.Foam.C215_prefix_fails",
    "Verif.Foam.C215_beyond_fails",
    "Verif.Foam.C215_map_partial",
    "Verif.Foam.C215_stale_fails"
   ],
   "note": "Proved when the interfaces of the owner have at least three vertices and are the face or share at most an edge with it, from an empty map; violations: C215_prefix_fails, C215_beyond_fails, C215_stale_fails. The interfaces are built by bitpit (parameter)."
  },
  {
   "property": "C216",
   "status": "partial",
   "theorems": [
    "Verif.Foam.C216_pids",
    "Verif.Foam.C216_unmapped_fails",
    "Verif.Foam.C216_names_partial",
    "Verif.Foam.C216_past_fails"
   ],
   "note": "PIDs are proved for consecutive patches whose faces are mapped to different interfaces. Violations: C216_unmapped_fails, C216_past_fails."
  },
  {
   "property": "C217",
   "status": "partial",
   "theorems": [
    "Verif.Foam.C217_single_partial",
    "Verif.Foam.C217_reading_fails",
    "Verif.Foam.C217_writing_fails"
   ],
   "note": "Proved for programs with a single directory; violations: C217_reading_fails, C217_writing_fails."
  },
  {
   "property": "C218",
   "status": "partial",
   "theorems": [
    "Verif.Foam.C218_overwrite_partial",
    "Verif.Foam.C218_roundtrip_partial",
    "Verif.Foam.C218_pointsOnly_fails",
    "Verif.Foam.C218_overwritten_fails",
    "Verif.Foam.C218_saved_fails"
   ],
   "note": "Overwrite is proved when given or when WritePointsOnly is absent; violations: C218_pointsOnly_fails, C218_overwritten_fails, C218_saved_fails. Options of the base class are not in this model."
  },
  {
   "property": "C219",
   "status": "proved",
   "theorems": [
    "Verif.Foam.C219_points",
    "Verif.Foam.C219_refused",
    "Verif.Foam.C219_order"
   ],
   "note": "Serial runs."
  },
  {
   "property": "C220",
   "status": "partial",
   "theorems": [
    "Verif.Foam.C220_average",
    "Verif.Foam.C220_constant",
    "Verif.Foam.C220_bounds",
    "Verif.Foam.C220_lone_fails"
   ],
   "note": "In any ordered field, without rounding; a vertex of no cell gets 0/0 (C220_lone_fails)."
  },
  {
   "property": "C221",
   "status": "partial",
   "theorems": [
    "Verif.Foam.C221_bulk_partial",
    "Verif.Foam.C221_class_fails",
    "Verif.Foam.C221_short_fails",
    "Verif.Foam.C221_boundary_partial",
    "Verif.Foam.C221_vector_fails",
    "Verif.Foam.C221_missing_fails",
    "Verif.Foam.C221_nomap_fails",
    "Verif.Foam.C221_zeros_fails"
   ],
   "note": "Proved for fields of the right class on boundaries which fit the map; violations: C221_class_fails, C221_short_fails, C221_vector_fails with C221_missing_fails, C221_nomap_fails, C221_zeros_fails. Insertion of an id which is there is assumed to throw (bitpit)."
  },
  {
   "property": "C222",
   "status": "partial",
   "theorems": [
    "Verif.Nas.C222_roundtrip_partial",
    "Verif.Nas.C222_long_fails",
    "Verif.Nas.C222_polygon_fails"
   ],
   "note": "Proved for the short format and triangles and quadrangles (C222_roundtrip_partial). Violated: the GRID* line is written with 72 characters over two lines and read at columns 48, 64 and 80 of one (C222_long_fails); polygons do not advance the counter of labels and PIDs (C222_polygon_fails). Cards RBE2 and RBE3, which nothing enables, are not modelled."
  },
  {
   "property": "C223",
   "status": "partial",
   "theorems": [
    "Verif.Nas.C223_near_partial",
    "Verif.Nas.C223_large_fails"
   ],
   "note": "Proved for the integer parts which fit; violated for the others (C223_large_fails). Numbers are the digits printed by the stream with std::fixed; its rounding to 8 or 16 decimals is not modelled."
  },
  {
   "property": "C224",
   "status": "partial",
   "theorems": [
    "Verif.Nas.C224_nastran_partial",
    "Verif.Nas.C224_letter_fails"
   ],
   "note": "Proved for the exponents without letter and for none; with the letter an E is inserted anyway and std::stod stops at the second one (C224_letter_fails)."
  },
  {
   "property": "C225",
   "status": "partial",
   "theorems": [
    "Verif.Nas.C225_lines_partial",
    "Verif.Nas.C225_ignored",
    "Verif.Nas.C225_lost_fails",
    "Verif.Nas.C225_bar_fails"
   ],
   "note": "Proved for files whose last line is ended, all those written by the library among them; violated for the others (C225_lost_fails, C225_bar_fails)."
  },
  {
   "property": "C226",
   "status": "proved",
   "theorems": [
    "Verif.Nas.C226_export",
    "Verif.Nas.C226_declared"
   ],
   "note": "Labels, connectivities and PIDs read back from an exported mesh, short format."
  },
  {
   "property": "C227",
   "status": "partial",
   "theorems": [
    "Verif.Geo.C227_shift_partial",
    "Verif.Geo.C227_execute_partial",
    "Verif.Geo.C227_missing",
    "Verif.Geo.C227_null_fails",
    "Verif.Geo.C227_unlisted_fails",
    "Verif.Geo.C227_limit_fails",
    "Verif.Geo.C227_negative"
   ],
   "note": "Proved for meshes whose PIDs are listed and stay 32-bit numbers with the reference (C227_execute_partial, C227_shift_partial, C227_missing). Violated: writer without geometry (C227_null_fails), PIDs not listed, as after setPID with an empty map (C227_unlisted_fails), maximum not enforced (C227_limit_fails). What is in the files is a parameter; cleaning and trees are left to it."
  },
  {
   "property": "C228",
   "status": "partial",
   "theorems": [
    "Verif.Geo.C228_roundtrip_partial",
    "Verif.Geo.C228_base_partial",
    "Verif.Geo.C228_writer_fails",
    "Verif.Geo.C228_mode_fails"
   ],
   "note": "Proved for names without blanks at their ends and tolerances unchanged by printing with six decimals and reading (C228_roundtrip_partial, C228_base_partial). Violated: flushSectionXML writes the file for reading also for writers (C228_writer_fails); absorbSectionXML does not read IOMode (C228_mode_fails)."
  },
  {
   "property": "C229",
   "status": "partial",
   "theorems": [
    "Verif.Prim.C229_lattice_partial",
    "Verif.Prim.C229_primitive_partial",
    "Verif.Prim.C229_base_partial",
    "Verif.Prim.C229_limits_fails",
    "Verif.Prim.C229_empty_fails",
    "Verif.Prim.C229_axis_fails",
    "Verif.Prim.C229_absent"
   ],
   "note": "Lean: Verif/Prim. C229_lattice_partial (everything comes back when the text of each number is read as the number: numbers are written with six digits after the point, and the writing of numbers is a parameter of the model), C229_primitive_partial, C229_base_partial (common settings), C229_absent. Violations: C229_limits_fails (Primitive does not write InfLimits), C229_empty_fails (no shape becomes a cube), C229_axis_fails (an axis missing in RefSystem throws). The types of coordinates are not written either and are not part of the claim."
  },
  {
   "property": "C230",
   "status": "partial",
   "theorems": [
    "Verif.Prim.C230_roundtrip_partial",
    "Verif.Prim.C230_axes",
    "Verif.Prim.C230_single_fails"
   ],
   "note": "Lean: Verif/Prim. C230_roundtrip_partial (same hypothesis on the texts of numbers as C229), C230_axes; violation: C230_single_fails (one axis alone is compared with the other axes of the world and refused silently)."
  },
  {
   "property": "C231",
   "status": "proved",
   "theorems": [
    "Verif.Prim.C231_magnitude",
    "Verif.Prim.C231_given"
   ],
   "note": "Lean: Verif/Prim. C231_magnitude, C231_given. Reals for doubles; ids of a field are distinct (invariant of the container)."
  },
  {
   "property": "C232",
   "status": "partial",
   "theorems": [
    "Verif.Kern.C232_make_partial",
    "Verif.Kern.C232_half_fails",
    "Verif.Kern.C232_last",
    "Verif.Kern.C232_coherent",
    "Verif.Kern.C232_created_fails",
    "Verif.Kern.C232_copy_fails"
   ],
   "note": "Construction with two meshes (C232_make_partial: the case of a missing mesh is missing as it is false, C232_half_fails), the setters over every sequence of calls and the check proved. False: one null mesh is dereferenced (C232_half_fails), no boundary is there after the check (C232_created_fails), copies share the bulk and lose the boundary, so they pass the check whatever the pair (C232_copy_fails)."
  },
  {
   "property": "C233",
   "status": "partial",
   "theorems": [
    "Verif.Pids.C233_read",
    "Verif.Pids.C233_short_fails",
    "Verif.Pids.C233_negative_fails",
    "Verif.Pids.C233_uncounted",
    "Verif.Pids.C233_roundtrip_partial",
    "Verif.Pids.C233_pending_fails"
   ],
   "note": "C233_read, C233_uncounted and C233_roundtrip_partial proved for every state; the trip is stated for blocks just executed, as it is false for requests not yet executed (C233_pending_fails). Other violations: C233_short_fails (missing PIDs are -1, that is all), C233_negative_fails (the maximum with 0 is computed and discarded, the vector cannot be made). PIDs are 0 or more and fit in a long, their number fits in an int; memory is taken to be there."
  },
  {
   "property": "C234",
   "status": "partial",
   "theorems": [
    "Verif.Cgns.C234_volume_partial",
    "Verif.Cgns.C234_after_fails",
    "Verif.Cgns.C234_boundary_partial",
    "Verif.Cgns.C234_back",
    "Verif.Cgns.C234_boundary_back"
   ],
   "note": "Proved for meshes of tetrahedra, pyramids, wedges and hexahedra and boundaries of triangles and quads: sections by type, counts, numbers of boundary cells, and the round trip of volume and boundary sections (vertices by their number in the file, from 0). C234_after_fails: after one cell of another type all following cells are skipped, as the flag is never reset (IOCGNS.cpp:1573-1599, 1647-1667). The sizes of integers, PIDs and the CGNS library are not modelled."
  },
  {
   "property": "C235",
   "status": "partial",
   "theorems": [
    "Verif.Cgns.C235_mixed_partial",
    "Verif.Cgns.C235_surface_fails",
    "Verif.Cgns.C235_type_fails",
    "Verif.Cgns.C235_order_fails"
   ],
   "note": "C235_mixed_partial: unpackMixedConns on a well-formed list of elements of first order adds the volume cells in order. Violations: C235_type_fails (IOCGNS.cpp:688-690 subtract 1 from the types of mixed sections too), C235_surface_fails (the map of surface elements is passed by value), C235_order_fails (higher-order nodes are not skipped)."
  }
 ]
}