{"claims": [
  {"property": "C01", "status": "proved", "theorems": ["PM.C01_regularize"], "note": "All topologies. Input mutation of csr matrices is outside of the model."},
  {"property": "C02", "status": "proved", "theorems": ["PM.C02_isRegular", "PM.C02_isRegular_regularize"], "note": "All topologies."},
  {"property": "C03", "status": "proved", "theorems": ["PM.C03_invmap_array", "PM.C03_invmap_array_false", "PM.C03_imap_arrays", "PM.C03_imap_arrays_false", "PM.C03_imap_arrays_back", "PM.C03_rewire", "PM.C03_rewire_inverse", "PM.C03_rewire_comp", "PM.C03_rewireJagged"], "note": "All maps; missing nodes are errors (none). The inverse map as an array: C03_invmap_array (it holds 0 for numbers that are no index: C03_invmap_array_false)."},
  {"property": "C04", "status": "proved", "theorems": ["PM.C04_detach_exact", "PM.C04_detach_inds_exact", "PM.C04_detach", "PM.C04_detach_inds", "PM.C04_detach_variants"], "note": "Both the bulk and the jagged implementation."},
  {"property": "C05", "status": "proved", "theorems": ["PM.C05_count", "PM.C05_count_cells", "PM.C05_count_dict"], "note": "Array and dictionary return formats."},
  {"property": "C06", "status": "proved", "theorems": ["PM.C06_cells_at_nodes_raw", "PM.C06_cells_at_nodes_jagged", "PM.C06_cells_at_nodes_dicts", "PM.C06_incidence_cells"], "note": "Raw arrays, jagged (for every schedule of the parallel copy) and dictionary formats."},
  {"property": "C07", "status": "proved", "theorems": ["PM.C07_nodal_adjacency", "PM.C07_adjacency_symm", "PM.C07_adjacency_jagged"], "note": "Dictionary of sets and the jagged format."},
  {"property": "C08", "status": "proved", "theorems": ["PM.C08_unique_topo_data", "PM.C08_exact_reconstruction_false", "PM.C08_exact_reconstruction_partial"], "note": "The property as listed. The docstring claim of exact reconstruction is disproved (C08_exact_reconstruction_false) and proved for ascending rows (_partial)."},
  {"property": "C09", "status": "partial", "theorems": ["PM.C09_cell_data_exact", "PM.C09_transform_topology", "PM.C09_nodes_of_parent", "PM.C09_nodal_data", "PM.C09_cell_data_partial", "PM.C09_cell_data_false"], "note": "Topology and nodal data proved. Data per cell proved when their width differs from the number of nodes per cell; otherwise the library takes them for nodal data and the claim is disproved (C09_cell_data_false). What happens in the remaining cases: C09_cell_data_exact."},
  {"property": "C10", "status": "proved", "theorems": ["PM.C10_compose_trmap"], "note": "All paths."},
  {"property": "C11", "status": "partial", "theorems": ["PM.C11_edges_Q4", "PM.C11_edges_W6", "PM.C11_arrays_TET4", "PM.C11_arrays_H8", "PM.C11_faces_W6_columns", "PM.C11_faces_W6_none", "PM.C11_TET4_closed", "PM.C11_H8_closed", "PM.C11_H8_to_Q4", "PM.C11_TET4_outward", "PM.C11_H8_outward", "PM.C11_W6_outward_partial", "PM.C11_faces_W6_false", "PM.C11_W6_closed_partial"], "note": "TET4 and H8 proved, also for the arrays of whole meshes (C11_arrays_TET4, C11_arrays_H8, C11_edges_Q4, C11_edges_W6). faces_W6 writes outside its arrays (C11_faces_W6_false); the quadrilateral and triangle tables it meant to use are closed and outward (partial)."},
  {"property": "C12", "status": "partial", "theorems": ["PM.C12_T3_to_T6", "PM.C12_Q4_to_Q8", "PM.C12_Q4_to_Q9", "PM.C12_TET4_to_TET10", "PM.C12_H8_to_H27", "PM.C12_W6_to_W18_partial", "PM.C12_W6_to_W18_false", "PM.C12_L2_to_L3", "PM.C12_H8_to_H27_volume"], "note": "All conversions proved; W6_to_W18 calls faces_W6, which writes outside of its array (C12_W6_to_W18_false), and is proved for the case that this write does no harm."},
  {"property": "C13", "status": "partial", "theorems": ["PM.C13_W6_to_TET4_exact", "PM.C13_Q4_to_T3", "PM.C13_Q4_to_T3_grid", "PM.C13_T6_to_T3", "PM.C13_Q8_to_T3", "PM.C13_Q9_to_Q4", "PM.C13_Q9_trimap", "PM.C13_H8_to_TET4", "PM.C13_H27_to_TET10", "PM.C13_H27_to_H8", "PM.C13_W18_to_W6", "PM.C13_W6_to_TET4_partial", "PM.C13_W6_to_TET4_false"], "note": "All conversions proved except W6_to_TET4, disproved by C13_W6_to_TET4_false. What happens in the remaining cases: C13_W6_to_TET4_exact."},
  {"property": "C14", "status": "partial", "theorems": ["PM.C14_orientation_2d", "PM.C14_orientation_3d", "PM.C14_W6_to_TET4_false", "PM.C14_Q9_to_T6_false", "PM.C14_triobj_false", "PM.C14_H8_convex", "PM.C14_H27_convex", "PM.C14_H8_nonconvex_false", "PM.C14_tiles_T6_to_T3", "PM.C14_tiles_Q4_to_T3", "PM.C14_tiles_Q4_to_T3_grid", "PM.C14_tiles_Q8_to_T3", "PM.C14_tiles_Q9_trimap", "PM.C14_tiles_Q9_to_T6_partial", "PM.C14_tiles_H8_to_TET4", "PM.C14_tiles_H27_to_TET10", "PM.C14_tiles_Q9_to_Q4", "PM.C14_tiles_Q9_to_Q4_grid", "PM.C14_tiles_H27_to_H8", "PM.C14_tiles_W18_to_W6", "PM.C14_triobj_partial", "PM.C14_triobj_exact", "PM.C14_Q4_to_T3_convex", "PM.C14_Q4_to_T3_nonconvex_false"], "note": "All conversions proved except W6_to_TET4, Q9_to_T6 (node order) and TriMesh.to_triobj, disproved by witnesses; H8_to_TET4 for all convex hexahedra with plane faces (also the corners of H27_to_TET10), Q4 for all convex cells, wedges for affine images of the master cell. What happens in the remaining cases: C14_triobj_exact."},
  {"property": "C15", "status": "partial", "theorems": ["PM.C15_trimesh_axes", "PM.C15_trimesh_base_axes_partial", "PM.C15_trimesh_upright_false", "PM.C15_diagonals_exact", "PM.C15_tiles_prism", "PM.C15_extrude_W6", "PM.C15_extrude_TET4", "PM.C15_prism_filled", "PM.C15_diagonals_false", "PM.C15_diagonals_partial", "PM.C15_trimesh_base_false", "PM.C15_trimesh_base_partial"], "note": "Numbering, volumes and filling proved. Agreement of lateral diagonals disproved by C15_diagonals_false (proved when triangles list the ends of common edges in the same order); TriMesh.extrude along any axis: C15_trimesh_axes; it drops the position of the plane (C15_trimesh_base_false) and flattens surfaces that are not perpendicular to the new axis (C15_trimesh_upright_false). What happens in the remaining cases: C15_diagonals_exact."},
  {"property": "C16", "status": "partial", "theorems": ["PM.C16_grid_3d", "PM.C16_grid_2d", "PM.C16_grid_1d", "PM.C16_sequential_3d", "PM.C16_sequential_2d", "PM.C16_grid_call_2d", "PM.C16_grid_call_3d", "PM.C16_default_eshape_false", "PM.C16_one_dimension_false"], "note": "Proved for the 1d, 2d and 3d generators and for grid() in 2d and 3d with a tuple eshape. grid() always raises for the default eshape without bins (C16_default_eshape_false) and in one dimension (C16_one_dimension_false)."},
  {"property": "C17", "status": "proved", "theorems": ["PM.C17_position_3d", "PM.C17_position_2d", "PM.C17_points_distinct_3d", "PM.C17_points_distinct_2d", "PM.C17_tiles_3d", "PM.C17_tiles_2d", "PM.C17_centralize_2d", "PM.C17_centralize_3d"], "note": "Positions, distinct points, tiling of the box, and centralisation."},
  {"property": "C18", "status": "proved", "theorems": ["PM.C18_start"], "note": "For all arguments of grid, including failing calls."},
  {"property": "C19", "status": "proved", "theorems": ["PM.C19_gridQ4", "PM.C19_gridQ9", "PM.C19_gridH8", "PM.C19_gridH27", "PM.C19_grid_by_name", "PM.C19_path_ignored"], "note": "The argument path is silently ignored when the element shape is given by name: C19_path_ignored."},
  {"property": "C20", "status": "proved", "theorems": ["PM.C20_cells_coords_schedule", "PM.C20_explode_schedule", "PM.C20_extrude_schedule", "PM.C20_grid_schedule_3d", "PM.C20_grid_schedule_2d", "PM.C20_bins_schedule_2d", "PM.C20_bins_schedule_3d", "PM.C20_transform_schedule"], "note": "Every parallel loop of the transformation, extrusion, grid, incidence, coordinate and explosion functions; additions of parallel loops: C25_order."},
  {"property": "C21", "status": "proved", "theorems": ["PM.C21_bins_2d", "PM.C21_bins_3d", "PM.C21_bins_box", "PM.C21_points_distinct_2d", "PM.C21_points_distinct_3d", "PM.C21_tiles_2d", "PM.C21_tiles_3d", "PM.C21_gridQ4_bins", "PM.C21_gridQ9_bins", "PM.C21_gridH8_bins", "PM.C21_gridH27_bins"], "note": "Over a field; integer bins in grid_3d_bins (truncating dtype): C114."},
  {"property": "C22", "status": "proved", "theorems": ["PM.C22_refine", "PM.C22_three_nodes_false"], "note": "Proved for two-noded lines, all refinements. For three-noded lines the function raises on every non-empty mesh (C22_three_nodes_false)."},
  {"property": "C23", "status": "proved", "theorems": ["PM.C23_explode", "PM.C23_explode_data", "PM.C23_explode_cell_scalars", "PM.C23_decompose", "PM.C23_decompose_call", "PM.C23_decompose_all"], "note": "All topologies and coordinates in range; failing calls are none."},
  {"property": "C24", "status": "proved", "theorems": ["PM.C24_partition", "PM.C24_repeated_node_false", "PM.C24_csr"], "note": "Proved for topologies whose cells do not repeat a node; with a repeated node the factors do not sum to one (C24_repeated_node_false)."},
  {"property": "C25", "status": "partial", "theorems": ["PM.C25_order", "PM.C25_pull", "PM.C25_pull_default_partial", "PM.C25_constant", "PM.C25_bounds", "PM.C25_totals", "PM.C25_distribute", "PM.C25_round_trip_partial", "PM.C25_same_factors_false", "PM.C25_ids_false", "PM.C25_same_factors_exact"], "note": "Totals, constants and bounds proved for factors that are a partition of one; round trip proved for pulling to cells (factors one) and back. With the same factors both ways the identity is disproved (C25_same_factors_false), and with ids that are not positions in the walk pull is wrong (C25_ids_false). What happens in the remaining cases: C25_same_factors_exact."},
  {"property": "C26", "status": "partial", "theorems": ["PM.C26_center", "PM.C26_avg_partial", "PM.C26_avg_1d_false", "PM.C26_centralize_partial", "PM.C26_one_column_false", "PM.C26_centralize_cells"], "note": "Means and centring proved. avg_cell_data returns an unbound variable for one-dimensional data (C26_avg_1d_false), centralize raises for one column (C26_one_column_false)."},
  {"property": "C27", "status": "proved", "theorems": ["PM.C27_translation", "PM.C27_alternating", "PM.C27_split", "PM.C27_affine", "PM.C27_turn", "PM.C27_variants", "PM.C27_collinear"], "note": "all area functions agree; translation, alternation, splitting, affine maps, collinear corners"},
  {"property": "C28", "status": "partial", "theorems": ["PM.C28_both_exact", "PM.C28_unique", "PM.C28_nat_to_glob", "PM.C28_local", "PM.C28_glob_to_loc_false", "PM.C28_glob_to_nat_partial", "PM.C28_clockwise_false", "PM.C28_exact", "PM.C28_glob_to_loc_exact"], "note": "counter-clockwise triangles; false for clockwise ones (glob_to_nat_tri divides by the absolute area) and glob_to_loc_tri lacks a transposition. What happens in the remaining cases: C28_both_exact, C28_exact, C28_glob_to_loc_exact."},
  {"property": "C29", "status": "partial", "theorems": ["PM.C29_pip_both_exact", "PM.C29_pip_partial", "PM.C29_boundary_false", "PM.C29_clockwise_false", "PM.C29_localize_partial", "PM.C29_inside_partial", "PM.C29_localize_false", "PM.C29_exact", "PM.C29_localize_exact", "PM.C29_inside_exact"], "note": "inclusive test holds for positive tolerance on counter-clockwise triangles; false on the boundary with tol = 0 and for clockwise triangles. What happens in the remaining cases: C29_pip_both_exact, C29_exact, C29_localize_exact, C29_inside_exact."},
  {"property": "C30", "status": "partial", "theorems": ["PM.C30_det", "PM.C30_translation", "PM.C30_alternating", "PM.C30_split", "PM.C30_affine", "PM.C30_unique", "PM.C30_glob_to_nat", "PM.C30_nat_to_glob", "PM.C30_nat_to_loc", "PM.C30_bulk", "PM.C30_pip_partial", "PM.C30_exact", "PM.C30_boundary_false", "PM.C30_tables"], "note": "everything but the closed test with tol = 0, which excludes faces. What happens in the remaining cases: C30_exact."},
  {"property": "C31", "status": "partial", "theorems": ["PM.C31_surfaces", "PM.C31_local_coords", "PM.C31_tri_glob_to_loc_false", "PM.C31_plane_partial", "PM.C31_parallelogram_false", "PM.C31_lines_auto", "PM.C31_lines_ref", "PM.C31_auto_z_false", "PM.C31_plane_exact", "PM.C31_surfaces_exact"], "note": "frames_of_surfaces, frames_of_lines, tr_cell_glob_to_loc_bulk proved; tri_glob_to_loc and frame_of_plane fail as shown. What happens in the remaining cases: C31_plane_exact, C31_surfaces_exact."},
  {"property": "C32", "status": "proved", "theorems": ["PM.C32_closest", "PM.C32_furthest", "PM.C32_furthest_many", "PM.C32_closest_many"], "note": "single targets by argmin/argmax over distances; lists of targets relative to the contract of the external KD-tree"},
  {"property": "C33", "status": "proved", "theorems": ["PM.C33_sign", "PM.C33_triangle", "PM.C33_invariant", "PM.C33_reverse", "PM.C33_convex", "PM.C33_degenerate_false"], "note": "sign of the signed area; points on a line are reported clockwise and counter-clockwise at the same time (C33_degenerate_false)"},
  {"property": "C34", "status": "proved", "theorems": ["PM.C34_L2", "PM.C34_T3", "PM.C34_T6", "PM.C34_Q4", "PM.C34_Q9", "PM.C34_TET4", "PM.C34_H8", "PM.C34_H27"], "note": "Hand-written shape functions of L2, T3, T6, Q4, Q9, TET4, H8, H27 over any field of characteristic zero: one at the own node and zero at the others, sum to one, reproduce every linear function."},
  {"property": "C35", "status": "proved", "theorems": ["PM.C35_L2", "PM.C35_T3", "PM.C35_T6", "PM.C35_Q4", "PM.C35_Q9", "PM.C35_TET4", "PM.C35_H8", "PM.C35_H27"], "note": "The coded derivatives are the partial derivatives (HasDerivAt over the reals) of the coded shape functions, all eight element types."},
  {"property": "C36", "status": "proved", "theorems": ["PM.C36_kronecker", "PM.C36_reproduces", "PM.C36_derivatives", "PM.C36_L2", "PM.C36_L3", "PM.C36_T3", "PM.C36_T6", "PM.C36_Q4", "PM.C36_Q9", "PM.C36_TET10", "PM.C36_H8", "PM.C36_H27", "PM.C36_W6", "PM.C36_W18", "PM.C36_TET4_false", "PM.C36_agrees_L2", "PM.C36_agrees_T3", "PM.C36_agrees_T6", "PM.C36_agrees_Q4", "PM.C36_agrees_Q9", "PM.C36_agrees_H8", "PM.C36_agrees_H27"], "note": "For every implementation of inv meeting the stated contract the generated functions interpolate, reproduce every polynomial of the base, and the generated derivatives are the partial derivatives; generation succeeds for all cells but TET4, whose base has ten monomials for four nodes (C36_TET4_false). Agreement with the hand-written functions is proved."},
  {"property": "C37", "status": "partial", "theorems": ["PM.C37_Tri_1", "PM.C37_Tri_3a", "PM.C37_Tri_3b", "PM.C37_Tet_1", "PM.C37_Tet_4", "PM.C37_Tet_5", "PM.C37_Tet_11_false", "PM.C37_Tet_11_error_false", "PM.C37_Wedge_3x3", "PM.C37_Wedge_3x2_false", "PM.C37_Wedge_3x2_partial", "PM.C37_Hex", "PM.C37_Wedge_3x2_exact"], "note": "Exactness and points inside proved for Tri_1, Tri_3a, Tri_3b, Tet_1, Tet_4, Tet_5, Wedge_3x3 and products on hexahedra, given the contract of the interval rules (LineExact). False for Tet_11 (wrong constant) and Wedge_3x2 (both layers at one height): witnesses given. What happens in the remaining cases: C37_Wedge_3x2_exact."},
  {"property": "C38", "status": "partial", "theorems": ["PM.C38_T6_exact", "PM.C38_W6_exact", "PM.C38_affine", "PM.C38_translate", "PM.C38_translate_area", "PM.C38_TET4", "PM.C38_TET10", "PM.C38_W6_partial", "PM.C38_T6", "PM.C38_T6_space_false", "PM.C38_H8", "PM.C38_W6_false", "PM.C38_W18", "PM.C38_H27"], "note": "Proved: translation invariance for every cell; affine cells of every type; T6 with nodes anywhere on straight sides; H8 with arbitrary nodes (bilinear faces) and H27, W18 with straight sides, given the contract of the interval rule; TET4, TET10. False for tapered W6 cells (C38_W6_false, the two layers of the rule coincide) and for T6 cells in space (C38_T6_space_false). What happens in the remaining cases: C38_T6_exact, C38_W6_exact."},
  {"property": "C39", "status": "partial", "theorems": ["PM.C39_partial", "PM.C39_false", "PM.C39_exact"], "note": "Proved for every history in which no request for several (or no) ids asks for less than are queued. False otherwise: `next` is lowered (C39_false). What happens in the remaining cases: C39_exact."},
  {"property": "C40", "status": "partial", "theorems": ["PM.C40_partial", "PM.C40_queue_false", "PM.C40_graft_false", "PM.C40_add_exact", "PM.C40_graft_blocks", "PM.C40_graft_exact"], "note": "Proved for blocks added one by one and deleted, with the condition of C39. False otherwise (C40_queue_false) and for meshes with nested blocks built before they are added (C40_graft_false). What happens in the remaining cases: C40_add_exact, C40_graft_exact."},
  {"property": "C41", "status": "partial", "theorems": ["PM.C41_general", "PM.C41_partial", "PM.C41_frame_false", "PM.C41_single_false", "PM.C41_same_partial"], "note": "Proved for every mesh tree whose frames are the ambient frame and whose point blocks have several points; the general theorem states what happens otherwise: blocks with their own frame are turned a second time (C41_frame_false), a block of one point raises (C41_single_false)."},
  {"property": "C42", "status": "partial", "theorems": ["PM.C42_exact", "PM.C42_rewire", "PM.C42_partial", "PM.C42_false", "PM.C42_same_partial"], "note": "Proved for meshes without cell blocks beneath cell blocks; nested cell blocks are renumbered twice (C42_false). C42_exact says for every tree how often each block is renumbered and when the call raises."},
  {"property": "C43", "status": "partial", "theorems": ["PM.C43_block_exact", "PM.C43_block_partial", "PM.C43_partial", "PM.C43_move_partial", "PM.C43_block_false", "PM.C43_nested_false", "PM.C43_spin", "PM.C43_centralize", "PM.C43_axes_false"], "note": "Proved for blocks owning their points with no nested points and for blocks without points that use all points of their source (C43_block_partial); false for other blocks without own points (C43_block_false, what happens is said in C43_block_exact), for nested point blocks (C43_nested_false), and centralize ignores axes (C43_axes_false)."},
  {"property": "C44", "status": "partial", "theorems": ["PM.C44_slice_exact", "PM.C44_mask_exact", "PM.C44_partial", "PM.C44_integers", "PM.C44_negative_false", "PM.C44_long_false", "PM.C44_long_recorded_false", "PM.C44_reverse_false", "PM.C44_mask_false", "PM.C44_slices", "PM.C44_steps", "PM.C44_sort"], "note": "Proved for every chain of keys with non-negative bounds within the cloud and positive steps, and for chains of lists of integers of either sign (C44_integers); the points of all slices (C44_slices); the recorded indices are false for negative or overlong bounds, reversed slices and masks on an original cloud (witnesses given). What happens in the remaining cases: C44_slice_exact, C44_mask_exact."},
  {"property": "C45", "status": "proved", "theorems": ["PM.C45_same_point", "PM.C45_own", "PM.C45_back", "PM.C45_distance", "PM.C45_set_frame", "PM.C45_compose"], "note": "All orthonormal frames over any field, given the contract that a vector in a frame is the combination of its axes (neumann)."},
  {"property": "C46", "status": "proved", "theorems": ["PM.C46_rows", "PM.C46_widths", "PM.C46_vstack", "PM.C46_assoc", "PM.C46_vstack_build"], "note": "All lists of topologies; the stacked array, its widths and the cells, associativity of vstack. JaggedArray is a contract."},
  {"property": "C47", "status": "partial", "theorems": ["PM.C47_single_false", "PM.C47_lazy_eq", "PM.C47_found_exact", "PM.C47_lazy_exact", "PM.C47_lazy_few", "PM.C47_sound", "PM.C47_inside", "PM.C47_affine", "PM.C47_complete", "PM.C47_total", "PM.C47_lazy_false"], "note": "Soundness for every candidate list and every order of the parallel loops, agreement of local and global coordinates, completeness and totality with lazy=False and a positive tolerance. The default search among the four nearest centres misses points (C47_lazy_false). What happens in the remaining cases: C47_found_exact, C47_lazy_exact."},
  {"property": "C48", "status": "partial", "theorems": ["PM.C48_partial", "PM.C48_unique", "PM.C48_knn", "PM.C48_1d", "PM.C48_first_false", "PM.C48_order_false", "PM.C48_none_false", "PM.C48_exact"], "note": "Every order of writes reports a hit if there is one; the last hit is reported instead of the first (C48_first_false), the answer depends on the order (C48_order_false), no mark for points without hits (C48_none_false). What happens in the remaining cases: C48_exact."},
  {"property": "C49", "status": "proved", "theorems": ["PM.C49_roundtrip", "PM.C49_hash", "PM.C49_upper", "PM.C49_injective", "PM.C49_back"], "note": "All colours with components 0..255, with and without the leading character."},
  {"property": "C50", "status": "partial", "theorems": ["PM.C50_subdivide", "PM.C50_plate", "PM.C50_int_false", "PM.C50_fewest", "PM.C50_int_exact"], "note": "Proved for real maximum lengths; an integer maximum length is ignored (C50_int_false). What happens in the remaining cases: C50_int_exact."},
  {"property": "C51", "status": "partial", "theorems": ["PM.C51_serial", "PM.C51_partial", "PM.C51_formats", "PM.C51_zero_false", "PM.C51_self_false", "PM.C51_truncated_false", "PM.C51_exact"], "note": "Exactness proved for the membership of the rows of every format: the numbers listed are the points within the radius, if at most n_max of them exist. The rows are padded with the number 0 (C51_zero_false), contain the point itself (C51_self_false) and are cut at n_max (C51_truncated_false). What happens in the remaining cases: C51_exact."},
  {"property": "C52", "status": "proved", "theorems": ["PM.C52_found", "PM.C52_unknown"], "note": "Every id in the tree is answered with a block containing it, the only one if ids are unique; other ids are refused. The stored mappers are assumed to be up to date."},
  {"property": "C53", "status": "partial", "theorems": ["PM.C53_partial", "PM.C53_all", "PM.C53_ids_false", "PM.C53_range_false", "PM.C53_three_points_false", "PM.C53_exact", "PM.C53_points_exact", "PM.C53_three_points_exact"], "note": "Proved when ids are row numbers and for no selection; false for blocks with other ids (C53_ids_false, C53_range_false) and for three evaluation points (C53_three_points_false). What happens in the remaining cases: C53_exact, C53_points_exact, C53_three_points_exact."},
  {"property": "C54", "status": "partial", "theorems": ["PM.C54_pcoords", "PM.C54_actual", "PM.C54_partial", "PM.C54_nodes", "PM.C54_false", "PM.C54_square_false", "PM.C54_exact"], "note": "Proved for as many points as nodes with a symmetric table of values, in particular the master nodes; otherwise it raises or gives wrong points (C54_false, C54_square_false, C54_actual). pcoords_to_coords is correct (C54_pcoords). What happens in the remaining cases: C54_exact."},
  {"property": "C55", "status": "partial", "theorems": ["PM.C55_exact", "PM.C55_twice", "PM.C55_nodes", "PM.C55_plane", "PM.C55_line", "PM.C55_tet_kept", "PM.C55_hex_kept", "PM.C55_solid_false", "PM.C55_T6_false"], "note": "Twice gives the cell, nodes kept, orientation reversed for lines, T3 and Q4; false for solid cells and for T6 (C55_solid_false, C55_T6_false, C55_tet_kept, C55_hex_kept). What happens in the remaining cases: C55_exact."},
  {"property": "C56", "status": "partial", "theorems": ["PM.C56_cells", "PM.C56_partial", "PM.C56_corner_false", "PM.C56_order_false", "PM.C56_exact"], "note": "Cells keep their geometry for every tile and tile count (C56_cells). Each point occurs once for one row or column of tiles, or if no point is at the upper left corner (C56_partial); otherwise the corner common to four tiles is repeated (C56_corner_false). The order of cells with nodes numbered around is lost (C56_order_false). What happens in the remaining cases: C56_exact."},
  {"property": "C57", "status": "proved", "theorems": ["PM.C57_closed", "PM.C57_inward", "PM.C57_flip", "PM.C57_flip_tri", "PM.C57_parts", "PM.C57_nodes", "PM.C57_labels_false"], "note": "All sequences of records, all parts. The labels of the nodes in the file are ignored: a file whose labels are not 1..n in order is read wrongly (C57_labels_false)."},
  {"property": "C58", "status": "proved", "theorems": ["PM.C58_points", "PM.C58_ends", "PM.C58_range_false", "PM.C58_lengths", "PM.C58_distances", "PM.C58_agree"], "note": "All lines and parameters; the documented parameter range [-1, 1] is wrong (C58_range_false)."},
  {"property": "C59", "status": "partial", "theorems": ["PM.C59_detached", "PM.C59_block", "PM.C59_blocks", "PM.C59_blocks_partial", "PM.C59_blocks_false", "PM.C59_duplicates_false", "PM.C59_blocks_exact"], "note": "One block with distinct points: exactly the faces of one cell only (given the contract of the external surface extraction and KD-tree). Several blocks: exactly the skin if blocks have no common face; otherwise interfaces of blocks are in the result (C59_blocks_false, C59_blocks says what is in it). Coincident points break it (C59_duplicates_false). What happens in the remaining cases: C59_blocks_exact."},
  {"property": "C60", "status": "partial", "theorems": ["PM.C60_T6_T3", "PM.C60_Q9_Q4", "PM.C60_Q9_Q4_grid", "PM.C60_Q4_T3", "PM.C60_Q8_T3", "PM.C60_H27_H8", "PM.C60_W18_W6", "PM.C60_facets_cover", "PM.C60_inside", "PM.C60_H8_TET4_partial", "PM.C60_H27_TET10_partial", "PM.C60_W6_TET4_partial", "PM.C60_H8_TET4_false", "PM.C60_H27_TET10_false", "PM.C60_W6_TET4_false", "PM.C60_H8_TET4_exact", "PM.C60_H27_TET10_exact", "PM.C60_W6_TET4_exact", "PM.C60_W6_TET4_both"], "note": "Proved for T6 to T3, Q9 to Q4 (both node orders), Q8 and Q4 to T3, H27 to H8, W18 to W6, every pair of faces and every relative position, on the faces and inside of the cells. H8 to TET4 and H27 to TET10 only where the diagonals agree (never in grids: C60_H8_TET4_false, C60_H27_TET10_false), W6 to TET4 only at triangles (C60_W6_TET4_false). Extrusion of triangles: see C15. What happens in the remaining cases: C60_H8_TET4_exact, C60_H27_TET10_exact, C60_W6_TET4_exact."},
  {"property": "C61", "status": "partial", "theorems": ["PM.C61_move_in_frame", "PM.C61_move_own", "PM.C61_move_default_false", "PM.C61_centralize", "PM.C61_centralize_default_false", "PM.C61_frame_move", "PM.C61_origo_false", "PM.C61_rows", "PM.C61_rows_refused", "PM.C61_array", "PM.C61_vector_partial", "PM.C61_vector_own", "PM.C61_vector_false", "PM.C61_rigid", "PM.C61_centralize_axes", "PM.C61_centralize_all", "PM.C61_axes_refused", "PM.C61_axes_false", "PM.C61_move_default_exact", "PM.C61_centralize_default_exact"], "note": "Proved when a frame is given; without one the own frame of the cloud is used instead of the root frame (C61_move_default_false, C61_centralize_default_false) and the origin setter always raises (C61_origo_false). A vector with its own frame is taken in the frame of the cloud (C61_vector_false; exact condition in C61_vector_partial); axes given as a tuple of two numbers are refused (C61_axes_false; all other arguments: C61_centralize_axes, C61_axes_refused). What happens in the remaining cases: C61_move_default_exact, C61_centralize_default_exact."},
  {"property": "C62", "status": "partial", "theorems": ["PM.C62_partial", "PM.C62_floating_false", "PM.C62_wide_false", "PM.C62_wide", "PM.C62_wide_exact", "PM.C62_apart", "PM.C62_apart_exact", "PM.C62_tets_partial", "PM.C62_order"], "note": "Proved for ribs that touch the plate and are not wider than it, both orders, hexahedra (C62_partial) and tetrahedra (C62_tets_partial); other orders are errors (C62_order). Ribs apart from the plate are lost (C62_floating_false), ribs wider than the plate widen it (C62_wide_false). What happens in the remaining cases: C62_wide_exact, C62_apart_exact."},
  {"property": "C63", "status": "proved", "theorems": ["PM.C63_inscribed", "PM.C63_area", "PM.C63_bulk"], "note": ""},
  {"property": "C64", "status": "partial", "theorems": ["PM.C64_partial", "PM.C64_shrunk", "PM.C64_float_false"], "note": "holds for factors given as an array; a single number raises"},
  {"property": "C65", "status": "partial", "theorems": ["PM.C65_exact", "PM.C65_any_value", "PM.C65_partial", "PM.C65_row_false", "PM.C65_bounds_false", "PM.C65_race_false"], "note": "holds if every point is found in the triangle with its own number; false otherwise. What happens in the remaining cases: C65_exact."},
  {"property": "C66", "status": "partial", "theorems": ["PM.C66_planar_exact", "PM.C66_surface", "PM.C66_surface_exact", "PM.C66_mesh", "PM.C66_parallel_false", "PM.C66_closed_false", "PM.C66_line_false", "PM.C66_planar_false", "PM.C66_planar_partial", "PM.C66_planar_collinear_false"], "note": "proved for normals and for connected meshes of triangles; is_line and is_planar are false in general. Exactly which clouds is_planar accepts: C66_planar_exact (all points in a plane through the origin and three chosen points not on a line); is_line: C66_closed_false, C66_line_false cover all clouds of tolerance below one. What happens in the remaining cases: C66_surface_exact."},
  {"property": "C67", "status": "partial", "theorems": ["PM.C67_line_exact", "PM.C67_L3_tangent", "PM.C67_matrix", "PM.C67_solid", "PM.C67_surface_cells", "PM.C67_line", "PM.C67_L2", "PM.C67_line_false", "PM.C67_target_values_false", "PM.C67_target_false", "PM.C67_affine", "PM.C67_det_line", "PM.C67_line_det"], "note": "Proved for all solid cells (any frames), all surface cells, and lines with evenly spaced nodes; affine solids have a constant determinant. False for three-noded lines with the middle node off centre (C67_line_false) and for coordinates relative to a target frame (C67_target_false). What happens in the remaining cases: C67_line_exact."},
  {"property": "C72", "status": "partial", "theorems": ["PM.C72_tri_loc_exact", "PM.C72_H8_exact", "PM.C72_matrix", "PM.C72_nodes", "PM.C72_linear", "PM.C72_H8_false", "PM.C72_tri_loc_false"], "note": "Proved for every table of shape functions and every number of components, with interpolation and linear reproduction; the H8 version raises unless there are three components (C72_H8_false), the local version of triangles is wrong unless there are three (C72_tri_loc_false). What happens in the remaining cases: C72_tri_loc_exact, C72_H8_exact."},
  {"property": "C68", "status": "partial", "theorems": ["PM.C68_count_partial", "PM.C68_lines", "PM.C68_nearest", "PM.C68_errors", "PM.C68_max_distance_ignored", "PM.C68_max_distance_false", "PM.C68_k_false"], "note": "Proved for 2 \u2264 k \u2264 number of points, for every answer of the tree that meets the contract (ties included): C68_lines, C68_nearest. False: max_distance is ignored (C68_max_distance_false), a point gets k - 1 neighbours of its own because it counts itself (C68_k_false), k = 1, k above the number of points and the backend sklearn raise (C68_errors)."},
  {"property": "C69", "status": "partial", "theorems": ["PM.C69_both_exact", "PM.C69_both_complete", "PM.C69_found_exact", "PM.C69_sound", "PM.C69_default", "PM.C69_cells", "PM.C69_complete", "PM.C69_total", "PM.C69_single_false", "PM.C69_trimap_false", "PM.C69_clockwise_false", "PM.C69_lazy_false", "PM.C69_trimap_total", "PM.C69_trimap_fails"], "note": "Proved for counter-clockwise triangles with the default map, every candidate list and every order of the loop (C69_sound, C69_total); complete with lazy=False (C69_complete); with other maps the reported cell owns the triangle (C69_cells), and when the search answers or fails is C69_trimap_total, C69_trimap_fails. False: single triangles with the lazy search raise, maps of larger cells raise, clockwise triangles are empty, the lazy search misses points (C69_*_false). What happens in the remaining cases: C69_both_exact, C69_found_exact."},
  {"property": "C73", "status": "partial", "theorems": ["PM.C73_plane_exact", "PM.C73_found_exact", "PM.C73_plane", "PM.C73_solid", "PM.C73_clockwise_false", "PM.C73_boundary_false", "PM.C73_lazy_false"], "note": "Proved for counter-clockwise plane cells and for solid cells with lazy=False (C73_plane, C73_solid). False for clockwise cells, for sides with tolerance 0, for the lazy search (C73_*_false). What happens in the remaining cases: C73_plane_exact, C73_found_exact."},
  {"property": "C70", "status": "partial", "theorems": ["PM.C70_voxels", "PM.C70_int", "PM.C70_float_false", "PM.C70_fit", "PM.C70_cylinder", "PM.C70_edge_false"], "note": "Proved for two radii or an integer radius: C70_voxels, C70_fit, C70_int, C70_cylinder. False: a float radius raises (C70_float_false), edges differ from the documented length (C70_edge_false)."},
  {"property": "C71", "status": "partial", "theorems": ["PM.C71_triangle_exact", "PM.C71_exact", "PM.C71_areas", "PM.C71_flat", "PM.C71_at_most", "PM.C71_outline", "PM.C71_swept", "PM.C71_maps", "PM.C71_T3_agree", "PM.C71_surfaces", "PM.C71_order", "PM.C71_like_topology", "PM.C71_frames", "PM.C71_volumes", "PM.C71_lines", "PM.C71_default_false", "PM.C71_clockwise_false", "PM.C71_empty_false", "PM.C71_area_sum", "PM.C71_area_flat"], "note": "Proved: areas as seen along the normal of the stored frames (C71_areas), equal to the area within the sides (C71_outline), to the true area for flat counterclockwise cells (C71_flat) and for triangles with the frames of frames_of_surfaces (C71_surfaces), volumes, order. False with the default frames of a mesh (C71_default_false) and for clockwise cells (C71_clockwise_false). What happens in the remaining cases: C71_triangle_exact, C71_exact."},
  {"property": "C74", "status": "partial", "theorems": ["PM.C74_curve", "PM.C74_speed", "PM.C74_params", "PM.C74_slope_false", "PM.C74_slope_partial", "PM.C74_missing"], "note": "Proved: the curve, its rise and rates, given numbers, pitch, slope with b or pitch. False for a slope given with a (C74_slope_false); C74_slope_partial says when it is met."},
  {"property": "C75", "status": "partial", "theorems": ["PM.C75_made_exact", "PM.C75_pair_exact", "PM.C75_sides_lists", "PM.C75_grid", "PM.C75_distinct", "PM.C75_random", "PM.C75_lines", "PM.C75_subdivision_false", "PM.C75_default_false", "PM.C75_int_false", "PM.C75_height_false"], "note": "Proved: points of the lattice and random points, lines. False: subdivisions, default shape, integers without random, height of the origin. The triangulation itself is a library call. What happens in the remaining cases: C75_made_exact, C75_pair_exact."},
  {"property": "C76", "status": "partial", "theorems": ["PM.C76_distinct_exact", "PM.C76_masked", "PM.C76_hole", "PM.C76_points", "PM.C76_between", "PM.C76_distinct", "PM.C76_centre_false", "PM.C76_cylinder", "PM.C76_order_false", "PM.C76_dropped_false"], "note": "Proved for every triangulation: points, mask, hole, points used, cells and volumes. False: documented order of size (C76_order_false), inner radius zero (C76_centre_false), only triangles of the hole are dropped (C76_dropped_false). What happens in the remaining cases: C76_distinct_exact."},
  {"property": "C77", "status": "partial", "theorems": ["PM.C77_numbers", "PM.C77_second_order", "PM.C77_prisms_false", "PM.C77_grid", "PM.C77_circle", "PM.C77_points", "PM.C77_corners", "PM.C77_hole", "PM.C77_cells", "PM.C77_empty_false", "PM.C77_layers_false", "PM.C77_lmax_false", "PM.C77_lmax_partial"], "note": "Proved for every triangulation: points, corners, hole, cells and volumes, distances below 5/4 lmax; second order with tetrahedra (C77_second_order), other orders refused. False: there always are cells (C77_empty_false, C77_layers_false), distances at most lmax (C77_lmax_false), second order with prisms (C77_prisms_false)."},
  {"property": "C78", "status": "partial", "theorems": ["PM.C78_path", "PM.C78_lines_T3", "PM.C78_lines_TET4", "PM.C78_lines_H8", "PM.C78_arguments", "PM.C78_pairs", "PM.C78_path_false"], "note": "Proved: edges of triangles, tetrahedra and hexahedra, each once; paths. False: a path of the right shape need not list the edges (C78_path_false)."},
  {"property": "C79", "status": "partial", "theorems": ["PM.C79_aligned", "PM.C79_centers_partial", "PM.C79_factors", "PM.C79_closest_partial", "PM.C79_closest_false", "PM.C79_centers_false", "PM.C79_areas_partial", "PM.C79_areas_false", "PM.C79_shown_partial", "PM.C79_shown_each", "PM.C79_shown_false", "PM.C79_empty", "PM.C79_areas_exact", "PM.C79_shown_exact", "PM.C79_shown_count", "PM.C79_centers_exact"], "note": "Proved: alignment of all quantities, factors, closest and furthest cells and centres when no nested block has points of its own, pieces when cells are not nested. False otherwise: C79_closest_false, C79_centers_false, C79_areas_false, C79_shown_false. What happens in the remaining cases: C79_areas_exact, C79_shown_exact, C79_centers_exact."},
  {"property": "C80", "status": "partial", "theorems": ["PM.C80_cells", "PM.C80_geometry_partial", "PM.C80_original_partial", "PM.C80_coords_partial", "PM.C80_coords_false", "PM.C80_geometry_false", "PM.C80_ids_false", "PM.C80_original_false", "PM.C80_shared_false", "PM.C80_ids_exact", "PM.C80_original_exact"], "note": "Proved: all cells and their data are kept, geometry if no block beneath has points of its own, the original unchanged if its points are numbered from 0, coordinates for the blocks beneath. False: sharing, ids, geometry of nested points, ids of the original, coordinates of the cells of the block itself. What happens in the remaining cases: C80_ids_exact, C80_original_exact."},
  {"property": "C81", "status": "partial", "theorems": ["PM.C81_copy_partial", "PM.C81_independent", "PM.C81_block", "PM.C81_copy_block_partial", "PM.C81_shallow_false", "PM.C81_rewired_false", "PM.C81_ids", "PM.C81_ids_false", "PM.C81_above_false", "PM.C81_mesh_false", "PM.C81_frame_partial", "PM.C81_frame_false"], "note": "Proved: shape, data, freshness, references to the closest points (deep copies; shallow ones beneath the root), independence, if nested blocks with points and cells number their points from 0. False: C81_shallow_false, C81_rewired_false, C81_ids_false, C81_above_false, C81_frame_false, C81_mesh_false (cells referring to a mesh: the shallow copy never ends)."},
  {"property": "C82", "status": "partial", "theorems": ["PM.C82_exact", "PM.C82_cells_partial", "PM.C82_all", "PM.C82_nodes", "PM.C82_none", "PM.C82_range", "PM.C82_L2", "PM.C82_L3_partial", "PM.C82_default", "PM.C82_ids_false", "PM.C82_L3_false"], "note": "Proved: all choices of cells when ids are row numbers, all cells for any ids, ranges, defaults, layout; agreement with the shape functions of straight lines. False: ids of later blocks (C82_ids_false), curved lines (C82_L3_false). What happens in the remaining cases: C82_exact."},
  {"property": "C83", "status": "partial", "theorems": ["PM.C83_frame", "PM.C83_pointdata", "PM.C83_pointdata_partial", "PM.C83_no_frame", "PM.C83_store_partial", "PM.C83_points", "PM.C83_points_partial", "PM.C83_show", "PM.C83_mesh_partial", "PM.C83_mesh_twice", "PM.C83_from_cells_partial", "PM.C83_origins_false", "PM.C83_mesh_false", "PM.C83_planar_false", "PM.C83_pointdata_false", "PM.C83_points_exact", "PM.C83_mesh_exact"], "note": "Proved: frame lookup, what is stored, exact places of points() for any frames (C83_points), correct places if the origins agree, views in any target, points of cells when the frame is the root's, meshes without a frame. False: differing origins, coordinates given in a frame (transformed twice), planar coordinates without a frame. What happens in the remaining cases: C83_points_exact, C83_mesh_exact."},
  {"property": "C84", "status": "partial", "theorems": ["PM.C84_monoms", "PM.C84_L2", "PM.C84_L3", "PM.C84_T3", "PM.C84_T6", "PM.C84_Q4_partial", "PM.C84_Q9_partial", "PM.C84_TET10", "PM.C84_H8_partial", "PM.C84_H27_partial", "PM.C84_W6_partial", "PM.C84_W18_partial", "PM.C84_nodes", "PM.C84_affine", "PM.C84_turned_false", "PM.C84_trapezoid_false", "PM.C84_TET4_false", "PM.C84_pip", "PM.C84_knn_false", "PM.C84_Q4_exact", "PM.C84_Q4_right_exact"], "note": "Proved: monomials of all classes; local coordinates for all affine lines, triangles and ten-noded tetrahedra, rectangles, boxes and upright prisms (regularity included), for all affine cells whenever the inversion succeeds, nodes of cells of any form; the answers of _pip_H8_bulk_ for boxes. False: turned squares (singular), trapezoids (wrong), TET4 arrays, the neighbour variant. What happens in the remaining cases: C84_Q4_exact, C84_Q4_right_exact."},
  {"property": "C85", "status": "partial", "theorems": ["PM.C85_twice_exact", "PM.C85_count", "PM.C85_count_dict", "PM.C85_cells_at_nodes", "PM.C85_cells_at_nodes_dicts", "PM.C85_twice_false", "PM.C85_adjacency", "PM.C85_csr_adjacency_false", "PM.C85_spdata"], "note": "Proved: counts and incidences of csr topologies (regular and dictionaries), adjacency of jagged topologies in all orders, the csr form of jagged arrays. False: the matrix of the caller is renumbered unless it is regular; no adjacency for csr matrices. What happens in the remaining cases: C85_twice_exact."},
  {"property": "C86", "status": "partial", "theorems": ["PM.C86_subdivided", "PM.C86_corners", "PM.C86_order", "PM.C86_extrude", "PM.C86_centre_false", "PM.C86_centroid_false", "PM.C86_size", "PM.C86_integer_false", "PM.C86_default", "PM.C86_rectangle_false"], "note": "Proved: both meshes of a section, their points, areas, covering; the beam and its volume; sizes for parameters of the right types; default sizes of the documented shapes. False: mean and centroid at the origin (C86_centre_false, C86_centroid_false), integer lengths (C86_integer_false), rectangles (C86_rectangle_false)."},
  {"property": "C87", "status": "partial", "theorems": ["PM.C87_file_exact", "PM.C87_normal", "PM.C87_flip", "PM.C87_file", "PM.C87_degenerate_false", "PM.C87_label_false", "PM.C87_mesh_box", "PM.C87_box", "PM.C87_empty_false", "PM.C87_names", "PM.C87_extension", "PM.C87_isStl", "PM.C87_sets", "PM.C87_sets_false"], "note": "Proved: files for triangles that exist and are not degenerate, normals, boxes of meshes that are not empty, distinct names with the right extension, sets if all records name one. False: degenerate triangles (C87_degenerate_false), label 0 (C87_label_false), empty meshes (C87_empty_false), records without a set (C87_sets_false). What happens in the remaining cases: C87_file_exact."},
  {"property": "C88", "status": "partial", "theorems": ["PM.C88_bounds", "PM.C88_closest_partial", "PM.C88_furthest_partial", "PM.C88_many_partial", "PM.C88_origin_false", "PM.C88_place_false", "PM.C88_inds_false", "PM.C88_closest_exact", "PM.C88_furthest_exact", "PM.C88_many_exact"], "note": "Proved: bounds in all frames; closest and furthest points for targets in frames at the ambient origin and for clouds in any frame; several targets. False: targets in shifted frames (C88_origin_false), place of the returned point (C88_place_false), recorded indices for several targets (C88_inds_false). What happens in the remaining cases: C88_closest_exact, C88_furthest_exact, C88_many_exact."},
  {"property": "C89", "status": "partial", "theorems": ["PM.C89_convex", "PM.C89_convex_volumes", "PM.C89_triangles", "PM.C89_tetrahedra", "PM.C89_nested", "PM.C89_simplices", "PM.C89_lines_false", "PM.C89_quadratic_false", "PM.C89_volumes", "PM.C89_empty_false", "PM.C89_affine", "PM.C89_affine_volumes", "PM.C89_wedge_false"], "note": "Proved: triangles of all polygons, tetrahedra (flat and nested) of TET4, H8, W6, W18, volumes as sums over the tetrahedra and the exact volume for images of the master cell under affine maps and for all convex H8 with plane faces. False: lines (C89_lines_false), TET10 and H27 (C89_quadratic_false), truncated wedges (C89_wedge_false), blocks without cells (C89_empty_false)."},
  {"property": "C90", "status": "partial", "theorems": ["PM.C90_cells_partial", "PM.C90_points_partial", "PM.C90_length_false", "PM.C90_caller_false", "PM.C90_factors", "PM.C90_factors_ids", "PM.C90_factors_false", "PM.C90_dict", "PM.C90_list_partial", "PM.C90_iter_false"], "note": "Proved: all columns and their precedence for arguments of the right length, to_dict, to_list for lists of names, factors with a key. False: arrays of other lengths (C90_length_false), dictionary of the caller (C90_caller_false), factors without key or of the whole mesh (C90_factors_false), tuples and empty lists (C90_iter_false)."},
  {"property": "C91", "status": "partial", "theorems": ["PM.C91_fields_exact", "PM.C91_lists_partial", "PM.C91_unknown", "PM.C91_nothing_false", "PM.C91_fields_partial", "PM.C91_fields_false"], "note": "Proved: records of all blocks in order; fields of the blocks beneath with equal numbers of columns. False: own fields and different numbers (C91_fields_false), meshes without points or cells (C91_nothing_false). What happens in the remaining cases: C91_fields_exact."},
  {"property": "C92", "status": "partial", "theorems": ["PM.C92_meshio_exact", "PM.C92_pv_exact", "PM.C92_array", "PM.C92_vtk_partial", "PM.C92_types", "PM.C92_names", "PM.C92_later", "PM.C92_line3_false", "PM.C92_meshio_partial", "PM.C92_meshio_false", "PM.C92_pv"], "note": "Proved: the tables of classes, from_pv, from_meshio for groups of different types, to_vtk for blocks without other cells beneath them. False: several groups of one type and unknown types in from_meshio (C92_meshio_false), three-noded lines (C92_line3_false). What happens in the remaining cases: C92_meshio_exact, C92_pv_exact."},
  {"property": "C93", "status": "partial", "theorems": ["PM.C93_poly_partial", "PM.C93_classes", "PM.C93_nodes_false", "PM.C93_guess_false", "PM.C93_tri", "PM.C93_tri_class", "PM.C93_tri_made", "PM.C93_names_false", "PM.C93_subclass_false", "PM.C93_tet", "PM.C93_tet_false", "PM.C93_grid_partial", "PM.C93_grid_false", "PM.C93_areas_partial", "PM.C93_areas_false", "PM.C93_copies", "PM.C93_copies_false"], "note": "Proved: points, cells and classes of PolyData, TriMesh, TetMesh, LineData and Grid for arguments of the documented form. False: class with another number of nodes (C93_nodes_false), ambiguous numbers of nodes (C93_guess_false, C93_grid_false), coords and topo of TriMesh (C93_names_false), other classes of triangles (C93_subclass_false), ten-noded tetrahedra (C93_tet_false), stored areas (C93_areas_false), copies (C93_copies_false)."},
  {"property": "C94", "status": "partial", "theorems": ["PM.C94_cells_at_nodes", "PM.C94_adjacency", "PM.C94_jagged", "PM.C94_gaps_false", "PM.C94_center_used", "PM.C94_center_own", "PM.C94_nearest_partial", "PM.C94_around_partial", "PM.C94_raw_exact", "PM.C94_raw"], "note": "Proved: cells at nodes and adjacency of meshes with any blocks, exactly when cells at nodes without a format answer (C94_raw_exact) and what (C94_raw), the centre, nearest cells for at least two neighbours, cells around cells up to the first ten. False: cells_at_nodes without format for node numbers with gaps (C94_gaps_false); ten places padded with zeros (see C51), max_distance ignored (see C68)."},
  {"property": "C95", "status": "partial", "theorems": ["PM.C95_values_partial", "PM.C95_single_partial", "PM.C95_lines", "PM.C95_compiled_partial", "PM.C95_sizes", "PM.C95_generated_partial", "PM.C95_int_simplices", "PM.C95_int_quadratic", "PM.C95_int_nodes_partial", "PM.C95_int_false", "PM.C95_single_false", "PM.C95_derivs_partial", "PM.C95_derivs_generated_partial", "PM.C95_derivs_false", "PM.C95_matrix_partial", "PM.C95_matrix_false", "PM.C95_int_L2_exact", "PM.C95_int_Q4_exact", "PM.C95_int_H8_exact"], "note": "Proved: values for all classes at any number of points in floating point numbers, derivatives of the compiled ones, matrices; integers for triangles, TET4, Q9 and H27 and at nodes; which points are refused (C95_sizes). False: integers elsewhere (C95_int_false, C95_derivs_false), single points of surfaces and the two kinds of lines (C95_single_false), H8 with another number of unknowns (C95_matrix_false). What happens in the remaining cases: C95_int_L2_exact, C95_int_Q4_exact, C95_int_H8_exact."},
  {"property": "C96", "status": "proved", "theorems": ["PM.C96_lines", "PM.C96_copies", "PM.C96_populate"], "note": "Copies of points and triangles; sides of the population, given or found. Trusted: tile of neumann."},
  {"property": "C97", "status": "partial", "theorems": ["PM.C97_partial", "PM.C97_computed_partial", "PM.C97_copied", "PM.C97_homogenize", "PM.C97_homogenize_constant", "PM.C97_dense_false", "PM.C97_ids_false", "PM.C97_ids_exact", "PM.C97_dense_exact", "PM.C97_missing_exact"], "note": "Proved for csr factors with ids equal to places, for dense factors reduced to the rows of the block, for copies and for homogenizing. False: dense factors of the whole mesh (C97_dense_false), ids that are not places (C97_ids_false). What happens in the remaining cases: C97_ids_exact, C97_dense_exact, C97_missing_exact."},
  {"property": "C98", "status": "partial", "theorems": ["PM.C98_exact", "PM.C98_surfaces", "PM.C98_lines", "PM.C98_partial", "PM.C98_frame_false", "PM.C98_lines_auto_false"], "note": "Proved for sources in the ambient frame, for surfaces and lines with reference points that turn with the mesh. False: another frame of the source (C98_frame_false), lines without reference (C98_lines_auto_false). Trusted: what rotate of neumann does. What happens in the remaining cases: C98_exact."},
  {"property": "C99", "status": "proved", "theorems": ["PM.C99_gridH8", "PM.C99_gridH8_bins", "PM.C99_gridQ4", "PM.C99_gridQ4_bins", "PM.C99_repeated_bin_false"], "note": "For equal cells and for distinct bins. With a repeated bin inner edges lie on the side (C99_repeated_bin_false)."},
  {"property": "C100", "status": "proved", "theorems": ["PM.C100_gridH8", "PM.C100_gridH8_bins", "PM.C100_gridH27", "PM.C100_gridH27_bins", "PM.C100_tets", "PM.C100_tets_bins", "PM.C100_gridQ4", "PM.C100_gridQ4_bins", "PM.C100_gridQ9", "PM.C100_gridQ9_bins", "PM.C100_bins_order_false"], "note": "Quadrature rules of neumann enter as interval rules exact for constants (trusted). By tetrahedra for bins in order; false otherwise (C100_bins_order_false)."},
  {"property": "C101", "status": "partial", "theorems": ["PM.C101_partial", "PM.C101_refused", "PM.C101_points_false", "PM.C101_solids_false", "PM.C101_mixed_false"], "note": "Proved for meshes whose cells refer to the points of one block, solids without other cells beneath them. False otherwise (C101_points_false, C101_solids_false, C101_mixed_false). Trusted: the external surface (contract of C59)."},
  {"property": "C102", "status": "proved", "theorems": ["PM.C102_tets", "PM.C102_tets_bins", "PM.C102_tet10", "PM.C102_tet10_bins", "PM.C102_tris", "PM.C102_tris_bins", "PM.C102_tris9", "PM.C102_tris9_bins", "PM.C102_bins_order_false"], "note": "Positive lengths or bins in increasing order; false for bins in another order (C102_bins_order_false). The quadratic tetrahedra are taken by their corners, the mid-side nodes being at the middles of the edges."},
  {"property": "C103", "status": "proved", "theorems": ["PM.C103_grid", "PM.C103_bins", "PM.C103_zero_false"], "note": "For lazy=False and positive tolerance; false for tolerance 0 (C103_zero_false). The lazy search is C47_lazy_false."},
  {"property": "C104", "status": "partial", "theorems": ["PM.C104_flag_exact", "PM.C104_params", "PM.C104_after", "PM.C104_unchanged", "PM.C104_block_partial", "PM.C104_flag_partial", "PM.C104_plot", "PM.C104_again_false", "PM.C104_sibling_false", "PM.C104_flag_false", "PM.C104_ring_false", "PM.C104_multiblock_false"], "note": "Exact account of parameters and configurations for all meshes (C104_params, C104_after, C104_unchanged, C104_plot); grids and values for blocks without cells beneath them (C104_block_partial); flags if the closest points above have the field (C104_flag_partial). False in general: C104_again_false, C104_sibling_false, C104_flag_false, C104_ring_false, C104_multiblock_false. Trusted: how PyVista attaches values. What happens in the remaining cases: C104_flag_exact."},
  {"property": "C105", "status": "partial", "theorems": ["PM.C105_frame_exact", "PM.C105_linear", "PM.C105_quadratic", "PM.C105_linear_partial", "PM.C105_quadratic_partial", "PM.C105_refused", "PM.C105_frame_false", "PM.C105_order_false"], "note": "Exact account for every frame (C105_linear, C105_quadratic: points transformed twice) and refusals (C105_refused); as documented for the ambient frame (C105_linear_partial, C105_quadratic_partial). False in other frames and for orders below one: C105_frame_false, C105_order_false. Trusted: TetGen. What happens in the remaining cases: C105_frame_exact."},
  {"property": "C106", "status": "proved", "theorems": ["PM.C106_gridH8", "PM.C106_gridH8_bins", "PM.C106_gridQ4", "PM.C106_gridQ4_bins"], "note": "Grids of equal cells and grids with bins, numbered from 0."},
  {"property": "C107", "status": "proved", "theorems": ["PM.C107_H27_to_H8", "PM.C107_H27_to_H8_bins", "PM.C107_H8_to_H27", "PM.C107_H8_to_H27_bins", "PM.C107_refine_H8", "PM.C107_Q9_to_Q4", "PM.C107_Q9_to_Q4_bins", "PM.C107_Q4_to_Q9", "PM.C107_Q4_to_Q9_bins", "PM.C107_refine_Q4", "PM.C107_refine_H8_bins", "PM.C107_refine_Q4_bins"], "note": "Numbered from 0. For grids of equal cells and for grids with bins."},
  {"property": "C108", "status": "partial", "theorems": ["PM.C108_inside_plane", "PM.C108_inside_plane_bins", "PM.C108_located", "PM.C108_located_bins", "PM.C108_inside_solid", "PM.C108_inside_solid_bins", "PM.C108_zero_false", "PM.C108_order_false"], "note": "Proved for positive tolerances and bins in increasing order; false for tolerance 0 and decreasing bins (C108_zero_false, C108_order_false)."},
  {"property": "C109", "status": "partial", "theorems": ["PM.C109_lookup_partial", "PM.C109_unlock", "PM.C109_locked", "PM.C109_standard", "PM.C109_stale_false", "PM.C109_unique_false", "PM.C109_unique_partial", "PM.C109_lookup_exact", "PM.C109_mapped_unique"], "note": "Lookups proved for all histories in which to_standard_form is not called while mappers exist (C109_lookup_partial), after unlock always (C109_unlock); unique numbers if no number is queued when the mesh is brought to standard form (C109_unique_partial). False otherwise: C109_stale_false, C109_unique_false. Trusted: a locked DeepDict refuses changes. What happens in the remaining cases: C109_lookup_exact."},
  {"property": "C110", "status": "partial", "theorems": ["PM.C110_points", "PM.C110_given", "PM.C110_short", "PM.C110_to_mpl", "PM.C110_other", "PM.C110_object", "PM.C110_backend_false", "PM.C110_pv_false", "PM.C110_mask_false", "PM.C110_edges", "PM.C110_reconstruct", "PM.C110_from_arrays", "PM.C110_from_mesh_false"], "note": "Proved: data of all objects made by triangulate, conversion to matplotlib, given triangles, refusals, edges and reconstruction of cells, arrays in from_TriMesh. False: transforming between backends (C110_backend_false), triangles of a PolyData (C110_pv_false), masks (C110_mask_false), meshes in from_TriMesh (C110_from_mesh_false)."},
  {"property": "C111", "status": "partial", "theorems": ["PM.C111_float", "PM.C111_plane_partial", "PM.C111_unit_partial", "PM.C111_solid_partial", "PM.C111_locate_partial", "PM.C111_extrude_partial", "PM.C111_plane_false", "PM.C111_solid_false", "PM.C111_locate_false", "PM.C111_extrude_false"], "note": "Proved: floating point numbers give the searches of C47 and C73; what exactly is answered for integers (weights between minus one and two, cut off weights); points of cells still pass with the default tolerance; triangles of integer corners with area one half are right; extrusions are right exactly if the layers are a whole number apart. False in general: C111_plane_false, C111_solid_false, C111_locate_false, C111_extrude_false."},
  {"property": "C112", "status": "partial", "theorems": ["PM.C112_T3_to_T6", "PM.C112_Q4_to_Q9", "PM.C112_H8_to_H27", "PM.C112_TET4_to_TET10", "PM.C112_W6_to_W18_partial", "PM.C112_L2_to_L3", "PM.C112_jacobian_solid", "PM.C112_jacobian_plane", "PM.C112_T6_to_T3", "PM.C112_Q9_to_Q4", "PM.C112_H27_to_H8", "PM.C112_W18_to_W6", "PM.C112_refine_T3", "PM.C112_refine_Q4", "PM.C112_refine_H8", "PM.C112_refine_W6_partial"], "note": "Proved for all elevations and refinements listed, for distorted cells. Missing: W6_to_W18 as it is has no defined result (C12_W6_to_W18_false); the statements about wedges are for the conversion without the faulty call (C112_W6_to_W18_partial, C112_refine_W6_partial)."},
  {"property": "C113", "status": "partial", "theorems": ["PM.C113_frames_partial", "PM.C113_own", "PM.C113_deep", "PM.C113_argument", "PM.C113_argument_false", "PM.C113_frames_exact"], "note": "Proved for all histories in which origins are given as lists or not at all (C113_frames_partial, C113_own, C113_deep). False if an array is given: the frame and the caller share it (C113_argument, C113_argument_false); exact account of every program in C113_frames_exact."},
  {"property": "C114", "status": "partial", "theorems": ["PM.C114_float", "PM.C114_area", "PM.C114_center_partial", "PM.C114_center_false", "PM.C114_centralize_partial", "PM.C114_centralize_cells_partial", "PM.C114_centralize_false", "PM.C114_bins_partial", "PM.C114_bins_H8", "PM.C114_bins_false", "PM.C114_factors_partial", "PM.C114_factors_csr", "PM.C114_factors_false", "PM.C114_homogenize_partial", "PM.C114_homogenize_false", "PM.C114_explode_partial", "PM.C114_explode_false", "PM.C114_lines_partial", "PM.C114_lines_all", "PM.C114_lines_nodes", "PM.C114_lines_false"], "note": "Right for areas of triangles (C114_area), for H8 grids between integer bins (C114_bins_H8) and for floating point numbers (C114_float). False otherwise, with exact conditions: C114_center_partial, C114_centralize_partial, C114_centralize_cells_partial, C114_bins_partial, C114_factors_partial, C114_factors_csr, C114_homogenize_partial, C114_explode_partial, C114_lines_partial, C114_lines_all."},
  {"property": "C115", "status": "partial", "theorems": ["PM.C115_centralize_exact", "PM.C115_centers", "PM.C115_centers_partial", "PM.C115_block", "PM.C115_block_mesh", "PM.C115_center_own", "PM.C115_center_cells", "PM.C115_centralize_partial", "PM.C115_centers_false", "PM.C115_block_false", "PM.C115_centralize_false", "PM.C115_centralize_frames_false"], "note": "True for `center`, for `centers` in ambient sources and of blocks that know their points, and for `centralize` if all axes are the same; the code violates the rest (`_false` theorems). What happens in the remaining cases: C115_centralize_exact."},
  {"property": "C116", "status": "proved", "theorems": ["PM.C116_points", "PM.C116_stored", "PM.C116_detach"], "note": "All parts."},
  {"property": "C117", "status": "partial", "theorems": ["PM.C117_mesh", "PM.C117_turn", "PM.C117_get", "PM.C117_all_false", "PM.C117_new_false", "PM.C117_unknown_false"], "note": "True for the meshes, the axes and `get_section_properties`; the code violates the claim before anything was calculated (`_false` theorems). The values of the library `sectionproperties` are a contract."},
  {"property": "C118", "status": "partial", "theorems": ["PM.C118_vtk", "PM.C118_detached", "PM.C118_block_partial", "PM.C118_surface_partial", "PM.C118_block_false", "PM.C118_surface_false"], "note": "True for meshes in the ambient frame; with frames the code violates the claim (`_false` theorems)."},
  {"property": "C119", "status": "partial", "theorems": ["PM.C119_centre_partial", "PM.C119_dim", "PM.C119_shape_false", "PM.C119_centre_false", "PM.C119_default", "PM.C119_linear_partial", "PM.C119_tet_false", "PM.C119_affine"], "note": "True for all classes but tetrahedra; for tetrahedra the code violates the claim (`_false` theorems)."},
  {"property": "C120", "status": "partial", "theorems": ["PM.C120_areas", "PM.C120_bilinear", "PM.C120_det", "PM.C120_positive", "PM.C120_cell", "PM.C120_norms", "PM.C120_move_partial", "PM.C120_center_partial", "PM.C120_int_false", "PM.C120_monoms", "PM.C120_keys", "PM.C120_explode", "PM.C120_factors", "PM.C120_types", "PM.C120_meshio_false"], "note": "All parts, except that integer arrays are cut off and that `meshio_to_vtk` knows triangles only, which is what the code does (`_false` theorems)."},
  {"property": "C121", "status": "partial", "theorems": ["PM.C121_read_partial", "PM.C121_read_false", "PM.C121_attach", "PM.C121_container_partial", "PM.C121_container_false", "PM.C121_frames"], "note": "True except for `None` as an argument and for data given to two meshes, where the code violates the claim (`_false` theorems)."},
  {"property": "C122", "status": "partial", "theorems": ["PM.C122_section_partial", "PM.C122_rhs_false", "PM.C122_params_false", "PM.C122_unknown", "PM.C122_wrap_partial", "PM.C122_shape_false"], "note": "True except for rectangular hollow sections, the documented example of mesh parameters, and `shape` without positional arguments (`_false` theorems)."},
  {"property": "C123", "status": "partial", "theorems": ["PM.C123_nearest_partial", "PM.C123_neighbours_partial", "PM.C123_ranks_partial", "PM.C123_refused", "PM.C123_default_false", "PM.C123_caller_false", "PM.C123_distance_false"], "note": "Proved for given points and scipy: one neighbour, several, lists of ranks, distances, refusals. The code violates the rest (`_false` theorems)."},
  {"property": "C124", "status": "partial", "theorems": ["PM.C124_named", "PM.C124_default_shape", "PM.C124_defaults", "PM.C124_path", "PM.C124_shift", "PM.C124_start", "PM.C124_centralize", "PM.C124_bins", "PM.C124_bins_decide", "PM.C124_path_named_false"], "note": "Proved for shift, start, centralisation, bins, names, defaults, and paths with numbers of points. False for paths with named shapes (`C124_path_named_false`)."},
  {"property": "C125", "status": "partial", "theorems": ["PM.C125_maps", "PM.C125_override_false", "PM.C125_frames", "PM.C125_activity", "PM.C125_forms_partial", "PM.C125_forms_false", "PM.C125_caller_false", "PM.C125_mesh_partial", "PM.C125_args_false", "PM.C125_example_false", "PM.C125_cells_first", "PM.C125_average_partial", "PM.C125_unknown", "PM.C125_average_false"], "note": "Proved: union of names, setters, fields of cells, averages of rows of numbers, equal records in both forms for at least one name or none given. The code violates the rest (`_false` theorems)."},
  {"property": "C126", "status": "partial", "theorems": ["PM.C126_lines", "PM.C126_fields", "PM.C126_int", "PM.C126_int_iff", "PM.C126_isInp", "PM.C126_file_partial", "PM.C126_name", "PM.C126_flip", "PM.C126_case", "PM.C126_records", "PM.C126_flag", "PM.C126_option", "PM.C126_script_partial", "PM.C126_spelling_false", "PM.C126_lines_false", "PM.C126_set_false"], "note": "Proved: lines, fields, numerals, keywords in any case, comments, other records, names, extensions, the option, the link with the records of C57, and what the script writes for meshes that exist and are not degenerate. The code violates the claim for other spellings, empty lines and some names (`_false` theorems)."},
  {"property": "C127", "status": "partial", "theorems": ["PM.C127_default", "PM.C127_corners", "PM.C127_path", "PM.C127_path_overrun", "PM.C127_grid", "PM.C127_rejected", "PM.C127_data", "PM.C127_data_rejected", "PM.C127_undo", "PM.C127_Q9_T6", "PM.C127_subdivide_false", "PM.C127_row_false", "PM.C127_points_false", "PM.C127_positional_false", "PM.C127_short_false"], "note": "Proved: defaults, given paths, path=\"grid\", corners, undoing of conversions to higher order, data of cells and of nodes of cells, refusals by kind of exception, `Q9_to_T6` for any order of the loops. The code violates the claim for `subdivide`, paths with one axis, data of points and positional arguments (`_false` theorems)."},
  {"property": "C128", "status": "partial", "theorems": ["PM.C128_tets_exact", "PM.C128_wedges", "PM.C128_wedges_inner", "PM.C128_tets_partial", "PM.C128_wedges_cover", "PM.C128_tets_cover", "PM.C128_tets_false"], "note": "Proved: wedges fit together, are disjoint inside and cover the prism; tetrahedra cover it, and fit together if common edges are listed in the same order. The code violates the claim for tetrahedra in general (`C128_tets_false`). What happens in the remaining cases: C128_tets_exact."},
  {"property": "C129", "status": "partial", "theorems": ["PM.C129_H8", "PM.C129_H8_bins", "PM.C129_H27", "PM.C129_H27_bins", "PM.C129_Q4", "PM.C129_Q4_bins", "PM.C129_Q9", "PM.C129_Q9_bins", "PM.C129_extruded", "PM.C129_extruded_bins", "PM.C129_extruded_tets_partial", "PM.C129_tets_false", "PM.C129_extruded_tets_false", "PM.C129_bins_order_false", "PM.C129_tets_exact", "PM.C129_tets_bins_exact", "PM.C129_extruded_tets_exact", "PM.C129_extruded_tets_bins_exact"], "note": "Proved: cells of all four grids and the triangles of plane grids fit together; extruded grids made of wedges fit together and fill the box, tetrahedra fill it and fit together if there is one row of cells. The code violates the claim for tetrahedra of hexahedra, for tetrahedra of extruded grids with more rows and for bins that are not sorted (`_false` theorems). What happens in the remaining cases: C129_tets_exact, C129_tets_bins_exact, C129_extruded_tets_exact, C129_extruded_tets_bins_exact."},
  {"property": "C130", "status": "partial", "theorems": ["PM.C130_raw", "PM.C130_csr", "PM.C130_jagged", "PM.C130_dicts_assumed", "PM.C130_dicts", "PM.C130_cellids", "PM.C130_gaps", "PM.C130_empty", "PM.C130_counts_false", "PM.C130_adjacency", "PM.C130_networkx_false", "PM.C130_csr_false", "PM.C130_self_false"], "note": "Proved: all formats of both functions, counts, ids, assumed regularity, refused calls, for all containers. The code violates the documentation for counts with gaps, without networkx, for adjacency of csr matrices and for assumed regularity (`_false` theorems)."},
  {"property": "C131", "status": "partial", "theorems": ["PM.C131_theme", "PM.C131_named", "PM.C131_global", "PM.C131_global_false", "PM.C131_meshes", "PM.C131_given", "PM.C131_new", "PM.C131_window_false", "PM.C131_result", "PM.C131_image_false", "PM.C131_backend", "PM.C131_backend_false", "PM.C131_scene", "PM.C131_lines", "PM.C131_labels_false", "PM.C131_vtk_false", "PM.C131_vtk_given", "PM.C131_init", "PM.C131_own", "PM.C131_kept", "PM.C131_set", "PM.C131_inherit_false"], "note": "Proved: themes, new and given plotters, results, backends, configurations. The code violates the claim for the global theme, images in notebooks, windows of given plotters, backends that are silently ignored, labels of lines, the backend vtk of lines, and inherited configurations of the default key (`_false` theorems)."},
  {"property": "C132", "status": "partial", "theorems": ["PM.C132_point", "PM.C132_points_partial", "PM.C132_TET4_false", "PM.C132_cells_partial", "PM.C132_cells_exact", "PM.C132_count_false", "PM.C132_axes"], "note": "Proved for single points, for arrays of points of all classes but TET4 and for cells with as many points as monomials; exact account for cells. The code violates the claim for TET4 and for other numbers of points (`_false` theorems). What happens in the remaining cases: C132_cells_exact."},
  {"property": "C133", "status": "partial", "theorems": ["PM.C133_show", "PM.C133_attributes", "PM.C133_attributes_partial", "PM.C133_get", "PM.C133_new", "PM.C133_return_exact", "PM.C133_return_partial", "PM.C133_unique", "PM.C133_vstack", "PM.C133_vstack_mixed", "PM.C133_refused", "PM.C133_wrapped", "PM.C133_other_partial", "PM.C133_other_false", "PM.C133_unique_false", "PM.C133_attributes_false", "PM.C133_return_inds_false", "PM.C133_return_frame_false"], "note": "True for the ambient frame and clouds without indices, for np.unique with keywords, for np.vstack and for functions whose arguments are topologies; the code violates the rest (`_false` theorems). What happens in the remaining cases: C133_return_exact."},
  {"property": "C134", "status": "proved", "theorems": ["PM.C134_gridH8", "PM.C134_gridH8_bins", "PM.C134_gridQ4", "PM.C134_gridQ4_bins"], "note": "All sizes, numbers of cells, bins and shifts, numbered from 0."},
  {"property": "C135", "status": "partial", "theorems": ["PM.C135_hexahedra", "PM.C135_quadrilaterals", "PM.C135_Q9_to_T6_false", "PM.C135_refine", "PM.C135_affine", "PM.C135_gridH8"], "note": "Proved for hexahedra and for quadrilaterals with a table of triangles that follows the diagonal of Q4_to_T3; the code violates the claim for Q9_to_T6, whose own table numbers nodes as in a grid (`C135_Q9_to_T6_false`)."},
  {"property": "C136", "status": "partial", "theorems": ["PM.C136_locate", "PM.C136_inside", "PM.C136_tetrahedra", "PM.C136_triangles", "PM.C136_plane_partial", "PM.C136_locate_tri_partial", "PM.C136_mirror_false", "PM.C136_volumes", "PM.C136_compiled", "PM.C136_center", "PM.C136_elevate", "PM.C136_conversions", "PM.C136_motion", "PM.C136_areas", "PM.C136_areas_default", "PM.C136_lengths", "PM.C136_nearest"], "note": "Proved for solid cells under every regular affine map and for all other answers under motions; for plane cells and triangulations only when the orientation is kept, because the code loses points after mirroring (`C136_mirror_false`)."},
  {"property": "C137", "status": "proved", "theorems": ["PM.C137_cut", "PM.C137_locate", "PM.C137_inside", "PM.C137_plane", "PM.C137_frames", "PM.C137_areas", "PM.C137_lengths", "PM.C137_centers", "PM.C137_elevate", "PM.C137_detach", "PM.C137_renumber", "PM.C137_regularize", "PM.C137_explode", "PM.C137_unused"], "note": "Proved for every pair of meshes with the same cells; nothing is assumed about the numbers."},
  {"property": "C138", "status": "proved", "theorems": ["PM.C138_part", "PM.C138_join", "PM.C138_none", "PM.C138_centres", "PM.C138_lengths", "PM.C138_frames", "PM.C138_line_frames", "PM.C138_local", "PM.C138_jacobian", "PM.C138_triangles", "PM.C138_areas", "PM.C138_volumes", "PM.C138_solids", "PM.C138_inside_2d", "PM.C138_inside_3d", "PM.C138_empty", "PM.C138_quadrature"], "note": "Proved for blocks with at least one cell; `C138_empty` says what happens without cells. Rows of areas and volumes must have nodes that exist and the number of nodes of their kind."},
  {"property": "C139", "status": "proved", "theorems": ["PM.C139_loops", "PM.C139_volumes", "PM.C139_areas", "PM.C139_H8", "PM.C139_H27", "PM.C139_TET10", "PM.C139_W18", "PM.C139_T6", "PM.C139_empty", "PM.C139_grid", "PM.C139_loops_fail", "PM.C139_exact", "PM.C139_areas_exact", "PM.C139_dimension"], "note": "Sums in a field instead of floating point. The degree of exactness of Gauss rules is a hypothesis (C37). What the W6 and space T6 rules miss is C38."},
  {"property": "C140", "status": "partial", "theorems": ["PM.C140_centres", "PM.C140_lengths", "PM.C140_tetrahedra", "PM.C140_inside", "PM.C140_inside_block", "PM.C140_turns", "PM.C140_H8", "PM.C140_mirrored", "PM.C140_cut_false", "PM.C140_entities", "PM.C140_elevate", "PM.C140_elevate_centre", "PM.C140_elevated", "PM.C140_triangle_partial", "PM.C140_reversed_false", "PM.C140_areas"], "note": "False for triangles in the plane listed in the other direction (`C140_reversed_false`) and for volumes of hexahedra by tetrahedra (`C140_cut_false`); proved for the rest."},
  {"property": "C141", "status": "proved", "theorems": ["PM.C141_closed_TET4", "PM.C141_closed_H8", "PM.C141_volume_TET4", "PM.C141_volume_H8", "PM.C141_fit_TET4", "PM.C141_TET4", "PM.C141_even_TET4", "PM.C141_surface", "PM.C141_grid", "PM.C141_three_false", "PM.C141_mirrored_false", "PM.C141_grid_bins"], "note": "Under the conditions of the statement. Without them it fails: C141_three_false, C141_mirrored_false."},
  {"property": "C142", "status": "proved", "theorems": ["PM.C142_closed_T3", "PM.C142_closed_Q4", "PM.C142_area_T3", "PM.C142_area_Q4", "PM.C142_fit_T3", "PM.C142_T3", "PM.C142_mirrored_false", "PM.C142_grid", "PM.C142_grid_bins"], "note": "Under the conditions of the statement. Without them it fails: C142_mirrored_false."}
]}
