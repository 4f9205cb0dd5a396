{
 "claims": [
  {
   "property": "C01",
   "status": "proved",
   "theorems": [
    "Verif.Props.C01_incidence",
    "Verif.Props.C01_incidence_unmerged",
    "Verif.Props.C01_unmerged_violation"
   ],
   "note": "Proved for merged loading in full. Without merging the condition on the points of a zone is necessary (C01_unmerged_violation)."
  },
  {
   "property": "C02",
   "status": "proved",
   "theorems": [
    "Verif.Props.C02_reject_iff",
    "Verif.Props.C02_reject_iff_unmerged"
   ],
   "note": ""
  },
  {
   "property": "C03",
   "status": "proved",
   "theorems": [
    "Verif.Props.C03_merged_keys",
    "Verif.Props.C03_corners",
    "Verif.Props.C03_no_lost_node",
    "Verif.Props.C03_unmerged",
    "Verif.Props.C03_first_points"
   ],
   "note": ""
  },
  {
   "property": "C04",
   "status": "proved",
   "theorems": [
    "Verif.Props.C04_frame",
    "Verif.Props.C04_load_ids"
   ],
   "note": ""
  },
  {
   "property": "C05",
   "status": "proved",
   "theorems": [
    "Verif.Props.C05_history",
    "Verif.Props.C05_single",
    "Verif.Props.C05_load_partition"
   ],
   "note": ""
  },
  {
   "property": "C06",
   "status": "proved",
   "theorems": [
    "Verif.Props.C06_history",
    "Verif.Props.C06_load_lists"
   ],
   "note": ""
  },
  {
   "property": "C07",
   "status": "proved",
   "theorems": [
    "Verif.Props.C07_mono"
   ],
   "note": ""
  },
  {
   "property": "C08",
   "status": "proved",
   "theorems": [
    "Verif.Props.C08_random"
   ],
   "note": ""
  },
  {
   "property": "C09",
   "status": "proved",
   "theorems": [
    "Verif.Props.C09_linear",
    "Verif.Props.C09_linear_zero"
   ],
   "note": ""
  },
  {
   "property": "C10",
   "status": "proved",
   "theorems": [
    "Verif.Props.C10_bfs"
   ],
   "note": ""
  },
  {
   "property": "C11",
   "status": "proved",
   "theorems": [
    "Verif.Props.C11_farhat"
   ],
   "note": ""
  },
  {
   "property": "C12",
   "status": "proved",
   "theorems": [
    "Verif.Props.C12_connected"
   ],
   "note": ""
  },
  {
   "property": "C13",
   "status": "proved",
   "theorems": [
    "Verif.Props.C13_hierarchical",
    "Verif.Props.C13_split",
    "Verif.Props.C13_order"
   ],
   "note": ""
  },
  {
   "property": "C14",
   "status": "partial",
   "theorems": [
    "Verif.Props.C14_returns_partial",
    "Verif.Props.C14_one_level_partial",
    "Verif.Props.C14_exact_partial",
    "Verif.Props.C14_planar_violation"
   ],
   "note": "False in general: C14_planar_violation (every planar grid with constant z, two or more levels, default sign functions raises ValueError). C14_exact_partial tells exactly when it returns: the last sign function has to split every zone of the level before that has two or more faces. One level always works."
  },
  {
   "property": "C15",
   "status": "proved",
   "theorems": [
    "Verif.Props.C15_built_iff",
    "Verif.Props.C15_matrix",
    "Verif.Props.C15_wf"
   ],
   "note": ""
  },
  {
   "property": "C16",
   "status": "proved",
   "theorems": [
    "Verif.Props.C16_statistics",
    "Verif.Props.C16_no_edges"
   ],
   "note": ""
  },
  {
   "property": "C17",
   "status": "proved",
   "theorems": [
    "Verif.Props.C17_kinds",
    "Verif.Props.C17_meaning",
    "Verif.Props.C17_raises",
    "Verif.Props.C17_connect"
   ],
   "note": ""
  },
  {
   "property": "C18",
   "status": "proved",
   "theorems": [
    "Verif.Props.C18_border_iff",
    "Verif.Props.C18_lists_match",
    "Verif.Props.C18_written"
   ],
   "note": ""
  },
  {
   "property": "C19",
   "status": "proved",
   "theorems": [
    "Verif.Props.C19_headers"
   ],
   "note": ""
  },
  {
   "property": "C20",
   "status": "proved",
   "theorems": [
    "Verif.Props.C20_denotes",
    "Verif.Props.C20_file"
   ],
   "note": ""
  },
  {
   "property": "C21",
   "status": "proved",
   "theorems": [
    "Verif.Props.C21_partition",
    "Verif.Props.C21_file_names"
   ],
   "note": ""
  },
  {
   "property": "C22",
   "status": "proved",
   "theorems": [
    "Verif.Props.C22_roundtrip",
    "Verif.Props.C22_variables",
    "Verif.Props.C22_storable",
    "Verif.Props.C22_no_faces"
   ],
   "note": ""
  },
  {
   "property": "C23",
   "status": "proved",
   "theorems": [
    "Verif.Props.C23_stable",
    "Verif.Props.C23_unmerged"
   ],
   "note": ""
  },
  {
   "property": "C24",
   "status": "proved",
   "theorems": [
    "Verif.Props.C24_last_line",
    "Verif.Props.C24_outside",
    "Verif.Props.C24_blank",
    "Verif.Props.C24_own_file"
   ],
   "note": ""
  },
  {
   "property": "C25",
   "status": "proved",
   "theorems": [
    "Verif.Props.C25_own_results",
    "Verif.Props.C25_merge",
    "Verif.Props.C25_stored_is_file"
   ],
   "note": "C25_own_results for loading the files in any order; C25_merge for the whole merge script (title present in the grid file, fewer than 100001 zones, stamps of at most 12 digits)."
  },
  {
   "property": "C26",
   "status": "proved",
   "theorems": [
    "Verif.Props.C26_group",
    "Verif.Props.C26_group_count"
   ],
   "note": ""
  },
  {
   "property": "C27",
   "status": "proved",
   "theorems": [
    "Verif.Props.C27_split_mpi_name",
    "Verif.Props.C27_accept",
    "Verif.Props.C27_cry_txt",
    "Verif.Props.C27_injective",
    "Verif.Props.C27_reject_large",
    "Verif.Props.C27_accept_sound"
   ],
   "note": ""
  },
  {
   "property": "C28",
   "status": "partial",
   "theorems": [
    "Verif.Props.C28_name_stamp_partial",
    "Verif.Props.C28_newline_violation"
   ],
   "note": "Proved for every name without trailing newline; for a name ending in a time stamp and a newline the claim is false (C28_newline_violation)."
  },
  {
   "property": "C29",
   "status": "proved",
   "theorems": [
    "Verif.Props.C29_flatten",
    "Verif.Props.C29_flatten_idem"
   ],
   "note": ""
  },
  {
   "property": "C30",
   "status": "partial",
   "theorems": [
    "Verif.Props.C30_n",
    "Verif.Props.C30_n_iff",
    "Verif.Props.C30_n_exact_partial",
    "Verif.Props.C30_n_reject",
    "Verif.Props.C30_mono",
    "Verif.Props.C30_h",
    "Verif.Props.C30_other",
    "Verif.Props.C30_unknown_zone",
    "Verif.Props.C30_duplicates_violation",
    "Verif.Props.C30_files"
   ],
   "note": "False for grids with several zones of the same name (C30_duplicates_violation); proved when zone names and fixed names are distinct. The general zone count is C30_n, and C30_n_iff says exactly when it is k; hierarchical, rejection, mono and unknown strategies are proved in full."
  },
  {
   "property": "C31",
   "status": "proved",
   "theorems": [
    "Verif.Props.C31_factor"
   ],
   "note": ""
  },
  {
   "property": "C32",
   "status": "proved",
   "theorems": [
    "Verif.Props.C32_loaded_good",
    "Verif.Props.C32_divide_face"
   ],
   "note": ""
  },
  {
   "property": "C33",
   "status": "proved",
   "theorems": [
    "Verif.Props.C33_cut_single_edge",
    "Verif.Props.C33_not_border"
   ],
   "note": ""
  },
  {
   "property": "C34",
   "status": "proved",
   "theorems": [
    "Verif.Props.C34_cut_edge",
    "Verif.Props.C34_border",
    "Verif.Props.C34_two_nodes_border",
    "Verif.Props.C34_two_nodes_inner"
   ],
   "note": ""
  },
  {
   "property": "C35",
   "status": "partial",
   "theorems": [
    "Verif.Props.C35_exactly",
    "Verif.Props.C35_same_zone_partial",
    "Verif.Props.C35_cross_zone_violation",
    "Verif.Props.C35_sample_violation"
   ],
   "note": "False when the two faces are in different zones: C35_cross_zone_violation shows for every consistent grid that both parts of the second face are put into the zone of the first (C35_sample_violation: a zone left without faces and with stale nodes). Proved for edges inside one zone. C35_exactly joins the two: the parts of the second face stay in its zone exactly if both faces are in one zone."
  },
  {
   "property": "C36",
   "status": "proved",
   "theorems": [
    "Verif.Props.C36_joined_violation",
    "Verif.Props.C36_longest",
    "Verif.Props.C36_collapse_face",
    "Verif.Props.C36_border",
    "Verif.Props.C36_tetrahedron_violation"
   ],
   "note": "The condition on opposite corners is needed on every grid: if an edge joins them, collapse_face always gives two edges between the same nodes (C36_joined_violation; C36_tetrahedron_violation is a concrete case). Both new faces get the data of the face passed to collapse_face; the data of the other one is lost."
  },
  {
   "property": "C37",
   "status": "partial",
   "theorems": [
    "Verif.Props.C37_step",
    "Verif.Props.C37_sequences_partial",
    "Verif.Props.C37_collapse_edge_violation",
    "Verif.Props.C37_collapse_edge_error"
   ],
   "note": "Proved for all sequences of all six transformations, collapse_edge only where LastIds holds, which is exactly the case in which it keeps the numbering (C76_identifiers). False for collapse_edge in general: C37_collapse_edge_violation (identifiers 0,1,2,4,6,3 on a consistent grid)."
  },
  {
   "property": "C38",
   "status": "proved",
   "theorems": [
    "Verif.Props.C38_divide_face",
    "Verif.Props.C38_cut_single_edge",
    "Verif.Props.C38_cut_edge",
    "Verif.Props.C38_two_nodes",
    "Verif.Props.C38_collapse_face",
    "Verif.Props.C38_sequences"
   ],
   "note": ""
  },
  {
   "property": "C39",
   "status": "partial",
   "theorems": [
    "Verif.Props.C39_divide_face_violation",
    "Verif.Props.C39_cut_single_edge_violation",
    "Verif.Props.C39_cut_edge_violation",
    "Verif.Props.C39_reversed"
   ],
   "note": "False: for every consistent grid and every inner point the third face of divide_face is reversed, and exactly one of the two parts of each face is reversed by cut_single_edge and cut_edge (C39_*_violation); the other parts are proved to keep the side."
  },
  {
   "property": "C40",
   "status": "proved",
   "theorems": [
    "Verif.Props.C40_box_tight",
    "Verif.Props.C40_box_empty",
    "Verif.Props.C40_box_of_triangles",
    "Verif.Props.C40_point_inside"
   ],
   "note": ""
  },
  {
   "property": "C41",
   "status": "proved",
   "theorems": [
    "Verif.Props.C41_segment",
    "Verif.Props.C41_boxes",
    "Verif.Props.C41_segment_only"
   ],
   "note": ""
  },
  {
   "property": "C42",
   "status": "proved",
   "theorems": [
    "Verif.Props.C42_cloud",
    "Verif.Props.C42_depth",
    "Verif.Props.C42_empty"
   ],
   "note": ""
  },
  {
   "property": "C43",
   "status": "partial",
   "theorems": [
    "Verif.Props.C43_search",
    "Verif.Props.C43_agrees_partial",
    "Verif.Props.C43_none_iff_partial",
    "Verif.Props.C43_coplanar_violation"
   ],
   "note": "C43_search holds for every cloud: the answer is a hit of the test, and if there is none then no triangle whose box meets the box of the segment is hit. Agreement with the direct test of all triangles is proved unless the segment lies in the plane of a triangle; there it is false (C43_coplanar_violation)."
  },
  {
   "property": "C44",
   "status": "partial",
   "theorems": [
    "Verif.Props.C44_only_pairs",
    "Verif.Props.C44_all_pairs",
    "Verif.Props.C44_reports_partial",
    "Verif.Props.C44_coplanar_violation",
    "Verif.Props.C44_pair_reported"
   ],
   "note": "C44_only_pairs and C44_all_pairs relate the tree to the double loop for any hit test; C44_reports_partial for triangles in general position; false for coplanar triangles (C44_coplanar_violation)."
  },
  {
   "property": "C45",
   "status": "partial",
   "theorems": [
    "Verif.Props.C45_exact_partial",
    "Verif.Props.C45_small",
    "Verif.Props.C45_small_violation"
   ],
   "note": "C45_exact_partial: exact when the volume spanned by the segment and the triangle is at least 1e-10 in absolute value. Smaller nonzero volumes find nothing (C45_small, C45_small_violation)."
  },
  {
   "property": "C46",
   "status": "partial",
   "theorems": [
    "Verif.Props.C46_terminates",
    "Verif.Props.C46_flight",
    "Verif.Props.C46_clear_partial",
    "Verif.Props.C46_small_violation"
   ],
   "note": "Termination and the truth of every status are proved (C46_terminates, C46_flight). That earlier segments meet no triangle is proved for segments spanning a volume of 1e-10 or more with the triangle (C46_clear_partial); very small triangles are flown through (C46_small_violation)."
  },
  {
   "property": "C47",
   "status": "partial",
   "theorems": [
    "Verif.Props.C47_step_partial",
    "Verif.Props.C47_equal_velocities_violation"
   ],
   "note": "False when droplet and air velocities coincide (C47_equal_velocities_violation); proved otherwise, with the form of the result."
  },
  {
   "property": "C48",
   "status": "partial",
   "theorems": [
    "Verif.Props.C48_target",
    "Verif.Props.C48_last_wins",
    "Verif.Props.C48_mass_partial",
    "Verif.Props.C48_no_more",
    "Verif.Props.C48_overwritten_violation"
   ],
   "note": "False when two droplets land on one face (C48_overwritten_violation: half of the water is lost). C48_last_wins gives the exact value for every face, C48_no_more the upper bound, C48_mass_partial equality when no two droplets share a target."
  },
  {
   "property": "C49",
   "status": "proved",
   "theorems": [
    "Verif.Props.C49_conserved"
   ],
   "note": ""
  },
  {
   "property": "C50",
   "status": "proved",
   "theorems": [
    "Verif.Props.C50_steps",
    "Verif.Props.C50_step",
    "Verif.Props.C50_budget",
    "Verif.Props.C50_exact",
    "Verif.Props.C50_without_redistribution"
   ],
   "note": "C50_budget and C50_exact are the claim; C50_step gives every step in full, C50_without_redistribution shows that without redistribution step i of n aims at target/(n-i) and the last step at the whole target."
  },
  {
   "property": "C51",
   "status": "partial",
   "theorems": [
    "Verif.Props.C51_nonneg",
    "Verif.Props.C51_root_partial",
    "Verif.Props.C51_small_violation"
   ],
   "note": "C51_root_partial: for ice and quadratic coefficients above 1e-10 the height is the smallest non-negative root. Below these thresholds the linear formula is used, which does not solve the equation (C51_small_violation). Non-negativity is proved in full."
  },
  {
   "property": "C52",
   "status": "proved",
   "theorems": [
    "Verif.Props.C52_bounds",
    "Verif.Props.C52_nothing_ignored",
    "Verif.Props.C52_rejected",
    "Verif.Props.C52_all_ignored"
   ],
   "note": "Also C52_nothing_ignored: if no face may be ignored the maximum is always chosen; C52_all_ignored: IndexError if all faces may be ignored."
  },
  {
   "property": "C53",
   "status": "proved",
   "theorems": [
    "Verif.Props.C53_marked"
   ],
   "note": ""
  },
  {
   "property": "C54",
   "status": "proved",
   "theorems": [
    "Verif.Props.C54_quadrangle",
    "Verif.Props.C54_pinched",
    "Verif.Props.C54_opposite_corners"
   ],
   "note": "C54_opposite_corners: with coinciding opposite corners the single triangle does not have the vector area of the quadrangle (outside the statement)."
  },
  {
   "property": "C55",
   "status": "proved",
   "theorems": [
    "Verif.Props.C55_mean"
   ],
   "note": ""
  },
  {
   "property": "C56",
   "status": "proved",
   "theorems": [
    "Verif.Props.C56_cells"
   ],
   "note": ""
  },
  {
   "property": "C57",
   "status": "partial",
   "theorems": [
    "Verif.Props.C57_cell_data_partial",
    "Verif.Props.C57_second_index_fastest",
    "Verif.Props.C57_violation"
   ],
   "note": "False for blocks with three or more nodes in both directions and values that are not all equal: C57_violation. Proved for blocks one cell wide (C57_cell_data_partial); C57_second_index_fastest tells what the converter assumes."
  },
  {
   "property": "C58",
   "status": "partial",
   "theorems": [
    "Verif.Props.C58_exchange_partial",
    "Verif.Props.C58_no_deadlock",
    "Verif.Props.C58_terminates",
    "Verif.Props.C58_all_finish",
    "Verif.Props.C58_start",
    "Verif.Props.C58_isolated",
    "Verif.Props.C58_without_marking",
    "Verif.Props.C58_race_violation"
   ],
   "note": "Proved for all executions when sent data is copied at once, and for a single exchange in any case; also no deadlock and termination. The program does three exchanges with one send buffer and never waits for its sends: C58_race_violation."
  },
  {
   "property": "C59",
   "status": "partial",
   "theorems": [
    "Verif.Props.C59_gather_partial",
    "Verif.Props.C59_equal_zones",
    "Verif.Props.C59_exactly",
    "Verif.Props.C59_violation"
   ],
   "note": "Proved for zones whose values begin at i * (size of zone) in the gathered array, in particular for zones of equal size; C59_exactly: wrong in all other cases. C59_violation is a concrete case."
  },
  {
   "property": "C60",
   "status": "proved",
   "theorems": [
    "Verif.Props.C60_explosion",
    "Verif.Props.C60_distances",
    "Verif.Props.C60_center_stays",
    "Verif.Props.C60_no_nodes",
    "Verif.Props.C60_loaded",
    "Verif.Props.C60_merged_violation"
   ],
   "note": "Exact arithmetic in a field of characteristic 0. C60_merged_violation: the property is false for zones with common nodes, as the comment in the code says."
  },
  {
   "property": "C61",
   "status": "proved",
   "theorems": [
    "Verif.Props.C61_argument_sorted"
   ],
   "note": ""
  },
  {
   "property": "C62",
   "status": "proved",
   "theorems": [
    "Verif.Props.C62_nearest",
    "Verif.Props.C62_empty"
   ],
   "note": ""
  },
  {
   "property": "C63",
   "status": "proved",
   "theorems": [
    "Verif.Props.C63_nonneg",
    "Verif.Props.C63_translation",
    "Verif.Props.C63_still",
    "Verif.Props.C63_prism",
    "Verif.Props.C63_order_violation"
   ],
   "note": "For moves that are not parallel the value depends on the order of corners (C63_order_violation); the property claims parallel moves only."
  },
  {
   "property": "C64",
   "status": "proved",
   "theorems": [
    "Verif.Props.C64_changes"
   ],
   "note": ""
  },
  {
   "property": "C65",
   "status": "proved",
   "theorems": [
    "Verif.Props.C65_no_ice",
    "Verif.Props.C65_no_ice_around"
   ],
   "note": ""
  },
  {
   "property": "C66",
   "status": "proved",
   "theorems": [
    "Verif.Props.C66_movement"
   ],
   "note": ""
  },
  {
   "property": "C67",
   "status": "partial",
   "theorems": [
    "Verif.Props.C67_pseudo_2d_violation",
    "Verif.Props.C67_null_space_violation"
   ],
   "note": "False: with pseudo_2d_oz every run raises (C67_pseudo_2d_violation) and every step with null-space smoothing raises (C67_null_space_violation)."
  },
  {
   "property": "C68",
   "status": "proved",
   "theorems": [
    "Verif.Props.C68_filter_zones"
   ],
   "note": ""
  },
  {
   "property": "C69",
   "status": "proved",
   "theorems": [
    "Verif.Props.C69_filter_variables",
    "Verif.Props.C69_columns"
   ],
   "note": ""
  },
  {
   "property": "C70",
   "status": "partial",
   "theorems": [
    "Verif.Props.C70_merge_partial",
    "Verif.Props.C70_order_violation",
    "Verif.Props.C70_twice_violation"
   ],
   "note": "False for another order of variables (C70_order_violation) and for a variable that contains a wanted name (C70_twice_violation). Proved when each wanted variable is found once and in the usual order."
  },
  {
   "property": "C71",
   "status": "proved",
   "theorems": [
    "Verif.Props.C71_htc",
    "Verif.Props.C71_division_by_zero",
    "Verif.Props.C71_no_value"
   ],
   "note": ""
  },
  {
   "property": "C72",
   "status": "proved",
   "theorems": [
    "Verif.Props.C72_nodes_to_faces"
   ],
   "note": ""
  },
  {
   "property": "C73",
   "status": "proved",
   "theorems": [
    "Verif.Props.C73_interpolation",
    "Verif.Props.C73_add_beta"
   ],
   "note": ""
  },
  {
   "property": "C74",
   "status": "proved",
   "theorems": [
    "Verif.Props.C74_order",
    "Verif.Props.C74_pairs"
   ],
   "note": ""
  },
  {
   "property": "C75",
   "status": "partial",
   "theorems": [
    "Verif.Props.C75_ansys_partial",
    "Verif.Props.C75_lazurit"
   ],
   "note": "ANSYS: proved for files whose wanted variables are found once and in the usual order (see C70) and whose nodes are readable and not at the temperature of the adiabatic wall. LAZURIT: proved for every directory of well-formed pairs."
  },
  {
   "property": "C76",
   "status": "proved",
   "theorems": [
    "Verif.Props.C76_collapse_edge",
    "Verif.Props.C76_middle_point",
    "Verif.Props.C76_identifiers",
    "Verif.Props.C76_euler",
    "Verif.Props.C76_border",
    "Verif.Props.C76_identifiers_violation",
    "Verif.Props.C76_dangling_violation",
    "Verif.Props.C76_tetrahedron_violation"
   ],
   "note": "The conditions are necessary: C76_dangling_violation (no neighbour behind the other sides), C76_tetrahedron_violation (twins), C37_collapse_edge_error (no third face). Numbering: equivalence in C76_identifiers, broken in C76_identifiers_violation."
  },
  {
   "property": "C77",
   "status": "proved",
   "theorems": [
    "Verif.Props.C77_refined_grid",
    "Verif.Props.C77_roundtrip",
    "Verif.Props.C77_cross_zone_violation"
   ],
   "note": "Each transformation within one zone (Op.InZone); C77_cross_zone_violation shows that this is needed. collapse_edge under the conditions of C76 and LastIds."
  },
  {
   "property": "C78",
   "status": "proved",
   "theorems": [
    "Verif.Props.C78_positions",
    "Verif.Props.C78_own_iff",
    "Verif.Props.C78_refined_violation"
   ],
   "note": "C78_refined_violation: one divide_face on the two-zone sample mixes up results."
  },
  {
   "property": "C79",
   "status": "proved",
   "theorems": [
    "Verif.Props.C79_air",
    "Verif.Props.C79_truncated",
    "Verif.Props.C79_no_air"
   ],
   "note": ""
  },
  {
   "property": "C80",
   "status": "proved",
   "theorems": [
    "Verif.Props.C80_trajectories"
   ],
   "note": ""
  },
  {
   "property": "C81",
   "status": "partial",
   "theorems": [
    "Verif.Props.C81_file",
    "Verif.Props.C81_recorded_partial",
    "Verif.Props.C81_lost",
    "Verif.Props.C81_lost_violation"
   ],
   "note": "C81_file describes the file completely. The claim about MImp2 is false when the grid does not have this variable and no droplet lands on the first face: C81_lost (for all grids), C81_lost_violation (a file of two triangles). Proved for grids that have the variable."
  },
  {
   "property": "C82",
   "status": "partial",
   "theorems": [
    "Verif.Props.C82_options",
    "Verif.Props.C82_heating_partial",
    "Verif.Props.C82_incomplete",
    "Verif.Props.C82_no_object",
    "Verif.Props.C82_incomplete_violation"
   ],
   "note": "C82_options: all three options, for every JSON file whose heating elements all have a zone; C82_heating_partial: then their zones survive. False when one element lacks the zone: all fixed zones are forgotten (C82_incomplete, C82_incomplete_violation)."
  },
  {
   "property": "C83",
   "status": "proved",
   "theorems": [
    "Verif.Props.C83_options",
    "Verif.Props.C83_file"
   ],
   "note": ""
  },
  {
   "property": "C84",
   "status": "partial",
   "theorems": [
    "Verif.Props.C84_all",
    "Verif.Props.C84_name",
    "Verif.Props.C84_distinct_partial",
    "Verif.Props.C84_collision_violation"
   ],
   "note": "C84_all and C84_name describe the results and their names completely. Different names are proved for meshes without _r_ in the name (C84_distinct_partial), in general it is false (C84_collision_violation)."
  },
  {
   "property": "C85",
   "status": "partial",
   "theorems": [
    "Verif.Props.C85_store_partial",
    "Verif.Props.C85_export_violation",
    "Verif.Props.C85_keyword_violation",
    "Verif.Props.C85_count"
   ],
   "note": "C85_store_partial: files that gsu.Grid.store wrote, for zone names without the words EXPORT_MODE, TITLE, VARIABLES (a zone with such a name is silently left out: C85_keyword_violation). Files of Export are refused whenever the first zone has a face: C85_export_violation."
  },
  {
   "property": "C86",
   "status": "proved",
   "theorems": [
    "Verif.Props.C86_links",
    "Verif.Props.C86_delete",
    "Verif.Props.C86_replace"
   ],
   "note": ""
  },
  {
   "property": "C87",
   "status": "proved",
   "theorems": [
    "Verif.Props.C87_angle",
    "Verif.Props.C87_zero",
    "Verif.Props.C87_corners",
    "Verif.Props.C87_equal_corners",
    "Verif.Props.C87_bounds"
   ],
   "note": ""
  },
  {
   "property": "C88",
   "status": "partial",
   "theorems": [
    "Verif.Props.C88_place",
    "Verif.Props.C88_inside_partial",
    "Verif.Props.C88_exact",
    "Verif.Props.C88_near",
    "Verif.Props.C88_small_violation",
    "Verif.Props.C88_outside_violation"
   ],
   "note": "C88_inside_partial: triangles with an area of at least 0.15, any rounding to 1e-10; C88_exact and C88_near: all triangles without rounding. False for triangles with an area below 0.5e-10 (C88_small_violation) and for points just outside (C88_outside_violation)."
  },
  {
   "property": "C89",
   "status": "proved",
   "theorems": [
    "Verif.Props.C89_plane",
    "Verif.Props.C89_symm",
    "Verif.Props.C89_trans",
    "Verif.Props.C89_degenerate",
    "Verif.Props.C89_symm_violation"
   ],
   "note": "All cases: C89_plane, C89_symm, C89_trans for triangles that are not degenerate, C89_degenerate for the others (so symmetry fails there: C89_symm_violation)."
  },
  {
   "property": "C90",
   "status": "partial",
   "theorems": [
    "Verif.Props.C90_order_partial",
    "Verif.Props.C90_sort_unique",
    "Verif.Props.C90_asymm_violation",
    "Verif.Props.C90_trans_violation",
    "Verif.Props.C90_eq",
    "Verif.Props.C90_eq_exact",
    "Verif.Props.C90_eq_violation",
    "Verif.Props.C90_intersection"
   ],
   "note": "C90_order_partial, C90_sort_unique, C90_eq_exact, C90_intersection: points whose coordinates are equal or at least 1e-10 apart. Otherwise < is neither asymmetric nor transitive and == is not transitive (violations)."
  },
  {
   "property": "C91",
   "status": "partial",
   "theorems": [
    "Verif.Props.C91_same",
    "Verif.Props.C91_near_partial",
    "Verif.Props.C91_degenerate_violation"
   ],
   "note": "Same corners: equal (C91_same). Equal: same corners up to 5e-10 if the first two corners are 2e-10 apart (C91_near_partial); false for degenerate triangles (C91_degenerate_violation)."
  },
  {
   "property": "C92",
   "status": "partial",
   "theorems": [
    "Verif.Props.C92_on",
    "Verif.Props.C92_near_partial",
    "Verif.Props.C92_off_violation"
   ],
   "note": "Points of the segment are accepted (C92_on); accepted points are within 1e-4 of the length of the segment (C92_near_partial), but need not be on it (C92_off_violation)."
  },
  {
   "property": "C93",
   "status": "partial",
   "theorems": [
    "Verif.Props.C93_jobs",
    "Verif.Props.C93_outcome_partial",
    "Verif.Props.C93_shared_edge_violation",
    "Verif.Props.C93_unchanged",
    "Verif.Props.C93_sample_violation",
    "Verif.Props.C93_touch_inside",
    "Verif.Props.C93_touch_side",
    "Verif.Props.C93_touch_two",
    "Verif.Props.C93_touch_violation"
   ],
   "note": "C93_outcome_partial: for separated points it is said exactly when refine fails, and that otherwise the result is as stated, except that points of an edge cut before by another job are ignored (Refined). It fails whenever two faces have points on their common edge (C93_shared_edge_violation, C93_sample_violation). C93_touch_inside, C93_touch_side, C93_touch_two: with one job only, points at the places of nodes or of each other: nodes are used again and the Euler characteristic changes (C93_touch_violation: a corner that touches another triangle). Not covered: several jobs with points that are equal up to rounding."
  },
  {
   "property": "C94",
   "status": "partial",
   "theorems": [
    "Verif.Props.C94_choice",
    "Verif.Props.C94_on_side_partial",
    "Verif.Props.C94_near_violation"
   ],
   "note": "C94_choice says which side is chosen for every point; it is right for points exactly on a side (C94_on_side_partial). A point 1e-11 from a side is taken for a point of another side (C94_near_violation)."
  },
  {
   "property": "C95",
   "status": "partial",
   "theorems": [
    "Verif.Props.C95_merged_partial",
    "Verif.Props.C95_empty_violation",
    "Verif.Props.C95_foreign_violation"
   ],
   "note": "C95_merged_partial: one entry for every triangle, all its points up to chains of near points, only points that were found for some triangle. The points may belong to another triangle (C95_foreign_violation); nothing found is an IndexError (C95_empty_violation)."
  },
  {
   "property": "C96",
   "status": "partial",
   "theorems": [
    "Verif.Props.C96_empty_violation",
    "Verif.Props.C96_program",
    "Verif.Props.C96_no_contact_violation",
    "Verif.Props.C96_one_face_violation",
    "Verif.Props.C96_file_partial",
    "Verif.Props.C96_crossing_violation"
   ],
   "note": "C96_program reduces the program to C93 for all grids and orders; C96_file_partial: when no edge between zones is cut, the file can be read again and has the zones and the refined triangles. Fails without intersections (C96_no_contact_violation, C96_one_face_violation, C96_empty_violation); two triangles that cross each other usually stay as they are (C96_crossing_violation). The import lines of the program fail; the model is of the code behind them."
  },
  {
   "property": "C97",
   "status": "partial",
   "theorems": [
    "Verif.Props.C97_exchange_idle",
    "Verif.Props.C97_heights_partial",
    "Verif.Props.C97_exactly",
    "Verif.Props.C97_file",
    "Verif.Props.C97_violation"
   ],
   "note": "True exactly for the zones said in C97_exactly: all of them if the number of processes divides the number of faces (C97_heights_partial, C97_file), otherwise only the first ones (C97_violation: three faces, two processes). C97_exchange_idle: the exchanges send what the other process has read from the file itself, the computed heights are not sent. Sends whose buffers are read late are left to C58."
  },
  {
   "property": "C98",
   "status": "partial",
   "theorems": [
    "Verif.Props.C98_coords",
    "Verif.Props.C98_connectivity",
    "Verif.Props.C98_fits_partial",
    "Verif.Props.C98_one_zone",
    "Verif.Props.C98_variables",
    "Verif.Props.C98_variables_partial",
    "Verif.Props.C98_slices",
    "Verif.Props.C98_no_float",
    "Verif.Props.C98_quality",
    "Verif.Props.C98_second_zone_violation",
    "Verif.Props.C98_zero_violation"
   ],
   "note": "C98_fits_partial: the connectivity fits the coordinates exactly if the nodes of the zone are the first nodes of the grid (C98_second_zone_violation). C98_variables_partial: MImp2, Vd2 and RecoveryFactor are always zero (C98_zero_violation). C98_no_float: with a numpy without np.float both arrays raise AttributeError."
  },
  {
   "property": "C99",
   "status": "partial",
   "theorems": [
    "Verif.Props.C99_made",
    "Verif.Props.C99_table",
    "Verif.Props.C99_between",
    "Verif.Props.C99_outside",
    "Verif.Props.C99_monotone",
    "Verif.Props.C99_range_partial",
    "Verif.Props.C99_continuous",
    "Verif.Props.C99_fitted",
    "Verif.Props.C99_polynomial",
    "Verif.Props.C99_constant",
    "Verif.Props.C99_tables",
    "Verif.Props.C99_viscosity_violation",
    "Verif.Props.C99_units_violation"
   ],
   "note": "True for arguments within the table (C99_range_partial); outside the lines go on (C99_outside), so that viscosity gets negative (C99_viscosity_violation). The table of the heat of vaporization is in other units than that of sublimation (C99_units_violation). scipy is modelled by the polygon, curve_fit is an argument."
  },
  {
   "property": "C100",
   "status": "proved",
   "theorems": [
    "Verif.Props.C100_consistent",
    "Verif.Props.C100_euler",
    "Verif.Props.C100_closed",
    "Verif.Props.C100_goes_on",
    "Verif.Props.C100_loaded",
    "Verif.Props.C100_loose_violation"
   ],
   "note": "Allowed steps are defined in Spec/Session.lean; for collapse_edge they include LastIds, without which identifiers get wrong (C76_identifiers_violation). Covered is a hypothesis on the first grid; without it the Euler characteristic changes when the grid is stored and loaded (C100_loose_violation)."
  },
  {
   "property": "C101",
   "status": "proved",
   "theorems": [
    "Verif.Props.C101_divide_face",
    "Verif.Props.C101_cut_single_edge",
    "Verif.Props.C101_cut_edge",
    "Verif.Props.C101_corner_violation"
   ],
   "note": "The exact condition (Unjoined, Spec/Again.lean) under which the mesh stays consistent is proved both ways; C101_corner_violation: dividing a face at one of its own corners (a small face whose centroid rounds to a corner) silently gives an edge from a node to itself. For cut_edge_with_two_nodes see C106."
  },
  {
   "property": "C102",
   "status": "partial",
   "theorems": [
    "Verif.Props.C102_sum_partial",
    "Verif.Props.C102_none",
    "Verif.Props.C102_order",
    "Verif.Props.C102_rows_partial",
    "Verif.Props.C102_ragged",
    "Verif.Props.C102_column_violation",
    "Verif.Props.C102_again_violation",
    "Verif.Props.C102_rows_violation",
    "Verif.Props.C102_name_violation"
   ],
   "note": "Proved for tables with equal numbers of rows and columns (exact for floats, order of files irrelevant with an associative addition). Violated: a table with one row is added to every row of the others silently, or is a ValueError if it is listed first (C102_rows_violation); names and times are not checked (C102_name_violation); with the destination inside the source directory a second run doubles all totals (C102_again_violation, for all tables)."
  },
  {
   "property": "C103",
   "status": "partial",
   "theorems": [
    "Verif.Props.C103_names",
    "Verif.Props.C103_names_violation",
    "Verif.Props.C103_shifts",
    "Verif.Props.C103_fixed_partial",
    "Verif.Props.C103_fixed_violation",
    "Verif.Props.C103_key_violation"
   ],
   "note": "Boundary nodes are kept if mark_all_fixed_nodes was called before; without it the option makes no difference, for every freshly loaded grid (C103_fixed_violation). Names sort in the right order below 1000 iterations (C103_names_violation for 1000). Moved nodes keep the rounded coordinates of the old place (C103_key_violation)."
  },
  {
   "property": "C104",
   "status": "partial",
   "theorems": [
    "Verif.Props.C104_check",
    "Verif.Props.C104_search",
    "Verif.Props.C104_collapse_face",
    "Verif.Props.C104_collapse_edge_partial",
    "Verif.Props.C104_collapse_edge_none",
    "Verif.Props.C104_divide_face",
    "Verif.Props.C104_divide_face_violation",
    "Verif.Props.C104_cut_edge",
    "Verif.Props.C104_cut_single_edge",
    "Verif.Props.C104_two_nodes",
    "Verif.Props.C104_closed_violation",
    "Verif.Props.C104_collapse_edge_violation"
   ],
   "note": "All parts hold if the centre of the face is at a new place; with a node there the part divide_face fails (C104_divide_face_violation). Part collapse_edge passes exactly if the greatest identifiers belong to the last remaining objects; a consistent grid on which it fails is C104_collapse_edge_violation. On closed surfaces the parts that need an edge with one face end with IndexError (C104_closed_violation)."
  },
  {
   "property": "C105",
   "status": "partial",
   "theorems": [
    "Verif.Props.C105_hi",
    "Verif.Props.C105_bounds",
    "Verif.Props.C105_solve",
    "Verif.Props.C105_crys_partial"
   ],
   "note": "swim.hi is characterised completely, including the access outside of arrays when the second or third array is shorter (C105_bounds). The statement on crys.py holds when the number of processes divides the number of faces; see C97 for the other case."
  },
  {
   "property": "C106",
   "status": "proved",
   "theorems": [
    "Verif.Props.C106_one_face",
    "Verif.Props.C106_two_faces",
    "Verif.Props.C106_same_place_violation"
   ],
   "note": "The exact condition (CutFits, Spec/Again.lean) under which the mesh stays consistent is proved both ways, for edges with one and with two faces. C106_same_place_violation: two points which round to the same place are not refused and give a face with two corners and an edge from a node to itself, on every consistent grid."
  },
  {
   "property": "C107",
   "status": "partial",
   "theorems": [
    "Verif.Props.C107_border_count",
    "Verif.Props.C107_divide_face",
    "Verif.Props.C107_cut_single_edge",
    "Verif.Props.C107_cut_edge",
    "Verif.Props.C107_two_nodes",
    "Verif.Props.C107_collapse_face",
    "Verif.Props.C107_step",
    "Verif.Props.C107_sequences",
    "Verif.Props.C107_collapse_edge",
    "Verif.Props.C107_collapse_edge_partial",
    "Verif.Props.C107_closed",
    "Verif.Props.C107_pinch_violation"
   ],
   "note": "Proved for all transformations but for splitting by collapse_edge, which happens: C107_pinch_violation shrinks an inner edge between two border nodes, and one piece becomes two though the result is a consistent grid. C107_collapse_edge_partial: no piece is split if all edges at one end of the edge have two faces; hence C107_closed for any sequence of transformations of closed surfaces."
  },
  {
   "property": "C108",
   "status": "proved",
   "theorems": [
    "Verif.Props.C108_forgets",
    "Verif.Props.C108_returns_iff",
    "Verif.Props.C108_name",
    "Verif.Props.C108_files",
    "Verif.Props.C108_repeat",
    "Verif.Props.C108_nothing_kept",
    "Verif.Props.C108_history",
    "Verif.Props.C108_repeat_kept_violation"
   ],
   "note": "Proved by a simulation between the two runs under a renaming of zone objects. C108_repeat_kept_violation shows why the zones to keep have to be the same: a call told to keep a zone with a name it gives itself grows by a zone when repeated."
  },
  {
   "property": "C109",
   "status": "partial",
   "theorems": [
    "Verif.Props.C109_area",
    "Verif.Props.C109_divide_face",
    "Verif.Props.C109_divide_face_anywhere",
    "Verif.Props.C109_cut_single_edge",
    "Verif.Props.C109_cut_edge",
    "Verif.Props.C109_cut_two_anywhere",
    "Verif.Props.C109_cut_two_partial",
    "Verif.Props.C109_order_violation",
    "Verif.Props.C109_sequence",
    "Verif.Props.C109_water",
    "Verif.Props.C109_refine_steps",
    "Verif.Props.C109_refine_partial",
    "Verif.Props.C109_refine_violation"
   ],
   "note": "Proved with the exact change of the sums for points anywhere on the plane of the face or the line of the edge, and for the refining program when its points fit. Missing: two points given in the order opposite to the ends of the edge, where the claim is false (C109_order_violation); the refining program does not order them (C109_refine_violation)."
  },
  {
   "property": "C110",
   "status": "partial",
   "theorems": [
    "Verif.Props.C110_cut_partial",
    "Verif.Props.C110_boundary_violation",
    "Verif.Props.C110_digit_violation",
    "Verif.Props.C110_few_nodes",
    "Verif.Props.C110_results_violation",
    "Verif.Props.C110_results_line_violation"
   ],
   "note": "Proved: every beginning that loads at all gives the first zones exactly, and possibly the next zone with the last number missing some of its last digits; with fewer than ten nodes in that zone it is complete. False as a refusal: a cut after any zone loads (C110_boundary_violation), a cut inside of the last number of a zone loads a wrong face (C110_digit_violation), a results file cut after any line loads (C110_results_violation)."
  },
  {
   "property": "C111",
   "status": "partial",
   "theorems": [
    "Verif.Props.C111_agrees",
    "Verif.Props.C111_surface",
    "Verif.Props.C111_mono_returns",
    "Verif.Props.C111_random_raises_iff",
    "Verif.Props.C111_linear_raises_iff",
    "Verif.Props.C111_farhat_raises_iff",
    "Verif.Props.C111_linear_zero",
    "Verif.Props.C111_stuck_violation",
    "Verif.Props.C111_stuck_forever",
    "Verif.Props.C111_recovers_partial",
    "Verif.Props.C111_store_violation",
    "Verif.Props.C111_reload_violation"
   ],
   "note": "Proved: whatever the outcome nothing but zones and the name changes; exactly which calls raise; after a failing decompose_hierarchical with at least one level any decompose_mono/random/linear gives what it gave before. False otherwise: asked for no zones or no levels the calls raise after the zones are gone (C111_stuck_violation), every later decomposition raises then (C111_stuck_forever), and store writes a file without zones (C111_store_violation, C111_reload_violation)."
  },
  {
   "property": "C112",
   "status": "partial",
   "theorems": [
    "Verif.Props.C112_agrees",
    "Verif.Props.C112_missing_file_violation",
    "Verif.Props.C112_left_partial",
    "Verif.Props.C112_next",
    "Verif.Props.C112_half_violation"
   ],
   "note": "load is modelled a second time line by line, with the grid an exception leaves behind, and proved to give the same grids as the model used elsewhere (C112_agrees). False: load clears the grid before it opens the file (C112_missing_file_violation) and leaves half of the new file (C112_half_violation). Proved: exactly what can be left (C112_left_partial), and that a later load does not depend on it (C112_next)."
  },
  {
   "property": "C113",
   "status": "partial",
   "theorems": [
    "Verif.Props.C113_agrees",
    "Verif.Props.C113_missing_file",
    "Verif.Props.C113_left_partial",
    "Verif.Props.C113_again",
    "Verif.Props.C113_mixed_violation"
   ],
   "note": "False: the lines before the first bad one have been applied, so results of two times are mixed (C113_mixed_violation). Proved: exactly what is applied (C113_left_partial), and that loading a complete repaired file afterwards gives the same as loading it in the first place (C113_again). The model with the grid left behind agrees with the model of C24 (C113_agrees)."
  },
  {
   "property": "C114",
   "status": "partial",
   "theorems": [
    "Verif.Props.C114_agrees",
    "Verif.Props.C114_no_faces",
    "Verif.Props.C114_returns_iff",
    "Verif.Props.C114_lost_partial",
    "Verif.Props.C114_counted",
    "Verif.Props.C114_destroyed_violation"
   ],
   "note": "False: storing a grid after collapse_edge can raise, and the old file is then lost (C114_destroyed_violation). Proved: exactly when store returns (C114_returns_iff), what is in the file otherwise (C114_lost_partial), that a grid without faces leaves the file alone (C114_no_faces), and that grids whose identifiers count the nodes are always stored (C114_counted). Not modelled: a file that cannot be opened or written."
  },
  {
   "property": "C115",
   "status": "partial",
   "theorems": [
    "Verif.Props.C115_agrees",
    "Verif.Props.C115_others_partial",
    "Verif.Props.C115_torn_violation",
    "Verif.Props.C115_pendant_violation",
    "Verif.Props.C115_square_violation"
   ],
   "note": "False for collapse_edge: whenever it raises on a consistent grid the edge and both of its faces are gone (C115_torn_violation), and it always raises if the second end has no other faces (C115_pendant_violation; C115_square_violation is a concrete case). Proved: the other five never raise on a consistent grid, whatever the points and the comparison (C115_others_partial)."
  },
  {
   "property": "C116",
   "status": "proved",
   "theorems": [
    "Verif.Props.C116_reads_back",
    "Verif.Props.C116_contents",
    "Verif.Props.C116_injective"
   ],
   "note": ""
  },
  {
   "property": "C117",
   "status": "partial",
   "theorems": [
    "Verif.Props.C117_merge_partial",
    "Verif.Props.C117_lost_violation",
    "Verif.Props.C117_stale_violation"
   ],
   "note": "False: merge writes a file for every time for which there is any result and tells nobody. If the zone of the first face has no results, computed variables which are not in the grid file are lost for all zones (C117_lost_violation); otherwise the faces of the missing zones keep what the grid file says, or zero (C117_stale_violation). Proved: what exactly is written for every set of missing results (C117_merge_partial)."
  },
  {
   "property": "C118",
   "status": "proved",
   "theorems": [
    "Verif.Props.C118_zone_border",
    "Verif.Props.C118_longest_border",
    "Verif.Props.C118_no_zones"
   ],
   "note": ""
  },
  {
   "property": "C119",
   "status": "proved",
   "theorems": [
    "Verif.Props.C119_read_back",
    "Verif.Props.C119_digits",
    "Verif.Props.C119_sixteen_violation",
    "Verif.Props.C119_lawful",
    "Verif.Props.C119_nearest",
    "Verif.Props.C119_text",
    "Verif.Props.C119_number",
    "Verif.Props.C119_name",
    "Verif.Props.C119_only",
    "Verif.Props.C119_stored"
   ],
   "note": "For the real binary64 format: every float is read back from the text with 18 decimals (16 decimals suffice, 15 do not: C119_sixteen_violation), the text is the nearest one of its form, and a stored grid of floats is loaded as it was. float() accepts exactly the texts of numbers (grammar in Spec/FloatText.lean) and the names of infinity and NaN, and gives the nearest float, ties to even, infinity from half a unit above the largest float on."
  },
  {
   "property": "C120",
   "status": "partial",
   "theorems": [
    "Verif.Props.C120_round",
    "Verif.Props.C120_merged_partial",
    "Verif.Props.C120_moved_partial",
    "Verif.Props.C120_kept_partial",
    "Verif.Props.C120_close_violation"
   ],
   "note": "False: neighbouring floats on both sides of a half can stay different nodes (C120_close_violation). Proved for coordinates of any size: points become one node exactly when their coordinates agree after rounding to ten decimals, so points more than 1e-10 apart in a coordinate stay different and no corner moves by more than 1e-10."
  },
  {
   "property": "C121",
   "status": "partial",
   "theorems": [
    "Verif.Props.C121_export_partial",
    "Verif.Props.C121_text",
    "Verif.Props.C121_error_partial",
    "Verif.Props.C121_same",
    "Verif.Props.C121_apart_partial",
    "Verif.Props.C121_lost_violation"
   ],
   "note": "False: Export writes six decimals, so numbers below 5e-7 become zero and nodes that differ become one (C121_lost_violation). Proved: what is read is the grid of the numbers rounded to six decimals, each number changes by at most 1e-6, and points more than 2.1e-6 apart stay different nodes."
  },
  {
   "property": "C122",
   "status": "partial",
   "theorems": [
    "Verif.Props.C122_add",
    "Verif.Props.C122_infinite",
    "Verif.Props.C122_near_partial",
    "Verif.Props.C122_two",
    "Verif.Props.C122_order_violation"
   ],
   "note": "False: with three files the order in which os.listdir gives them changes the written total, e.g. 0.1, 0.2, 0.3 (C122_order_violation). Proved with real binary64 addition: a finite total is made of finite values and differs from the exact sum by at most ((1 + 2^-53)^k - 1) times the sum of absolute values for k additions, whatever the order; two files give the same in both orders."
  },
  {
   "property": "C123",
   "status": "proved",
   "theorems": [
    "Verif.Props.C123_line",
    "Verif.Props.C123_no_edges"
   ],
   "note": "With binary64 arithmetic; the bound of 2^38 edges keeps the rounding of the quotient from changing the printed digits."
  },
  {
   "property": "C124",
   "status": "proved",
   "theorems": [
    "Verif.Props.C124_any_zones",
    "Verif.Props.C124_info",
    "Verif.Props.C124_root",
    "Verif.Props.C124_head",
    "Verif.Props.C124_stops",
    "Verif.Props.C124_no_zones",
    "Verif.Props.C124_order_violation"
   ],
   "note": "All flags, real binary64 arithmetic including the square root. C124_any_zones is the statement, C124_info the case without empty zones. C124_order_violation: an empty zone in front makes the printed least and greatest quality factors nan. C124_head: the head is printed for any grid; C124_stops, C124_no_zones: what is printed before the exception when the matrix cannot be built or there are no zones. The least and greatest quality factors are compared as floats, so they are least and greatest up to 2e-9. C124_root: the root is correctly rounded."
  },
  {
   "property": "C125",
   "status": "partial",
   "theorems": [
    "Verif.Props.C125_names",
    "Verif.Props.C125_different_partial",
    "Verif.Props.C125_same_name_violation"
   ],
   "note": "C125_names is the first sentence in full. That all names are different (C125_different_partial) needs that fixed zones have different names not of this form: C125_same_name_violation."
  },
  {
   "property": "C126",
   "status": "proved",
   "theorems": [
    "Verif.Props.C126_load_store",
    "Verif.Props.C126_calc_data",
    "Verif.Props.C126_stall",
    "Verif.Props.C126_mpi",
    "Verif.Props.C126_decompose",
    "Verif.Props.C126_explode",
    "Verif.Props.C126_different_violation"
   ],
   "note": "From text to text. C126_different_violation: with a point that is not used in its zone the two files of case 001 are different."
  },
  {
   "property": "C127",
   "status": "proved",
   "theorems": [
    "Verif.Props.C127_order",
    "Verif.Props.C127_kinds",
    "Verif.Props.C127_identifiers"
   ],
   "note": "C127_order and C127_kinds; the correspondence is the structure Renumbers (Spec/Order.lean). C127_identifiers: identifiers of faces do change with the order, so a results file belongs to one order."
  },
  {
   "property": "C128",
   "status": "proved",
   "theorems": [
    "Verif.Props.C128_places",
    "Verif.Props.C128_adjacent",
    "Verif.Props.C128_face",
    "Verif.Props.C128_moved",
    "Verif.Props.C128_unmerged"
   ],
   "note": "C128_adjacent, C128_face, C128_places (any consistent grid), C128_moved, C128_unmerged (a pair of edges that are adjacent without a common end)."
  },
  {
   "property": "C129",
   "status": "proved",
   "theorems": [
    "Verif.Props.C129_turn",
    "Verif.Props.C129_turns",
    "Verif.Props.C129_returns",
    "Verif.Props.C129_cone",
    "Verif.Props.C129_length",
    "Verif.Props.C129_flat",
    "Verif.Props.C129_shorter",
    "Verif.Props.C129_zero_k",
    "Verif.Props.C129_movement"
   ],
   "note": "C129_turn, C129_turns, C129_returns, C129_cone, C129_flat, C129_length, C129_movement, C129_shorter, C129_zero_k. Exact arithmetic; the square root is any function with the properties of the square root."
  },
  {
   "property": "C130",
   "status": "proved",
   "theorems": [
    "Verif.Props.C130_turn",
    "Verif.Props.C130_down",
    "Verif.Props.C130_level",
    "Verif.Props.C130_nonneg",
    "Verif.Props.C130_beta_violation"
   ],
   "note": "C130_turn, C130_down, C130_level, C130_nonneg; C130_beta_violation is the witness for a large beta (two faces, beta = 6). Exact arithmetic."
  },
  {
   "property": "C131",
   "status": "proved",
   "theorems": [
    "Verif.Props.C131_fewest",
    "Verif.Props.C131_alone",
    "Verif.Props.C131_axes"
   ],
   "note": "C131_fewest, C131_alone, C131_axes. Sign functions take values in a linear order (no NaN); C131_axes over a field, exact arithmetic. When a split returns at all: C14."
  },
  {
   "property": "C132",
   "status": "partial",
   "theorems": [
    "Verif.Props.C132_newton",
    "Verif.Props.C132_line",
    "Verif.Props.C132_slower_partial",
    "Verif.Props.C132_overshoot_violation",
    "Verif.Props.C132_jump_violation"
   ],
   "note": "C132_newton and C132_line hold for all inputs with different velocities (equal ones: C47). C132_slower_partial: not faster exactly for time steps up to 2 * mass * speed / force; C132_overshoot_violation is a witness for longer ones. C132_jump_violation: at the Reynolds number 350 the acceleration jumps by more than a factor of four. Real numbers with the exact square root and power instead of doubles."
  },
  {
   "property": "C133",
   "status": "partial",
   "theorems": [
    "Verif.Props.C133_first_half",
    "Verif.Props.C133_balance_partial",
    "Verif.Props.C133_differ_partial",
    "Verif.Props.C133_count_partial",
    "Verif.Props.C133_uneven_violation"
   ],
   "note": "C133_balance_partial, C133_differ_partial, C133_count_partial for sign functions with different values on different faces. C133_first_half for all sign functions: the first half never has more than n / 2 faces. C133_uneven_violation: with the default functions four loaded faces are split into one and three because the centres of three of them have the same x."
  },
  {
   "property": "C134",
   "status": "proved",
   "theorems": [
    "Verif.Props.C134_two_levels"
   ],
   "note": "Whenever the call returns (when it does: C14). Sign functions with no face below the median do not compete."
  },
  {
   "property": "C135",
   "status": "proved",
   "theorems": [
    "Verif.Props.C135_refines",
    "Verif.Props.C135_cross"
   ],
   "note": "For all sign functions, also with equal values."
  },
  {
   "property": "C136",
   "status": "partial",
   "theorems": [
    "Verif.Props.C136_mono_partial",
    "Verif.Props.C136_first_partial",
    "Verif.Props.C136_star_violation"
   ],
   "note": "True for decompose_mono and for the first zone of decompose_farhat without fixed zones; for its other zones see the condition of C12. C136_star_violation: a loaded grid of four faces on which each of the three other decompositions into two makes a zone that is not connected."
  },
  {
   "property": "C137",
   "status": "proved",
   "theorems": [
    "Verif.Props.C137_order",
    "Verif.Props.C137_units"
   ],
   "note": "C137_order for all sign functions, results and exceptions alike; C137_units for exact arithmetic with the scaled and shifted centres as sign functions of the same grid (rounding of floats may merge values)."
  }
 ]
}