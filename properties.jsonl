{"id": "C01", "title": "Loaded mesh has consistent incidence", "statement": "After Grid.load succeeds on a file with no degenerate face (with node merging, the default; or without merging if the points of each zone are at different places), the links are mutually consistent: a node lists a face iff the face lists the node, an edge lists a face iff the face lists the edge, a node lists an edge iff the edge lists the node; every face has exactly 3 distinct nodes and 3 distinct edges, every edge joins exactly 2 distinct nodes and has 1 or 2 faces, each side of each face is one of its edges, and no two edges join the same pair of nodes.", "quantifier": "all zone lists / all files, any number of nodes, faces and zones", "why_tests_cant": "the invariant depends on every history of link operations and on how faces share corners; sample files exercise a vanishing part of the topologies", "anchors": ["crysgsu/gsu/grid.py:Grid.load", "crysgsu/gsu/grid.py:Grid.find_edge", "crysgsu/gsu/grid.py:Grid.complex_link_face_node_node_edge", "crysgsu/gsu/grid.py:Grid.link_edge_face"]}
{"id": "C02", "title": "Load rejects exactly the non-manifold files", "statement": "For a syntactically correct file with no degenerate face (with node merging, or without merging if the points of each zone are at different places), Grid.load raises 'Too many faces linking with this edge' if and only if some pair of nodes is a side of three or more faces.", "quantifier": "all syntactically correct grid contents", "why_tests_cant": "both directions of an iff over all inputs", "anchors": ["crysgsu/gsu/grid.py:Grid.link_edge_face", "crysgsu/gsu/grid.py:Grid.load"]}
{"id": "C03", "title": "Merging nodes on load", "statement": "After load with merging, no two nodes of the grid have equal rounded coordinates, every corner written in the file is represented by a node with the same rounded coordinates, and no exception 'We expect to find node' is ever raised. Without merging the number of nodes is the sum of the NODES counts.", "quantifier": "all files, all coordinates", "why_tests_cant": "quantifies over all coordinate collisions between all pairs of zones", "anchors": ["crysgsu/gsu/grid.py:Grid.find_near_node", "crysgsu/gsu/grid.py:Grid.add_node", "crysgsu/gsu/node.py:Node.is_near"]}
{"id": "C04", "title": "Global identifiers are positions, and decompositions do not touch them", "statement": "After load the i-th node, edge and face of the grid has GloId i. No decomposition changes node coordinates, face data, global identifiers or any node/edge/face link: it only changes zones.", "quantifier": "all grids, all decompositions, all sequences of decompositions", "why_tests_cant": "frame property over all executions", "anchors": ["crysgsu/gsu/grid.py:Grid.load", "crysgsu/gsu/grid.py:Grid.decompose_mono", "crysgsu/gsu/grid.py:Grid.decompose_random", "crysgsu/gsu/grid.py:Grid.decompose_linear", "crysgsu/gsu/grid.py:Grid.decompose_hierarchical", "crysgsu/gsu/grid.py:Grid.decompose_farhat"]}
{"id": "C05", "title": "Every face is in exactly one zone", "statement": "After load, and after every successful decomposition (in any order), each face of the grid occurs exactly once in the face lists of all the zones, in the list of the zone it points to; no other face occurs in a zone.", "quantifier": "all grids, all histories of decompositions", "why_tests_cant": "invariant over all histories", "anchors": ["crysgsu/gsu/zone.py:Zone.add_face", "crysgsu/gsu/face.py:Face.unlink_from_zone", "crysgsu/gsu/grid.py:Grid.decompose_*"]}
{"id": "C06", "title": "Zone node and edge lists are exact", "statement": "After load and after every decomposition a zone's node list consists of exactly the nodes that belong to a face of the zone, each once and in grid order; the same holds for its edge list.", "quantifier": "all grids and all zone assignments", "why_tests_cant": "exactness over all face/zone assignments", "anchors": ["crysgsu/gsu/grid.py:Grid.link_nodes_and_edges_to_zones"]}
{"id": "C07", "title": "decompose_mono", "statement": "decompose_mono yields exactly one zone 'mono' whose face list is the whole face list of the grid in order.", "quantifier": "all grids with all faces linked to zones", "why_tests_cant": "all inputs incl. grids with fixed zones from a former decomposition", "anchors": ["crysgsu/gsu/grid.py:Grid.decompose_mono"]}
{"id": "C08", "title": "decompose_random is a partition for every random outcome", "statement": "For every sequence of random numbers, decompose_random(count) yields exactly count zones named 'random i', and every face goes to the zone drawn for it.", "quantifier": "all grids, all counts, all random outcomes", "why_tests_cant": "tests see a single random outcome", "anchors": ["crysgsu/gsu/grid.py:Grid.decompose_random"]}
{"id": "C09", "title": "decompose_linear is balanced and contiguous", "statement": "For count >= 1 decompose_linear(count) never raises, yields count zones whose face lists concatenated in order give the grid's face list, and zone sizes differ by at most one with the larger ones first. For count = 0 it raises ZeroDivisionError.", "quantifier": "all grids, all counts", "why_tests_cant": "arithmetic over all sizes", "anchors": ["crysgsu/gsu/grid.py:Grid.decompose_linear"]}
{"id": "C10", "title": "BFS path visits every eligible face exactly once", "statement": "bfs_path terminates and returns each face satisfying the predicate exactly once and no other face, whatever the start face; each maximal connected group of eligible faces is contiguous in the path, and every face except the first of its group is adjacent to an earlier face of the path.", "quantifier": "all meshes, start faces and predicates", "why_tests_cant": "termination and completeness over all graphs", "anchors": ["crysgsu/gsu/grid.py:Grid.bfs_path", "crysgsu/gsu/grid.py:Grid.bfs_path_connectivity_component", "crysgsu/gsu/grid.py:Grid.get_no_bfs_mark_face"]}
{"id": "C11", "title": "decompose_farhat is a balanced partition that keeps fixed zones", "statement": "For count >= 1 on a non-empty grid decompose_farhat(count, fixed names) never raises; every zone whose name is in the list keeps exactly its faces, count new zones are appended, the remaining faces are distributed among them with sizes differing by at most one and each face in exactly one zone.", "quantifier": "all meshes, all counts, all lists of fixed names", "why_tests_cant": "relies on BFS completeness for all graphs and repeated calls", "anchors": ["crysgsu/gsu/grid.py:Grid.decompose_farhat"]}
{"id": "C12", "title": "Farhat zones are connected", "statement": "Each zone made by decompose_farhat is a prefix of a BFS path of the faces not yet assigned; if those faces are connected through shared edges then the zone is connected.", "quantifier": "all meshes and counts", "why_tests_cant": "graph property over all meshes", "anchors": ["crysgsu/gsu/grid.py:Grid.decompose_farhat", "crysgsu/gsu/grid.py:Grid.bfs_path"]}
{"id": "C13", "title": "decompose_hierarchical partitions when it succeeds", "statement": "Whenever decompose_hierarchical(levels, fixed) returns normally every face is in exactly one zone, zones with fixed names keep exactly their faces, at most 2^(levels-1) non-fixed zones exist and each split puts the faces strictly below the median in the left zone and the others in the right zone, none empty.", "quantifier": "all meshes, sign functions, levels, fixed names", "why_tests_cant": "invariant of a loop over all zone histories", "anchors": ["crysgsu/gsu/grid.py:Grid.decompose_hierarchical", "crysgsu/gsu/grid.py:Grid.split_zone", "crysgsu/gsu/grid.py:Grid.split_zone_metric"]}
{"id": "C14", "title": "decompose_hierarchical never crashes on a well-formed grid", "statement": "For levels >= 1 decompose_hierarchical returns normally on every well-formed grid (with a warning for a zone that cannot be split).", "quantifier": "all meshes", "why_tests_cant": "the failing histories are those in which a candidate split is empty for the last sign function, e.g. a planar grid", "anchors": ["crysgsu/gsu/grid.py:Grid.split_zone", "crysgsu/gsu/grid.py:Grid.split_zone_metric"]}
{"id": "C15", "title": "Zones adjacency matrix counts edges", "statement": "ZonesAdjacencyMatrix(edges, zones) is symmetric; the entry (i, j), i != j, is the number of edges whose two faces lie in zones i and j; the entry (i, i) is the number of edges with both faces in zone i; the last column counts the border edges of the zone; the corner is 0.", "quantifier": "all edge lists and zone lists", "why_tests_cant": "counting identity over all inputs", "anchors": ["crysgsu/gsu/zones_adjacency_matrix.py:ZonesAdjacencyMatrix"]}
{"id": "C16", "title": "Edges statistics add up", "statement": "edges_statistics returns counts of border, inner and cross edges whose sum is the number of edges, equal to the numbers of edges satisfying is_border, is_inner and is_cross, and percentages adding up to 100 (for a grid with at least one edge).", "quantifier": "all edge lists and zone lists", "why_tests_cant": "counting identity over all inputs", "anchors": ["crysgsu/gsu/zones_adjacency_matrix.py:ZonesAdjacencyMatrix.edges_statistics", "crysgsu/gsu/edge.py:Edge"]}
{"id": "C17", "title": "Every edge is exactly one of border, inner, cross", "statement": "For an edge with one or two faces exactly one of is_border, is_inner, is_cross is true; is_outer is the negation of is_inner; for any other number of faces is_cross and is_inner raise.", "quantifier": "all edges and zone assignments", "why_tests_cant": "all cases of a case analysis", "anchors": ["crysgsu/gsu/edge.py:Edge.is_border", "crysgsu/gsu/edge.py:Edge.is_cross", "crysgsu/gsu/edge.py:Edge.is_inner", "crysgsu/gsu/edge.py:Edge.is_outer"]}
{"id": "C18", "title": "MPI border lists of two zones match", "statement": "In the files written by store_mpi zone a lists a border with zone b iff zone b lists a border with zone a; both lists have the same length, equal to the adjacency matrix entry, and their k-th entries denote the same edge of the grid.", "quantifier": "all decomposed grids, all pairs of zones", "why_tests_cant": "relational property between files, over all grids", "anchors": ["crysgsu/gsu/grid.py:Grid.store_mpi", "crysgsu/gsu/zones_adjacency_matrix.py:ZonesAdjacencyMatrix.zone_cross_edges_array"]}
{"id": "C19", "title": "CROSS-EDGES and MPI-BORDERS headers are right", "statement": "In every file written by store_mpi the CROSS-EDGES value is the total length of its border lists and the MPI-BORDERS value is the number of border lists, and every border list is non-empty.", "quantifier": "all decomposed grids", "why_tests_cant": "counting identity over all inputs", "anchors": ["crysgsu/gsu/grid.py:Grid.store_mpi"]}
{"id": "C20", "title": "Local numbering in MPI files is faithful", "statement": "In every file written by store_mpi each local node (edge) number in a connectivity list is within range and denotes exactly the node (edge) of the face (edge) being described; following face->edge->node stays within the face's nodes.", "quantifier": "all decomposed grids", "why_tests_cant": "over all meshes and all zone assignments, with the numbering arrays shared between zones", "anchors": ["crysgsu/gsu/grid.py:Grid.store_mpi"]}
{"id": "C21", "title": "Every face is written to exactly one MPI file", "statement": "The GloId lines of all the files written by store_mpi together contain each face's GloId exactly once.", "quantifier": "all decomposed grids", "why_tests_cant": "over all grids", "anchors": ["crysgsu/gsu/grid.py:Grid.store_mpi", "crysgsu/gsu/zone.py:Zone.get_faces_global_ids_slice_str"]}
{"id": "C22", "title": "store then load preserves the grid", "statement": "Loading the file written by store gives a grid with the same title, the same zones (names in order) and, zone by zone and face by face, the same corner coordinates in the same order and the same data values.", "quantifier": "all well-formed grids whose names contain no '=' or newline and whose variables contain no separator", "why_tests_cant": "round trip over all grids, all strings and numbers", "anchors": ["crysgsu/gsu/grid.py:Grid.store", "crysgsu/gsu/grid.py:Grid.load"]}
{"id": "C23", "title": "store/load cycle is stable", "statement": "After one store/load cycle the text no longer changes: storing, loading and storing again a grid that was itself loaded from a stored file reproduces the stored text exactly.", "quantifier": "all stored files", "why_tests_cant": "idempotence over all grids", "anchors": ["crysgsu/gsu/grid.py:Grid.store", "crysgsu/gsu/grid.py:Grid.load"]}
{"id": "C24", "title": "Calculation data goes to the faces it names", "statement": "load_faces_calc_data sets the data of face number g, for every line starting with g, to the values of the last such line and leaves all the other faces unchanged; a number outside the grid raises IndexError.", "quantifier": "all files and grids", "why_tests_cant": "all orders and repetitions of lines", "anchors": ["crysgsu/gsu/grid.py:Grid.load_faces_calc_data"]}
{"id": "C25", "title": "split, compute, merge puts every result on its own face", "statement": "If a grid is decomposed in any way, each zone's program writes one line per face of its .cry file under the GloId found there, and the files are merged in any order into a freshly loaded copy of the grid, then every face gets exactly its own result.", "quantifier": "all grids, decompositions, results and file orders", "why_tests_cant": "end-to-end over all decompositions and schedules of file processing", "anchors": ["crysgsu/split.py:split", "crysgsu/merge.py:merge", "crysgsu/gsu/grid.py:Grid.store_mpi", "crysgsu/gsu/grid.py:Grid.load_faces_calc_data"]}
{"id": "C26", "title": "Grouping of result files by time stamp", "statement": "group_txt_files_by_timestamps puts every accepted file under its own time stamp exactly once and in the original order, gives no empty group and ignores no file.", "quantifier": "all lists of file names", "why_tests_cant": "all lists", "anchors": ["crysgsu/utils.py:group_txt_files_by_timestamps"]}
{"id": "C27", "title": "File names of MPI files are recognised", "statement": "A file name '<stem>_<zone:05d>_<12 digits>.<ext>' built by store_mpi is split by dummy_split_filename into exactly (stem, zone, time stamp, ext) and accepted by is_filename_correct_crys_<ext>_file, for every stem and every zone number below 100000; for larger zone numbers it is rejected.", "quantifier": "all stems, zone numbers and time stamps", "why_tests_cant": "all strings and numbers", "anchors": ["crysgsu/utils.py:dummy_split_filename", "crysgsu/utils.py:is_filename_correct_crys_cry_file", "crysgsu/utils.py:is_filename_correct_crys_txt_file", "crysgsu/gsu/grid.py:Grid.store_mpi"]}
{"id": "C28", "title": "Time stamp of a file name", "statement": "get_filename_and_timestamp_pair returns (b, t) for a name b_t with t of twelve digits and (name, '000000000000') otherwise, so the base and stamp always recompose the name.", "quantifier": "all file names", "why_tests_cant": "all strings, including those with a trailing newline", "anchors": ["crysgsu/utils.py:has_filename_timestamp", "crysgsu/utils.py:get_filename_and_timestamp_pair"]}
{"id": "C29", "title": "flatten keeps all leaves in order", "statement": "utils.flatten returns the leaves of any nested list, in left-to-right order, and no lists.", "quantifier": "all nested lists", "why_tests_cant": "all depths and shapes", "anchors": ["crysgsu/utils.py:flatten"]}
{"id": "C30", "title": "Split strategy decides the number of domains", "statement": "split with strategy 'n<k>' produces k zones in total (fixed ones included) and with 'h<k>' calls the hierarchical decomposition with 2^k leaves; a strategy demanding no more domains than fixed zones is rejected; one domain without fixed zones gives the mono grid.", "quantifier": "all strategies and fixed-zone lists", "why_tests_cant": "all combinations of options", "anchors": ["crysgsu/split.py:split"]}
{"id": "C31", "title": "Recovery factor is only filled in when missing", "statement": "split sets RecoveryFactor on every face that lacks it to the default from the json file and never changes a face that has it.", "quantifier": "all grids and defaults", "why_tests_cant": "all data dictionaries", "anchors": ["crysgsu/split.py:split"]}
{"id": "C32", "title": "divide_face keeps the mesh consistent", "statement": "divide_face(face, p) with p not coinciding with an existing node replaces the face by three faces around the new node; the result satisfies all incidence invariants of a loaded mesh, all other faces, edges and nodes keep their links, zone lists stay exact, and the three children carry the data and the zone of the parent.", "quantifier": "all well-formed meshes, faces and points", "why_tests_cant": "invariant over all meshes", "anchors": ["crysgsu/gsu/grid.py:Grid.divide_face", "crysgsu/gsu/grid.py:Grid.del_face"]}
{"id": "C33", "title": "cut_single_edge keeps the mesh consistent", "statement": "cut_single_edge(edge, p) on a border edge with p not coinciding with an existing node replaces its face by two faces; all incidence invariants hold afterwards, the children carry the data and zone of the parent; on a non-border edge nothing changes and False is returned.", "quantifier": "all well-formed meshes, border edges and points", "why_tests_cant": "invariant over all meshes", "anchors": ["crysgsu/gsu/grid.py:Grid.cut_single_edge", "crysgsu/gsu/grid.py:Grid.del_edge"]}
{"id": "C34", "title": "cut_edge keeps the mesh consistent", "statement": "cut_edge(edge, p) on an inner edge with p not coinciding with an existing node replaces its two faces by four; all incidence invariants hold afterwards, each child carries the data of the face it is part of; on a border edge nothing changes and False is returned.", "quantifier": "all well-formed meshes, inner edges and points", "why_tests_cant": "invariant over all meshes", "anchors": ["crysgsu/gsu/grid.py:Grid.cut_edge"]}
{"id": "C35", "title": "Children of a cut stay in the zone of their parent", "statement": "After cut_edge every new face lies in the zone of the face it is part of.", "quantifier": "all well-formed decomposed meshes", "why_tests_cant": "edges crossing zones", "anchors": ["crysgsu/gsu/grid.py:Grid.cut_edge", "crysgsu/gsu/grid.py:Grid.cut_edge_with_two_nodes", "crysgsu/gsu/grid.py:Grid.collapse_face"]}
{"id": "C36", "title": "collapse_face flips an edge consistently", "statement": "collapse_face(face) flips the longest edge of the face if it has two faces: the two triangles on the two other corners appear, all incidence invariants hold provided the opposite corners were not already joined by an edge; otherwise nothing changes and False is returned.", "quantifier": "all well-formed meshes and faces", "why_tests_cant": "invariant over all meshes", "anchors": ["crysgsu/gsu/grid.py:Grid.collapse_face", "crysgsu/gsu/face.py:Face.max_edge_from_face"]}
{"id": "C37", "title": "Global identifiers stay a permutation", "statement": "After divide_face, cut_edge, cut_single_edge, cut_edge_with_two_nodes, collapse_face and collapse_edge the global identifiers of nodes, edges and faces are exactly 0..count-1 without repetition.", "quantifier": "all meshes and all sequences of transformations", "why_tests_cant": "histories of transformations; collapse_edge depends on positions of removed objects in the lists", "anchors": ["crysgsu/gsu/grid.py:Grid.divide_face", "crysgsu/gsu/grid.py:Grid.cut_edge", "crysgsu/gsu/grid.py:Grid.cut_single_edge", "crysgsu/gsu/grid.py:Grid.collapse_face", "crysgsu/gsu/grid.py:Grid.collapse_edge", "crysgsu/gsu/grid.py:Grid.cut_edge_with_two_nodes"]}
{"id": "C38", "title": "Euler characteristic is kept by refinement", "statement": "divide_face, cut_edge, cut_single_edge, cut_edge_with_two_nodes and collapse_face keep nodes - edges + faces unchanged, with the exact documented changes of the three counts.", "quantifier": "all meshes", "why_tests_cant": "over all meshes and sequences", "anchors": ["crysgsu/gsu/grid.py:Grid.divide_face", "crysgsu/gsu/grid.py:Grid.cut_edge", "crysgsu/gsu/grid.py:Grid.cut_single_edge", "crysgsu/gsu/grid.py:Grid.cut_edge_with_two_nodes", "crysgsu/gsu/grid.py:Grid.collapse_face"]}
{"id": "C39", "title": "Refinement keeps the orientation of faces", "statement": "The child faces produced by divide_face, cut_edge and cut_single_edge have normals pointing to the same side as the parent face.", "quantifier": "all triangles and cut points", "why_tests_cant": "geometric statement over all real coordinates", "anchors": ["crysgsu/gsu/grid.py:Grid.divide_face", "crysgsu/gsu/grid.py:Grid.cut_edge", "crysgsu/gsu/grid.py:Grid.cut_single_edge"]}
{"id": "C40", "title": "Box is the tight bounding box", "statement": "Box(points) contains every given point, and every box containing all the points contains it; building from an empty list raises ValueError.", "quantifier": "all lists of points", "why_tests_cant": "all inputs", "anchors": ["crysgsu/geom/box.py:Box"]}
{"id": "C41", "title": "Box pre-checks never lose an intersection", "statement": "Box.is_intersect_with_segment (and the box/box check) returns True whenever the segment (other box) has a point in common with the box.", "quantifier": "all boxes, segments", "why_tests_cant": "all real coordinates", "anchors": ["crysgsu/geom/box.py:Box"]}
{"id": "C42", "title": "Triangles cloud keeps all triangles and is well founded", "statement": "Building TrianglesCloud from a non-empty list terminates; its leaves contain exactly the given triangles (with multiplicity), every inner node has two non-empty parts and the box of every node contains all the triangles below it.", "quantifier": "all non-empty lists of triangles", "why_tests_cant": "recursion over all inputs incl. equal and degenerate triangles", "anchors": ["crysgsu/geom/triangles_cloud.py:TrianglesCloud"]}
{"id": "C43", "title": "Cloud search agrees with linear search", "statement": "first_intersection_with_segment returns None iff no triangle of the list intersects the segment, and otherwise a triangle of the list that does.", "quantifier": "all lists of triangles and segments", "why_tests_cant": "pruning correctness over all inputs", "anchors": ["crysgsu/geom/triangles_cloud.py:TrianglesCloud.first_intersection_with_segment"]}
{"id": "C44", "title": "Cloud-cloud intersection reports all pairs", "statement": "intersection_with_triangles_cloud reports exactly the intersecting pairs of triangles of two clouds, each as often as the brute-force double loop does.", "quantifier": "all pairs of triangle lists", "why_tests_cant": "pruning correctness over all inputs", "anchors": ["crysgsu/geom/triangles_cloud.py:TrianglesCloud.intersection_with_triangles_cloud"]}
{"id": "C45", "title": "Triangle-segment intersection is exact in general position", "statement": "For a segment not parallel to the plane of the triangle intersection_with_segment returns exactly the common points of segment and triangle (none or one).", "quantifier": "all real coordinates with non-zero determinant", "why_tests_cant": "all real coordinates", "anchors": ["crysgsu/geom/triangle.py:Triangle.intersection_with_segment"]}
{"id": "C46", "title": "Droplet flight terminates with a truthful status", "statement": "Space.fly terminates after at most max_steps steps; the status 'C' is returned only with a face hit by the last segment of the trajectory and no earlier segment hits any triangle; 'O' only if the last point left the box; 'N' only if the trajectory has more than max_steps points; all earlier points are in the box.", "quantifier": "all velocity fields, clouds, start states and step limits", "why_tests_cant": "loop over all executions", "anchors": ["crysgsu/drops.py:Space.fly"]}
{"id": "C47", "title": "Droplet step never divides by zero", "statement": "Space.fly_step returns a result for every positive diameter.", "quantifier": "all velocities", "why_tests_cant": "fails only when droplet and air velocities coincide exactly", "anchors": ["crysgsu/drops.py:Space.fly_step"]}
{"id": "C48", "title": "Secondary impingement keeps the water mass", "statement": "After drops() the sum over faces of MImp2 * area equals the total stall of the faces whose droplets hit a face.", "quantifier": "all grids and flights", "why_tests_cant": "needs two droplets landing on one face", "anchors": ["crysgsu/drops.py:drops"]}
{"id": "C49", "title": "Heights smoothing conserves ice", "statement": "heights_smoothing keeps the total of the ice chunks over all faces, for any number of iterations.", "quantifier": "all meshes, ice distributions, parameters", "why_tests_cant": "conservation over all inputs", "anchors": ["crysgsu/remeshing.py:TongRemesher.heights_smoothing"]}
{"id": "C50", "title": "Ice budget of a remeshing run", "statement": "With redistribution on and exact deposition, the chunks put on a face over the nsteps steps sum to its target ice, and its rest is zero after the last step; actual plus rest equals target after every step as long as rest is not clamped.", "quantifier": "all step counts and targets", "why_tests_cant": "induction over the number of steps", "anchors": ["crysgsu/remeshing.py:TongRemesher.calc_ice_chunks", "crysgsu/remeshing.py:TongRemesher.remesh_step"]}
{"id": "C51", "title": "Ice shift solves the volume equation", "statement": "In define_ice_shifts the height found for a face is non-negative and, when the discriminant is non-negative and the quadratic coefficient is not zero, satisfies a*h + b*h^2 = V; it is the smallest non-negative such height.", "quantifier": "all areas, coefficients and volumes", "why_tests_cant": "real algebra over all inputs", "anchors": ["crysgsu/remeshing.py:TongRemesher.define_ice_shifts"]}
{"id": "C52", "title": "Number of remeshing steps is within the configured bounds", "statement": "calculate_nsteps sets a number of steps between nsteps_min and nsteps_max, and at most the ignorable share of faces needs more steps than chosen when the maximum suffices for them.", "quantifier": "all grids and options", "why_tests_cant": "all inputs", "anchors": ["crysgsu/remeshing.py:TongRemesher.calculate_nsteps"]}
{"id": "C53", "title": "Border nodes are marked exactly", "statement": "After mark_all_fixed_nodes on a fresh grid a node is marked as border iff it is an end of an edge with exactly one face, number_of_border_nodes is the number of marked nodes, and calling it again changes nothing.", "quantifier": "all meshes", "why_tests_cant": "over all meshes", "anchors": ["crysgsu/gsu/grid.py:Grid.mark_all_fixed_nodes"]}
{"id": "C54", "title": "Quadrangles are converted to triangles", "statement": "The converter turns a quadrangle with four different corners into two triangles sharing a diagonal that together have the vector area of the quadrangle, and a quadrangle with exactly one pair of coinciding adjacent corners into one triangle with that vector area.", "quantifier": "all quadrangles and coincidence patterns", "why_tests_cant": "all cases and all coordinates", "anchors": ["crysgsu/convert/gsu_converter.py:Grid.LoadNodesData"]}
{"id": "C55", "title": "Averaging node data to faces stays in range", "statement": "A face value obtained by ConvertDataFromNodesToFaces lies between the minimum and the maximum of its three node values.", "quantifier": "all values", "why_tests_cant": "all real values", "anchors": ["crysgsu/convert/gsu_converter.py:Grid.ConvertDataFromNodesToFaces"]}
{"id": "C56", "title": "Structured block links cover every cell", "statement": "The links made for an I x J block are within 1..I*J, there are 2*(I-1)*(J-1) of them, each cell contributes two triangles sharing a diagonal and every cell is covered exactly once.", "quantifier": "all block sizes", "why_tests_cant": "all sizes", "anchors": ["crysgsu/convert/lazurit_to_crystal.py"]}
{"id": "C57", "title": "Cell data stays with its cell in the LAZURIT converter", "statement": "The k-th value of a cell-centred variable of the input block is written for both triangles made from the k-th cell of that block (cells counted with the first index fastest).", "quantifier": "all block sizes", "why_tests_cant": "shows only on blocks more than one cell wide in both directions", "anchors": ["crysgsu/convert/lazurit_to_crystal.py"]}
{"id": "C58", "title": "Ghost values after an MPI exchange are the neighbour's values", "statement": "After exchange(data) each face on the far side of a cross edge has, in every process, the value that the owning process had before the exchange.", "quantifier": "all decomposed grids", "why_tests_cant": "relational property between processes over all grids", "anchors": ["crysgsu/crys.py:exchange", "crysgsu/crys.py:get_mpi_borders", "crysgsu/gsu/zone.py:Zone.get_real_face", "crysgsu/gsu/zone.py:Zone.get_ghost_face"]}
{"id": "C59", "title": "Gathered ice heights are put on the right faces", "statement": "After the gather in crys.remesh every face receives the ice height computed by the process that owns it.", "quantifier": "all zone sizes", "why_tests_cant": "wrong only when zone sizes differ", "anchors": ["crysgsu/crys.py:remesh"]}
{"id": "C60", "title": "Grid explosion moves zones rigidly", "statement": "move_from_mean_point on a grid whose zones do not share nodes translates every zone as a whole: distances between nodes of one zone do not change and zone centers move away from the grid mean by factor 1+k.", "quantifier": "all grids and factors", "why_tests_cant": "all coordinates", "anchors": ["crysgsu/gsu/grid.py:Grid.move_from_mean_point"]}
{"id": "C61", "title": "Building a triangle cloud sorts the list of the caller", "statement": "TrianglesCloud(ts) with two or more triangles reorders the very list it is given: afterwards it is a permutation of the old list sorted by the centroid coordinate along the longest axis of the box of the centroids.", "quantifier": "all lists of two or more triangles", "why_tests_cant": "side effect on the caller's object over all lists", "anchors": ["crysgsu/geom/triangles_cloud.py:TrianglesCloud.__init__"]}
{"id": "C62", "title": "Nearest air point is nearest", "statement": "Space.find_nearest returns a point of the velocity field with its velocity such that no other point of the field is nearer to the given point; a field without points is rejected when it is built.", "quantifier": "all velocity fields and points", "why_tests_cant": "all real coordinates", "anchors": ["crysgsu/drops.py:Space.find_nearest"]}
{"id": "C63", "title": "Volume between two positions of a triangle", "statement": "displaced_triangle_volume is never negative, is 0 for a triangle that does not move, is the area times the distance along the normal for a triangle moved as a whole, and for corners moved along parallel lines it is the area of the cross section times the mean of the three distances.", "quantifier": "all triangles and moves", "why_tests_cant": "all real coordinates", "anchors": ["crysgsu/geom/utils.py:displaced_triangle_volume", "crysgsu/geom/utils.py:tetrahedron_volume"]}
{"id": "C64", "title": "Remeshing changes positions, border marks and ice heights only", "statement": "A remeshing run of TongRemesher that succeeds changes the coordinates of nodes of the grid, border marks and the value Hi of faces, which is 0 afterwards; the objects, links, zones, identifiers and all other face values stay as they were.", "quantifier": "all meshes and options", "why_tests_cant": "frame property over whole executions", "anchors": ["crysgsu/remeshing.py:TongRemesher.__call__", "crysgsu/remeshing.py:TongRemesher.remesh_step"]}
{"id": "C65", "title": "No ice, no movement", "statement": "If Hi is 0 on all faces, a successful remeshing run moves no node; without smoothing of heights a node none of whose faces has ice is not moved.", "quantifier": "all meshes and options", "why_tests_cant": "over whole executions with any number of steps", "anchors": ["crysgsu/remeshing.py:TongRemesher.__call__", "crysgsu/remeshing.py:TongRemesher.define_ice_shifts", "crysgsu/remeshing.py:TongRemesher.move_nodes"]}
{"id": "C66", "title": "Direction and length of the movement of a node", "statement": "Without smoothing a remeshing step moves every node along the unit vector of the sum of the unit normals of its faces, outwards, by the mean of the heights of ice on its faces.", "quantifier": "all meshes and options", "why_tests_cant": "all meshes and real coordinates", "anchors": ["crysgsu/remeshing.py:TongRemesher.init_ice_dirs", "crysgsu/remeshing.py:TongRemesher.define_ice_shifts", "crysgsu/remeshing.py:TongRemesher.move_nodes"]}
{"id": "C67", "title": "The documented options of the remesher can be used", "statement": "TongRemesher with pseudo_2d_oz or with null-space smoothing steps finishes on a mesh with ice.", "quantifier": "all meshes", "why_tests_cant": "an option that always fails is noticed only when it is used; that it fails for every grid is a universal statement", "anchors": ["crysgsu/remeshing.py:TongRemesher.__call__", "crysgsu/smoothing.py:NullSpaceSmoothing.smoothing"]}
{"id": "C68", "title": "Filtering zones keeps exactly the chosen zones", "statement": "filter_zones copies the title, the variables and exactly the zones with one of the given names, line by line and in the same order; filtering the result again changes nothing.", "quantifier": "all files and lists of names", "why_tests_cant": "all files", "anchors": ["crysgsu/convert/ansys_to_crystal.py:filter_zones"]}
{"id": "C69", "title": "Filtering variables keeps names and columns together", "statement": "filter_variables writes the wanted variables found in the file in the order of the file and cuts every node line to the columns of just these variables; zone heads and elements are copied.", "quantifier": "all files and lists of wanted variables", "why_tests_cant": "all files with any number of zones, nodes and columns", "anchors": ["crysgsu/convert/ansys_to_crystal.py:filter_variables"]}
{"id": "C70", "title": "The merged file has every number in the column of its name", "statement": "After filtering, the merge of the flow, droplet and adiabatic wall files writes in each column the number that had the corresponding variable in the corresponding input file, whatever the order of the variables in the input files.", "quantifier": "all triples of files", "why_tests_cant": "wrong only for files with another order of variables or with several matching variables", "anchors": ["crysgsu/convert/ansys_to_crystal.py:merge_fensap_drop3d_adiabatic"]}
{"id": "C71", "title": "Heat transfer coefficient and recovery factor", "statement": "For every node HTC is minus the heat flux divided by the difference of surface and adiabatic wall temperature and the recovery factor is the adiabatic temperature rise times 2*cp/v^2; all other numbers are copied. With v = 0, cp = 0 or equal temperatures the computation fails instead of writing a value.", "quantifier": "all files and parameters", "why_tests_cant": "all real values; failure conditions over all inputs", "anchors": ["crysgsu/convert/ansys_to_crystal.py:calculate_htc_recovery_factor"]}
{"id": "C72", "title": "Moving node data to faces writes the grid of the file", "statement": "Reading a file with node data, moving the data to faces and exporting gives a file that is the grid made of the zones of the input, triangles instead of quadrangles, every value the mean over the three corners.", "quantifier": "all files", "why_tests_cant": "composition of reading, averaging, writing and reading over all files", "anchors": ["crysgsu/convert/ansys_to_crystal.py:data_from_nodes_to_faces", "crysgsu/convert/gsu_converter.py:Grid.ConvertDataFromNodesToFaces", "crysgsu/convert/gsu_converter.py:Grid.Export", "crysgsu/convert/gsu_converter.py:Grid.LoadNodesData"]}
{"id": "C73", "title": "Transferred values are those of a nearest face", "statement": "Interpolation between grids gives every face of the target grid the values T and Hw (or Beta) of a face of the source grid whose center is nearest; everything else in the target grid stays.", "quantifier": "all pairs of grids", "why_tests_cant": "all real coordinates", "anchors": ["crysgsu/convert/interpolate.py:face_centered_interpolation", "crysgsu/convert/lazurit_add_beta_from_ansys.py"]}
{"id": "C74", "title": "LAZURIT files are paired by block", "statement": "The result does not depend on the order in which the directory lists its files, and the conversion succeeds only if the .TEC files are pairs of a grid and a solution file with the same rest of the name.", "quantifier": "all directories", "why_tests_cant": "all listings of all directories", "anchors": ["crysgsu/convert/lazurit_to_crystal.py"]}
{"id": "C75", "title": "The converters as a whole", "statement": "The ANSYS conversion writes the grid that has the chosen zones of the three files, coordinates, HTC, collection efficiency, friction and recovery factor as defined by them; the LAZURIT conversion writes the grid of all blocks of the directory with their cells split into triangles.", "quantifier": "all inputs of both converters", "why_tests_cant": "end-to-end statement over all files", "anchors": ["crysgsu/convert/ansys_to_crystal.py", "crysgsu/convert/lazurit_to_crystal.py"]}
{"id": "C76", "title": "Tightening an edge", "statement": "collapse_edge on an edge with two faces, when only the two opposite corners are joined to both ends, the second end has a third face, each of the two faces has a neighbour behind another side, two faces remain and no node is at the middle of the edge: one node, three edges and two faces disappear, the first end moves to the middle and takes the place of the second, everything else stays and the grid is consistent; the identifiers are 0..count-1 again exactly if the last remaining objects had the greatest ones. An edge without two faces is left alone.", "quantifier": "all consistent meshes and edges", "why_tests_cant": "all meshes of any size around the edge; the effect on links of all neighbours", "anchors": ["crysgsu/gsu/grid.py:Grid.collapse_edge", "crysgsu/gsu/grid.py:Grid.del_node", "crysgsu/gsu/node.py:Node.replacing_node"]}
{"id": "C77", "title": "A refined grid can be stored and read back", "statement": "After any sequence of divide_face, cut_edge, cut_single_edge, cut_edge_with_two_nodes, collapse_face and collapse_edge calls, each touching faces of one zone only, the grid has the same name, zones and variables, every face carries the data and the zone of a face that existed before, zone lists are right, and store followed by load (merging or not) gives the same zones, triangles and data. (Cutting an edge between zones breaks this.)", "quantifier": "all consistent grids, all sequences of transformations of any length, all lawful number formats", "why_tests_cant": "sequences of transformations of any length on grids of any size, combined with text input and output", "anchors": ["crysgsu/gsu/grid.py:Grid.divide_face", "crysgsu/gsu/grid.py:Grid.cut_edge", "crysgsu/gsu/grid.py:Grid.collapse_face", "crysgsu/gsu/grid.py:Grid.collapse_edge", "crysgsu/gsu/grid.py:Grid.store", "crysgsu/gsu/grid.py:Grid.load"]}
{"id": "C78", "title": "Where calculation results of a refined grid land", "statement": "load_faces_calc_data reading the file written by store_faces_calc_data puts the values of the face with identifier i on the face at position i of the face list. So every face gets its own values, whatever they are, exactly if the identifier of each face equals its position; after a single divide_face this is not the case any more and results are mixed up.", "quantifier": "all grids whose identifiers are a permutation, all values", "why_tests_cant": "any grid reachable by transformations; a test with equal values or with an untouched grid sees nothing", "anchors": ["crysgsu/gsu/grid.py:Grid.store_faces_calc_data", "crysgsu/gsu/grid.py:Grid.load_faces_calc_data", "crysgsu/gsu/grid.py:Grid.divide_face"]}
{"id": "C79", "title": "The velocity field is read from the zones of bricks", "statement": "read_vel_field_from_file returns the points and velocities of the nodes of all FEBRICK zones of the air file, all of them and in file order; other zones and lines outside of zones do not count. A file that ends inside the nodes of such a zone is refused with IndexError.", "quantifier": "all air files, any number of zones, nodes and elements", "why_tests_cant": "all files of any length and any mixture of zones", "anchors": ["crysgsu/drops.py:read_vel_field_from_file"]}
{"id": "C80", "title": "The file with trajectories", "statement": "The trajectory file that drops writes, read by the reader of grid files, has one zone for every face whose Stall is over the threshold, in the order of faces, named after the identifier of the face; its nodes are the points of the flight of that face's droplet in the order of flight and element i joins the points i and i+1.", "quantifier": "all grids, air files and parameters for which drops ends", "why_tests_cant": "relates the text of a file to flights of any length over any grid", "anchors": ["crysgsu/drops.py:drops", "crysgsu/geom/trajectory.py:Trajectory.dump"]}
{"id": "C81", "title": "The result file of drops", "statement": "The file that drops writes, read again, has the title, zones and triangles of the given grid in the same order, the variables of the given grid without the five of the stall, MImp2 with the water caught by every face, and T, Hw, Hi all zero; other values are as given.", "quantifier": "all storable grids, air files and parameters for which drops ends", "why_tests_cant": "end-to-end over all grids and flights; the case in which the variable MImp2 is new and the first face is dry is easily missed", "anchors": ["crysgsu/drops.py:drops", "crysgsu/gsu/grid.py:Grid.convert_grid_stall_to_check_point", "crysgsu/gsu/grid.py:Grid.store"]}
{"id": "C82", "title": "Options of the splitting program", "statement": "The strategy of split is the one of the command line, else split_strategy of the JSON file, else n1; the recovery factor is recovery_factor of the JSON file, else 1; zones of the heating elements of the JSON file are fixed: they are in the result with the same faces. A JSON file that is no object is refused.", "quantifier": "all JSON files, command lines and grid files", "why_tests_cant": "all combinations of present and absent keys and any number of heating elements, some of which may lack the zone", "anchors": ["crysgsu/split.py:extract_strategy_from_json", "crysgsu/split.py:extract_fixed_zones_from_json", "crysgsu/split.py:extract_recovery_factor_from_json", "crysgsu/split.py:__main__"]}
{"id": "C83", "title": "Options and result of the remeshing program", "statement": "remesh takes every option of the JSON file under its name and the documented default for the others. Whenever it ends, the file it writes, read again, has the title, zones and triangles of the given grid in the same order; the corners are where the remesher put the nodes; the variables are those of the given grid and Hi, which is zero everywhere; all other values are as given.", "quantifier": "all JSON files with any subset of options, all storable grid files for which remeshing ends", "why_tests_cant": "end-to-end over all files and all subsets of 14 options", "anchors": ["crysgsu/remeshing.py:TongRemesher.set_default_options", "crysgsu/remeshing.py:TongRemesher.try_to_read_options", "crysgsu/remesh.py:__main__"]}
{"id": "C84", "title": "Every mesh of a directory gets its own result", "statement": "remesh of a directory writes one result for every file whose name ends with .dat, in the order of the directory, into the output directory under the name of the mesh with _r_ replaced by _; results of different meshes have different names.", "quantifier": "all directories", "why_tests_cant": "all sets of file names", "anchors": ["crysgsu/remesh.py:__main__"]}
{"id": "C85", "title": "The grid reader of the converters", "statement": "gsu_converter.Grid.Import reads a grid file with the eight data variables of which the last five are HTC, Beta, TauX, TauY, TauZ: zones, titles, points, triangles and values are those of the stored grid. It reads also what Export wrote.", "quantifier": "all grids, zones and names", "why_tests_cant": "round trip over all grids; the second part fails for every file, not only for special ones", "anchors": ["crysgsu/convert/gsu_converter.py:Grid.Import", "crysgsu/convert/gsu_converter.py:Grid.Export", "crysgsu/gsu/grid.py:Grid.store"]}
{"id": "C86", "title": "Cleaning of a converter zone", "statement": "After any sequence of ReplaceNode and DeleteExtraNodes followed by RestoreNodesIndices, the numbers of corners that Export writes are the positions of these corners in the list of nodes; DeleteExtraNodes removes exactly the nodes that are corners of no face, ReplaceNode changes exactly the places of the old node.", "quantifier": "all zones and all sequences of operations", "why_tests_cant": "all sequences, also with nodes that are in the list twice", "anchors": ["crysgsu/convert/gsu_converter.py:Zone.ReplaceNode", "crysgsu/convert/gsu_converter.py:Zone.RestoreNodesIndices", "crysgsu/convert/gsu_converter.py:Zone.DeleteExtraNodes"]}
{"id": "C87", "title": "Angles", "statement": "get_angle_in_deg of two vectors is the angle of Euclidean geometry between them, and it raises ZeroDivisionError exactly for a zero vector. all_corners_smaller(x) answers whether all three angles of the triangle are less than x; so it is False for every triangle if x <= 60 and True for every triangle if x > 180, and it raises ZeroDivisionError exactly if two corners are equal.", "quantifier": "all vectors, triangles and bounds (exact real arithmetic)", "why_tests_cant": "a relation with Euclidean geometry for all triangles, e.g. the sum of the angles", "anchors": ["crysgsu/geom/vect.py:Vect.get_angle_in_deg", "crysgsu/geom/vect.py:Vect.angle_cos", "crysgsu/geom/triangle.py:Triangle.all_corners_smaller"]}
{"id": "C88", "title": "Position of a point in a triangle", "statement": "point_in_triangle returns 3 for points inside, 2 for points on a side, 1 for corners and 0 for all other points.", "quantifier": "all triangles and points", "why_tests_cant": "depends on rounding and tolerances that only special triangles and points reach", "anchors": ["crysgsu/geom/triangle.py:Triangle.point_in_triangle"]}
{"id": "C89", "title": "Triangles of one plane", "statement": "For a triangle that is not degenerate in_one_plane answers whether the corners of the other triangle are in its plane, and among such triangles it is an equivalence relation. A degenerate triangle answers True for every other one.", "quantifier": "all triangles", "why_tests_cant": "universal over all pairs and triples of triangles", "anchors": ["crysgsu/geom/triangle.py:Triangle.in_one_plane", "crysgsu/geom/triangle.py:Triangle.point_in_one_plane"]}
{"id": "C90", "title": "Order and equality of points", "statement": "< of points is a strict order, so that sorting is determined by the points; == is an equivalence. intersection_with_triangle returns every common point found once, sorted.", "quantifier": "all lists of points and all pairs of triangles", "why_tests_cant": "fails only for points nearer than the tolerance 1e-10; depends on the interplay of sort and ==", "anchors": ["crysgsu/geom/vect.py:Vect.__lt__", "crysgsu/geom/vect.py:Vect.__eq__", "crysgsu/geom/triangle.py:Triangle.intersection_with_triangle"]}
{"id": "C91", "title": "Equality of triangles", "statement": "Two triangles are equal exactly if they have the same corners in any order (up to the tolerance).", "quantifier": "all pairs of triangles", "why_tests_cant": "the code compares two corners and the centroid; that this is enough needs an argument over all triangles", "anchors": ["crysgsu/geom/triangle.py:Triangle.__eq__"]}
{"id": "C92", "title": "Point on a segment", "statement": "point_on_vector(v1, v2, p) answers whether p is on the segment from v1 to v2 (up to a tolerance).", "quantifier": "all points", "why_tests_cant": "soundness with an explicit bound on the distance for all points", "anchors": ["crysgsu/geom/vect.py:Vect.point_on_vector"]}
{"id": "C93", "title": "Rebuilding of faces", "statement": "refine inserts a node at the intersection points found for a face: one point inside divides the face, one or two points on one side cut the side. The new grid is consistent, has the Euler characteristic of the old one, has new nodes exactly at the points asked for, and all edges and faces that are not cut or divided stay.", "quantifier": "all consistent grids and all lists of faces with points", "why_tests_cant": "an invariant of a sequence of changes where each change may affect the faces of later ones; which sequences fail is a matter of order", "anchors": ["crysgsu/refine.py:refine_grid.refine"]}
{"id": "C94", "title": "The side of a point", "statement": "For a point which point_in_triangle reports on a side, the side that is cut is the side of the point.", "quantifier": "all triangles and points (exact real arithmetic)", "why_tests_cant": "the two functions use different tolerances; only points nearer than 1e-10 show it", "anchors": ["crysgsu/refine.py:refine_grid.point_on_edge_of_triangle", "crysgsu/geom/triangle.py:Triangle.point_in_triangle"]}
{"id": "C95", "title": "Merging of intersections", "statement": "The intersections of clouds are merged into a list with exactly one entry for every triangle that occurs, which has all points found for the triangle, up to points that are as good as equal, and no others.", "quantifier": "all clouds, tests of intersection, addresses of objects and orders of points", "why_tests_cant": "depends on addresses of objects and on lists shared between entries", "anchors": ["crysgsu/refine.py:refine_grid", "crysgsu/geom/triangles_cloud.py:TrianglesCloud.intersection_with_triangles_cloud"]}
{"id": "C96", "title": "Refinement of a grid", "statement": "refine_grid reads a grid, finds the intersections of its faces, and stores a grid in which the intersection points are nodes; a grid without intersections is stored as it is.", "quantifier": "all consistent grids", "why_tests_cant": "an end-to-end relation between two files for all grids", "anchors": ["crysgsu/refine.py:refine_grid"]}
{"id": "C97", "title": "The parallel program", "statement": "crys.py reads and splits one file in all processes, lets every process compute new ice heights for its zone, exchanges the data of border faces and remeshes in process 0 with the gathered heights: each computed height is on the face it was computed for, all other data are those of the file, and the file written is the remeshed grid.", "quantifier": "all files, numbers of processes, computations and interleavings of the processes", "why_tests_cant": "all interleavings, all sizes of zones; a test would need an MPI run for every number of processes", "anchors": ["crysgsu/crys.py:remesh", "crysgsu/crys.py:exchange", "crysgsu/split.py:split"]}
{"id": "C98", "title": "Arrays of a zone", "statement": "The arrays a zone gives to numerical code belong together: the coordinates have one row for each node of the zone, the connectivity has one row for each face and its numbers are rows of the coordinates, the variables have one row for each face with its number and the eleven variables of store_mpi. The outer edges counted for the quality factor are the edges with one face in the zone.", "quantifier": "all grids, decompositions and zones", "why_tests_cant": "the numbers of nodes are right in the one zone grids of tests and wrong in others", "anchors": ["crysgsu/gsu/zone.py:Zone.coords_np_array", "crysgsu/gsu/zone.py:Zone.connectivity_list_faces_nodes", "crysgsu/gsu/zone.py:Zone.variables_np_array", "crysgsu/gsu/zone.py:Zone.zone_quality_factor"]}
{"id": "C99", "title": "Physical laws", "statement": "A LinearLaw has the values of its table, is linear between neighbours, continuous, rises or falls with the table and stays within the values of the table; a FuncLaw has the values of the table if a function of its kind has; the tables of the program give positive laws in the same units.", "quantifier": "all tables and arguments", "why_tests_cant": "a statement about all real arguments between and outside the points of a table", "anchors": ["crysgsu/phys/laws.py:LinearLaw", "crysgsu/phys/laws.py:FuncLaw"]}
{"id": "C100", "title": "Sessions", "statement": "A user decomposes, transforms and changes the data of a grid, stores it and loads it again, in any order and as often as wanted. After every step the grid is consistent, the lists of its zones are exact (unless a transformation crossed the border of zones after the last decomposition or loading), every node is a corner of a face, the Euler characteristic is the one of the first grid, and a surface without border has none. An allowed transformation and storing with loading never fail.", "quantifier": "all consistent grids, all sequences of allowed steps, all data", "why_tests_cant": "an invariant of unbounded sequences that mix all operations and go through text files", "anchors": ["crysgsu/gsu/grid.py:Grid.decompose_farhat", "crysgsu/gsu/grid.py:Grid.divide_face", "crysgsu/gsu/grid.py:Grid.collapse_edge", "crysgsu/gsu/grid.py:Grid.store", "crysgsu/gsu/grid.py:Grid.load"]}
{"id": "C101", "title": "A new point at an existing node", "statement": "divide_face, cut_single_edge and cut_edge at a point whose rounded coordinates are those of an existing node do not fail and add no node: the existing node becomes the common corner of the new faces, which keep data, zone and identifiers. Everything else is kept and identifiers stay a permutation, but the Euler number drops by one. The result is a consistent mesh exactly when the node is neither a corner of a replaced face nor joined to one, and the zone lists stay exact exactly when the node was in the node list of the zone already.", "quantifier": "all consistent grids, faces, edges and points", "why_tests_cant": "the point is merged silently; tests divide at centroids of big faces only", "anchors": ["crysgsu/gsu/grid.py:Grid.divide_face", "crysgsu/gsu/grid.py:Grid.cut_single_edge", "crysgsu/gsu/grid.py:Grid.cut_edge", "crysgsu/gsu/grid.py:Grid.add_node"]}
{"id": "C102", "title": "Totals of the results of all processes", "statement": "merge writes one .csv file with totals: its times are those of the source files and every other number is the sum over the .csv files of all processes, in whatever order the system lists them. Tables that do not fit together are reported, and running merge again gives the same totals.", "quantifier": "all source directories, all tables of numbers", "why_tests_cant": "depends on the order of os.listdir, on broadcasting in numpy and on where the totals are put; tests use one directory", "anchors": ["crysgsu/merge.py:merge"]}
{"id": "C103", "title": "Shifts of nodes in smoothing", "statement": "apply_shifts moves every node of the grid by its own shift and changes nothing else; with fix_boundary_nodes the nodes at edges with one face keep their places. A wrong number of shifts is rejected. The files of iterations have different names that sort in the order of iterations.", "quantifier": "all grids, shifts and numbers of iterations", "why_tests_cant": "whether boundary nodes are kept depends on a call made elsewhere; names are right for small numbers", "anchors": ["crysgsu/smoothing.py:Smoothing.apply_shifts", "crysgsu/smoothing.py:Smoothing.move_node", "crysgsu/smoothing.py:Smoothing.name_of_iteration", "crysgsu/gsu/grid.py:Grid.mark_all_fixed_nodes"]}
{"id": "C104", "title": "The unit test of transformations on every grid", "statement": "What tests/test_gsu.py asserts for the grid wing_1.dat holds for every grid: each of divide_face, cut_edge, cut_single_edge, cut_edge_with_two_nodes, collapse_face and collapse_edge, applied to the first suitable object, changes the numbers of nodes, edges and faces by the fixed amounts in the test, and the global identifiers are again 0 .. count - 1.", "quantifier": "all consistent grids", "why_tests_cant": "the test runs on one grid and with one face or edge per transformation", "anchors": ["tests/test_gsu.py:test_atomic_grid_transformation", "tests/test_gsu.py:check_GloId", "crysgsu/test.py:case_015_GloId_in_grid_for_divide_face", "crysgsu/test.py:case_017_GloId_in_grid_for_cut_edge", "crysgsu/test.py:case_018_GloId_in_grid_for_collapse_edge", "crysgsu/test.py:case_019_GloId_in_grid_for_cut_single_edge", "crysgsu/test.py:case_020_GloId_in_grid_for_cut_edge_with_two_nodes"]}
{"id": "C105", "title": "The computing library of the parallel program", "statement": "swim.hi adds 1, 2 and 3 to all elements of its three arrays and touches no other memory; after a run of crys.py the ice height that process 0 puts on each face before remeshing is that of the file plus 2, and nothing else has changed.", "quantifier": "all arrays; all files, numbers of processes and interleavings of the exchanges", "why_tests_cant": "memory errors and mixed-up faces depend on lengths of arrays and on the number of processes", "anchors": ["crysgsu/cpp/src/swim.cpp:hi", "crysgsu/crys.py:__main__"]}
{"id": "C106", "title": "Cutting an edge at any two points", "statement": "cut_edge_with_two_nodes never fails on a consistent grid, whatever the two points are. A point whose rounded place is that of a node takes that node, and two points with the same rounded place share one node. Each face of the edge is replaced by three faces with the expected corners, data, zone and identifiers, everything else is kept, and the Euler number drops by one for every node which is not new. The result is a consistent mesh exactly when the two nodes differ, neither is a corner of a replaced face, and none of the new edges joins nodes that are joined already; in particular never when the two points have the same rounded place.", "quantifier": "all consistent grids, edges and pairs of points", "why_tests_cant": "points are merged silently; tests cut long edges of one grid at two distant points", "anchors": ["crysgsu/gsu/grid.py:Grid.cut_edge_with_two_nodes", "crysgsu/gsu/grid.py:Grid.add_node", "crysgsu/refine.py"]}
{"id": "C107", "title": "Pieces and border of the surface", "statement": "On a consistent grid three times the number of faces and the number of border edges make twice the number of edges. divide_face, cut_edge, cut_single_edge, cut_edge_with_two_nodes and collapse_face put the new faces into the piece of the surface (faces one can reach over common edges) of the replaced ones and leave all other pieces alone, so that the number of pieces stays; border edges appear only by cutting border edges in two or three, and closed surfaces stay closed. collapse_edge keeps the number of border edges, never joins pieces and never loses one, and should not split a piece.", "quantifier": "all consistent grids, applicable transformations, and sequences of them of any length", "why_tests_cant": "whether faces hang together is a global matter; tests look at the changed faces only", "anchors": ["crysgsu/gsu/grid.py:Grid.divide_face", "crysgsu/gsu/grid.py:Grid.cut_edge", "crysgsu/gsu/grid.py:Grid.cut_single_edge", "crysgsu/gsu/grid.py:Grid.cut_edge_with_two_nodes", "crysgsu/gsu/grid.py:Grid.collapse_face", "crysgsu/gsu/grid.py:Grid.collapse_edge"]}
{"id": "C108", "title": "Decompositions forget earlier decompositions", "statement": "What a decomposition gives depends on the surface, on the arguments and on the names and faces of the zones it is told to keep, and on nothing else the grid went through before: two grids with the same surface, however they were decomposed, get the same zones with the same names, identifiers, nodes, edges and faces in the same order, or the call fails on both; the files for the processes are the same, and so is the stored grid if the names of the grids agree. A call without zones to keep gives the same after any sequence of decompositions as right after loading, in particular when it is repeated. The grid has the new name if one is given and keeps its name otherwise.", "quantifier": "all consistent grids, all calls with all arguments, all earlier sequences of calls", "why_tests_cant": "old zone objects, links, marks and flags of earlier calls stay in memory; a test would have to compare all pairs of histories", "anchors": ["crysgsu/gsu/grid.py:Grid.decompose_mono", "crysgsu/gsu/grid.py:Grid.decompose_random", "crysgsu/gsu/grid.py:Grid.decompose_linear", "crysgsu/gsu/grid.py:Grid.decompose_hierarchical", "crysgsu/gsu/grid.py:Grid.decompose_farhat", "crysgsu/gsu/grid.py:Grid.unlink_faces_from_zones", "crysgsu/gsu/grid.py:Grid.post_decompose"]}
{"id": "C109", "title": "Refinement keeps area and sums over the surface", "statement": "Dividing a face at a point of the face and cutting edges at points of the edges keeps the area of the surface and all sums over it, such as the volume of ice or the water that hits it, after any number of such steps; sums over a single zone are kept too as long as no edge between two zones is cut. Two points at which one edge is cut may be given in either order.", "quantifier": "all consistent grids, all faces, edges and points, all sequences of such steps, all quantities given by data and zones of the faces", "why_tests_cant": "sums over real numbers for all surfaces; the order of the two points is only wrong for some orders of the corners in the file", "anchors": ["crysgsu/gsu/grid.py:Grid.divide_face", "crysgsu/gsu/grid.py:Grid.cut_edge", "crysgsu/gsu/grid.py:Grid.cut_single_edge", "crysgsu/gsu/grid.py:Grid.cut_edge_with_two_nodes", "crysgsu/refine.py:refine_grid.refine"]}
{"id": "C110", "title": "A file that ends too early is refused", "statement": "A beginning of a file written by store, cut at any character, is not taken for a grid file: load raises. In the same way a beginning of a file of calculation results is refused. Whenever a beginning is loaded nevertheless, what is loaded is right as far as it goes: the first zones, complete.", "quantifier": "all consistent grids, all ways to write floats that can be read back, all places of the cut", "why_tests_cant": "an interrupted copy or a full disk can cut a file anywhere; tests load complete files", "anchors": ["crysgsu/gsu/grid.py:Grid.load", "crysgsu/gsu/grid.py:Grid.store", "crysgsu/gsu/grid.py:Grid.load_faces_calc_data"]}
{"id": "C111", "title": "A decomposition that fails does no harm", "statement": "A decomposition method that raises leaves a grid which can still be used: nodes, edges, faces and data are as before, and another decomposition with valid arguments then gives what it would have given without the failed call.", "quantifier": "all consistent grids, all calls of decomposition methods with all arguments, all sequences of calls after the failure", "why_tests_cant": "whether a grid is usable after a caught exception depends on how far the call got, for every argument and every grid", "anchors": ["crysgsu/gsu/grid.py:Grid.decompose_random", "crysgsu/gsu/grid.py:Grid.decompose_linear", "crysgsu/gsu/grid.py:Grid.decompose_hierarchical", "crysgsu/gsu/grid.py:Grid.decompose_farhat", "crysgsu/gsu/grid.py:Grid.unlink_faces_from_zones"]}
{"id": "C112", "title": "A load that fails keeps the old grid", "statement": "A call of load that raises leaves the grid as it was before the call; at least a later load is not influenced by it.", "quantifier": "all grids, all texts of files, files that cannot be opened, loading with and without merging", "why_tests_cant": "a test can try some broken files; what is left in the object depends on the place where reading stops, in every possible text", "anchors": ["crysgsu/gsu/grid.py:Grid.load", "crysgsu/gsu/grid.py:Grid.clear", "crysgsu/gsu/grid.py:Grid.complex_link_face_node_node_edge"]}
{"id": "C113", "title": "A results file is applied completely or not at all", "statement": "A call of load_faces_calc_data either applies all lines of the file, or raises and leaves the data of the faces as they were.", "quantifier": "all grids, all texts of files, files that cannot be opened", "why_tests_cant": "a test can try some broken files; which faces have got new data depends on the place of the bad line among all others", "anchors": ["crysgsu/gsu/grid.py:Grid.load_faces_calc_data"]}
{"id": "C114", "title": "A store that fails keeps the old file", "statement": "A call of store that raises leaves the content of the file as it was before the call.", "quantifier": "all grids, including those left by transformations with broken identifiers", "why_tests_cant": "a test stores grids that can be stored; the grids which cannot be are made by particular sequences of transformations", "anchors": ["crysgsu/gsu/grid.py:Grid.store", "crysgsu/gsu/grid.py:Grid.collapse_edge"]}
{"id": "C115", "title": "A transformation that fails leaves the grid as it was", "statement": "A call of divide_face, cut_single_edge, cut_edge, cut_edge_with_two_nodes, collapse_face or collapse_edge on a consistent grid that raises leaves the grid as it was before the call.", "quantifier": "all consistent grids, all faces, edges and points, any comparison of lengths", "why_tests_cant": "a test can try the edges of some grids; whether an exception is raised depends on all neighbours of the edge, and what is left behind on the place where it is raised", "anchors": ["crysgsu/gsu/grid.py:Grid.collapse_edge", "crysgsu/gsu/grid.py:Grid.divide_face", "crysgsu/gsu/grid.py:Grid.cut_edge", "crysgsu/gsu/grid.py:Grid.collapse_face"]}
{"id": "C116", "title": "The text of a .cry file", "statement": "Every .cry file store_mpi writes can be read back without loss by a program that takes the lines in the order in which they stand and counts them by the numbers in the head: name and number of the zone, coordinates, identifiers, links, borders and values. Decompositions with different contents give different texts.", "quantifier": "all consistent grids with any number of zones and any values, any printing of numbers that can be read back", "why_tests_cant": "a test can read some files; that no combination of counts and values makes two sections run into each other needs all", "anchors": ["crysgsu/gsu/grid.py:Grid.store_mpi", "crysgsu/gsu/zone.py:Zone.store"]}
{"id": "C117", "title": "Results of some zones are missing", "statement": "merge refuses to write a file for a time for which the results of some zone are missing.", "quantifier": "all grids, decompositions and sets of results of which any may be missing", "why_tests_cant": "which of the results are missing is any subset for each time; a test can leave out some", "anchors": ["crysgsu/merge.py", "crysgsu/gsu/grid.py:Grid.load_faces_calc_data", "crysgsu/gsu/grid.py:Grid.store"]}
{"id": "C118", "title": "The longest border of a decomposition", "statement": "max_cross_border_len is the largest number of edges two different zones share, and zone_max_cross_border_len the largest number one zone shares with another; 0 if there are none.", "quantifier": "all consistent grids and decompositions with at least one zone", "why_tests_cant": "the maximum is over all pairs of zones of any decomposition; a test can only count on some", "anchors": ["crysgsu/gsu/zones_adjacency_matrix.py:ZonesAdjacencyMatrix.max_cross_border_len", "crysgsu/gsu/zones_adjacency_matrix.py:ZonesAdjacencyMatrix.zone_max_cross_border_len"]}
{"id": "C119", "title": "Files keep every float", "statement": "Every float that store writes into a file is the float that load reads from it, bit by bit, including both zeros, the smallest and the largest floats, infinities and NaN. A grid of finite coordinates of which no two nodes agree in ten decimals is loaded exactly as it was stored.", "quantifier": "all binary64 floats; all grids of floats that can be stored", "why_tests_cant": "there are 2 to the 64 floats; whether 18 decimals always suffice cannot be seen from some of them", "anchors": ["crysgsu/gsu/grid.py:Grid.store", "crysgsu/gsu/grid.py:Grid.load"]}
{"id": "C120", "title": "Nodes are merged by distance", "statement": "When a grid is loaded with merging, points closer than 10 to the -10 become one node and points farther apart stay different nodes; no corner of a face moves by more than 10 to the -10.", "quantifier": "all files with finite coordinates of any size, all grids", "why_tests_cant": "rounding to ten decimals is followed by rounding to a float and depends on the last bits of the coordinates of all points", "anchors": ["crysgsu/gsu/node.py:Node.rounded_coordinates", "crysgsu/gsu/grid.py:Grid.add_node", "crysgsu/gsu/grid.py:Grid.find_near_node", "crysgsu/gsu/grid.py:Grid.load"]}
{"id": "C121", "title": "Conversion from ANSYS keeps the numbers", "statement": "Coordinates and data of the grid which gsu_converter exports are read by load as they were in the converter, and different nodes stay different.", "quantifier": "all zones of the converter with all floats", "why_tests_cant": "the loss depends on the size of the numbers, which are large in the test data", "anchors": ["crysgsu/convert/gsu_converter.py:Grid.Export", "crysgsu/gsu/grid.py:Grid.load"]}
{"id": "C122", "title": "Totals of floats", "statement": "The totals that merge writes do not depend on the order in which the system lists the files, and they are the sums of the values up to the rounding of the additions; a total is finite only if all values are.", "quantifier": "all directories with tables of floats of one size, all orders of listing", "why_tests_cant": "rounding of sums depends on all bits of all values and on the order of the additions", "anchors": ["crysgsu/merge.py:merge"]}
{"id": "C123", "title": "Line of edges statistics", "statement": "edges_statistics_string gives the numbers of border, inner and cross edges, and for each the nearest percentage with two digits behind the point, computed with floats; the three printed percentages add up to 99.99, 100.00 or 100.01. Without edges it raises ZeroDivisionError.", "quantifier": "all grids whose edges have one or two faces in the zones, with fewer than 2^38 edges", "why_tests_cant": "two roundings, of the quotient and of the text, must not add up for any pair of counts", "anchors": ["crysgsu/gsu/zones_adjacency_matrix.py:edges_statistics_string", "crysgsu/gsu/zones_adjacency_matrix.py:edges_statistics"]}
{"id": "C124", "title": "What print_info prints", "statement": "For a grid with faces print_info prints, without an exception, the head with the counts, the line of edges statistics, for every zone its numbers of faces and outer edges and the quality factor rounded to three digits, the size of the largest zone and how much it exceeds the mean in percent, the least and greatest quality factor (nan if the first zone is empty, otherwise over the zones that are not empty), rows of the adjacency matrix that can be read back, and the longest border.", "quantifier": "all well-formed grids with fewer than 2^38 faces, edges and zones, all combinations of the flags", "why_tests_cant": "the numbers are roots and quotients of floats for every combination of counts; the exception in the middle leaves part of the output", "anchors": ["crysgsu/gsu/grid.py:print_info", "crysgsu/gsu/zone.py:zone_quality_factor", "crysgsu/gsu/zones_adjacency_matrix.py:max_cross_border_len"]}
{"id": "C125", "title": "Names of the zones made by decompose_hierarchical", "statement": "The zones decompose_hierarchical makes are named 'h' followed by at most levels-1 letters l and r, and no name is the beginning of another; so all zones of the grid have different names.", "quantifier": "all well-formed grids, sign functions, numbers of levels, fixed zones", "why_tests_cant": "names are built by repeated splitting of a rotating list in which some zones are skipped", "anchors": ["crysgsu/gsu/grid.py:decompose_hierarchical", "crysgsu/gsu/grid.py:split_zone"]}
{"id": "C126", "title": "The example programs on every grid file", "statement": "On every grid file with names that can be written, the example programs 001, 002, 005, 007, 009 and 014 of test.py write exactly these files: 001 twice the same grid, with the same text if every point of a zone is used in it; 002 for each method a file with the same triangles and values in the zones of that method; 005 the triangles in at most 16 zones and the same zones moved as a whole away from the middle; 007 the grid with exactly the data T, Hw, Hi from the text file; 009 at most four files which share out the faces; 014 the grid without the variables of stall, or KeyError. 002, 005 and 009 can raise only the ValueError of decompose_hierarchical, and no other file is touched.", "quantifier": "all grid files, numbers drawn, sign functions and sets of methods", "why_tests_cant": "whole programs from text to text: reading, decomposition, numbering and writing for all files", "anchors": ["crysgsu/test.py:case_001_load_store", "crysgsu/test.py:case_002_decompose", "crysgsu/test.py:case_005_explode_bunny", "crysgsu/test.py:case_007_store_load_faces_calc_data", "crysgsu/test.py:case_009_store_mpi", "crysgsu/test.py:case_014_convert_grid_stall_to_check_point"]}
{"id": "C127", "title": "The order of a grid file does not matter", "statement": "Two grid files with the same zones, faces, values and places of points, which differ in the order of zones, the order of faces in a zone, the numbering of points or in repeated points, are both refused by load (with merging) with the same exception or both loaded; then there are one-to-one correspondences of nodes, edges, faces and zones which keep places, corners, ends, sides, values, zones and names. So the numbers of objects and the answers of is_border, is_inner and is_cross are the same. Identifiers are positions and depend on the order.", "quantifier": "all files without degenerate faces, all orders", "why_tests_cant": "a file with n faces has n! orders, and edges are made in the order in which faces are met", "anchors": ["crysgsu/gsu/grid.py:Grid.load", "crysgsu/gsu/grid.py:Grid.add_node", "crysgsu/gsu/grid.py:Grid.link_edge_face"]}
{"id": "C128", "title": "Adjacent edges", "statement": "On a grid loaded with merging is_adjacent_with never raises, is symmetric and is true exactly if the two edges have a common end; different adjacent edges have exactly one; any two edges of a face are adjacent. Without merging it is true exactly if ends have the same rounded coordinates, so also for edges with no common end. Moving nodes changes no answer, because the rounded coordinates stay those of the old place.", "quantifier": "all files without degenerate faces, all pairs of edges, all shifts of nodes", "why_tests_cant": "equality of nodes is by rounded coordinates, so the answer depends on the places of all nodes", "anchors": ["crysgsu/gsu/edge.py:Edge.is_adjacent_with", "crysgsu/gsu/node.py:Node.__eq__"]}
{"id": "C129", "title": "Smoothing of normals", "statement": "A turn of normals_smoothing gives each face the mean of the directions of its corners with the weights max(s(1-cos), k) and then each node the mean of the directions of its faces with the weights 1/area, and changes nothing else. With k > 0 on a consistent grid of faces with an area it never raises; if all nodes grow to one side of a plane they still do after any number of turns; equal directions stay; no direction gets longer than 1, so a step of remeshing moves no node by more than the mean height of its faces. The directions are not normalised again: at faces whose corners grow in different directions they get shorter than 1. With k = 0 a flat surface makes it raise ZeroDivisionError.", "quantifier": "all grids, directions, weights, numbers of turns", "why_tests_cant": "a bound on all directions over any number of turns needs an invariant; a wrong weight still gives plausible directions", "anchors": ["crysgsu/remeshing.py:TongRemesher.normals_smoothing", "crysgsu/remeshing.py:wsum"]}
{"id": "C130", "title": "Flow of ice in heights smoothing", "statement": "In a turn of heights_smoothing each face gets exactly what goes over its edges: over an edge with two faces the higher face gives the lower one beta * min(h1 - h2, alfa * max_h) * (chunk / h1), with the amounts of the beginning of the turn, so the order of edges does not matter; nothing goes over border edges. Ice goes downwards: a face not lower than its neighbours gets nothing, one not higher loses nothing, a level surface is not changed. With 0 <= beta <= 1/3 no face ends with negative ice or a negative height, for any number of turns. With a large beta a face can give away more than it has and the program raises Exception.", "quantifier": "all consistent grids, amounts of ice, options, numbers of turns", "why_tests_cant": "the total is conserved by many wrong programs, too; the sign of the flow needs all pairs of heights", "anchors": ["crysgsu/remeshing.py:TongRemesher.heights_smoothing"]}
{"id": "C131", "title": "A split of a zone cuts the fewest edges", "statement": "A split of a zone in decompose_hierarchical follows the first of the sign functions whose cut at the median leaves the fewest edges between the two new zones; the number of edges with a face in both new zones is not more than for any other function that has a face below its median, and fewer than for any earlier one. The result is the one for that function alone. With the default functions the cut is across the x, y or z axis through the median of the face centres, and no other axis gives fewer edges.", "quantifier": "all consistent grids, zones, lists of sign functions", "why_tests_cant": "the best cut must be compared with all others on all grids; a wrong metric still gives a valid decomposition", "anchors": ["crysgsu/gsu/grid.py:Grid.split_zone", "crysgsu/gsu/grid.py:Grid.split_zone_metric", "crysgsu/gsu/grid.py:Grid.decompose_hierarchical", "crysgsu/gsu/face.py:Face.get_center"]}
{"id": "C132", "title": "Drag of a droplet", "statement": "Space.fly_step follows Newton's law: the mass of a ball of water of the diameter d times the change of its velocity is dt times the drag force (half the density of air, the drag coefficient for the Reynolds number, the section and the square of the relative speed) in the direction of the relative velocity of the air. So the relative velocity keeps its line; the droplet does not get faster relative to the air, and the force is continuous in the speed.", "quantifier": "all diameters, velocities, time steps over the real numbers", "why_tests_cant": "a wrong constant or exponent gives plausible flights; instability and the jump need particular speeds", "anchors": ["crysgsu/drops.py:Space.fly_step"]}
{"id": "C133", "title": "Balance of decompose_hierarchical", "statement": "After decompose_hierarchical(levels) each zone that is not one of the kept zones has n / 2 ** (levels - 1) faces, rounded down or up, where n is the number of faces outside the kept zones; so two such zones differ by at most one face, and if n is large enough exactly 2 ** (levels - 1) zones are made.", "quantifier": "all well-formed grids, sign functions, numbers of levels, fixed names", "why_tests_cant": "unevenness appears only with equal values of the sign functions, and with several levels rounding errors could add up", "anchors": ["crysgsu/gsu/grid.py:Grid.decompose_hierarchical", "crysgsu/gsu/grid.py:Grid.split_zone", "crysgsu/gsu/grid.py:Grid.split_zone_metric"]}
{"id": "C134", "title": "Cross edges after a decomposition into two", "statement": "decompose_hierarchical with two levels and no fixed zones makes two zones, cut at the median of one of the sign functions, and the number of cross edges of the grid (as counted by the edges statistics) is the smallest one over all sign functions that separate faces.", "quantifier": "all well-formed grids with at least two faces, lists of sign functions", "why_tests_cant": "the choice is made from temporary zone links before the zones exist; that the final grid has the promised number of cross edges depends on all later steps", "anchors": ["crysgsu/gsu/grid.py:Grid.decompose_hierarchical", "crysgsu/gsu/grid.py:Grid.split_zone", "crysgsu/gsu/grid.py:Grid.split_zone_metric", "crysgsu/gsu/edge.py:Edge.is_cross"]}
{"id": "C135", "title": "More levels refine a hierarchical decomposition", "statement": "If decompose_hierarchical returns with some number of levels, it returns with each smaller positive number too; each zone of the finer decomposition is a part of a zone of the coarser one, its name begins with the name of that zone, and cross edges of the coarser one are cross edges of the finer one.", "quantifier": "all well-formed grids, sign functions, pairs of numbers of levels, fixed names", "why_tests_cant": "relates two runs with all pairs of parameters", "anchors": ["crysgsu/gsu/grid.py:Grid.decompose_hierarchical", "crysgsu/gsu/grid.py:Grid.split_zone", "crysgsu/gsu/edge.py:Edge.is_cross"]}
{"id": "C136", "title": "Connected zones", "statement": "If the faces of a grid are connected through edges, the zones made by decompose_mono, decompose_linear, decompose_farhat and decompose_hierarchical are connected too.", "quantifier": "all well-formed grids, numbers of zones and levels, sign functions", "why_tests_cant": "small test grids are strips or boxes where the zones happen to be connected", "anchors": ["crysgsu/gsu/grid.py:Grid.decompose_mono", "crysgsu/gsu/grid.py:Grid.decompose_linear", "crysgsu/gsu/grid.py:Grid.decompose_farhat", "crysgsu/gsu/grid.py:Grid.decompose_hierarchical"]}
{"id": "C137", "title": "Units and origin do not matter for a hierarchical decomposition", "statement": "Sign functions that put the faces into the same orders give the same result of decompose_hierarchical; in particular other units or another origin of the coordinates do not change the zones.", "quantifier": "all well-formed grids, lists of sign functions with the same orders, numbers of levels, fixed names; all positive scales and shifts of the axes", "why_tests_cant": "compares two runs for all pairs of functions", "anchors": ["crysgsu/gsu/grid.py:Grid.decompose_hierarchical", "crysgsu/gsu/grid.py:Grid.split_zone", "crysgsu/gsu/grid.py:Grid.split_zone_metric"]}
