{"id": "C01", "title": "regularize loses nothing and leaves no gap", "statement": "regularize(topo) returns a topology t and an array ids of the same shape relation: ids is strictly increasing and holds exactly the node numbers used in topo, t uses exactly the numbers 0..len(ids)-1, and ids[t[c][j]] == topo[c][j] for every entry.", "quantifier": "every topology array (any number of cells, any widths, any node numbers)", "why_tests_cant": "The round trip must hold for every numbering with arbitrary gaps and repetitions; a test fixes one.", "anchors": ["src/polymesh/utils/topology/topo.py:regularize"]}
{"id": "C02", "title": "is_regular decides gap-freeness", "statement": "is_regular(topo) is True exactly when the set of node numbers used by topo is {0,1,...,m} for some m; in particular it is True for every topology returned by regularize.", "quantifier": "every non-empty topology of non-negative node numbers", "why_tests_cant": "An equivalence over all arrays: a sample cannot exclude a false positive or a false negative.", "anchors": ["src/polymesh/utils/topology/topo.py:is_regular", "src/polymesh/utils/topology/topo.py:regularize"]}
{"id": "C03", "title": "rewire applies the map entrywise, and the inverse rewire undoes it", "statement": "rewire(topo, imap) returns imap[topo[c][j]] at every place and fails if some node is not covered; with invert=True and an id array without repetitions it returns the positions of the nodes in the id array, so rewire(rewire(topo, ids, invert=True), ids) == topo and rewire(rewire(topo, ids), ids, invert=True) == topo; rewiring twice is rewiring by the composed map.", "quantifier": "every topology, every index map (array or dictionary)", "why_tests_cant": "Round trip over all maps, including maps with missing keys.", "anchors": ["src/polymesh/utils/topology/topo.py:rewire", "src/polymesh/utils/topology/topo.py:remap_topo", "src/polymesh/utils/topology/topo.py:remap_topo_1d", "src/polymesh/utils/topology/topo.py:inds_to_invmap_as_dict"]}
{"id": "C04", "title": "detach keeps the geometry of every cell and drops exactly the unused points", "statement": "detach(coords, topo) returns (c, t) where c[t[i][j]] is coords[topo[i][j]] for every node of every cell, t is regular, and c lists each used point once, in the original order, and no unused one.", "quantifier": "every coordinate array and every topology whose numbers are in range", "why_tests_cant": "Must hold for arbitrary patterns of unused points.", "anchors": ["src/polymesh/utils/topology/topo.py:detach", "src/polymesh/utils/topology/topo.py:detach_mesh_bulk", "src/polymesh/utils/topology/topo.py:detach_mesh_data_bulk", "src/polymesh/utils/topology/topo.py:detach_mesh_jagged"]}
{"id": "C05", "title": "count_cells_at_nodes counts incidences", "statement": "For a topology of n nodes count_cells_at_nodes gives for every node the number of its occurrences in the topology (the number of cells meeting at it when no cell repeats a node); the counts sum to the total number of entries.", "quantifier": "every regular topology", "why_tests_cant": "All topologies and all nodes at once, including nodes of no cell and cells with repeated nodes.", "anchors": ["src/polymesh/utils/topology/topo.py:count_cells_at_nodes", "src/polymesh/utils/topology/topo.py:_count_cells_at_nodes_reg_np_"]}
{"id": "C06", "title": "cells_at_nodes is exact incidence", "statement": "The cells listed by cells_at_nodes for node n are exactly the cells containing n, each once, in ascending order, and the returned within-cell positions are correct (topo[cell][pos] == n), in every return format.", "quantifier": "every regular topology whose cells repeat no node, every node", "why_tests_cant": "Soundness and completeness over all topologies.", "anchors": ["src/polymesh/utils/topology/topo.py:cells_at_nodes", "src/polymesh/utils/topology/topo.py:_cells_at_nodes_reg_np_", "src/polymesh/utils/topology/topo.py:_nodal_cell_data_to_dicts_", "src/polymesh/utils/topology/topo.py:_nodal_cell_data_to_spdata_"]}
{"id": "C07", "title": "nodal_adjacency is the shares-a-cell relation", "statement": "Node m is listed by nodal_adjacency for node n iff some cell contains both; the relation is symmetric, every used node is adjacent to itself, and each list is sorted without repetitions.", "quantifier": "every topology and every pair of nodes", "why_tests_cant": "Relation-level statement (iff, symmetry) over all meshes.", "anchors": ["src/polymesh/utils/topology/topo.py:nodal_adjacency", "src/polymesh/utils/topology/topo.py:_nodal_adjacency_as_dol_np_", "src/polymesh/utils/topology/topo.py:dol_to_jagged_data"]}
{"id": "C08", "title": "unique_topo_data identifies entities with the same nodes and only those", "statement": "unique_topo_data returns (u, inv): no two rows of u have the same nodes; row inv[i] of u has exactly the nodes of input row i (with multiplicity); two input rows get the same number iff they have the same nodes; every row of u is used.", "quantifier": "every array of edges or faces", "why_tests_cant": "Needs all row pairs of all arrays; the claimed exact reconstruction u[inv] == topo must be examined for every node order.", "anchors": ["src/polymesh/utils/topology/topo.py:unique_topo_data"]}
{"id": "C09", "title": "transform_topology places sub-cells and their data consistently", "statement": "After transform_topology(topo, path, data) sub-cell k of cell i is row i*len(path)+k, its j-th node is topo[i][path[k][j]], and the data row with the same number is the data of the parent: elementwise data by cell, and nodal data by path; no node outside the parent is used.", "quantifier": "every topology, every transformation path, every cell data array", "why_tests_cant": "Index arithmetic for all sizes.", "anchors": ["src/polymesh/utils/topology/tr.py:transform_topology", "src/polymesh/utils/topology/tr.py:_transform_topology_", "src/polymesh/utils/topology/tr.py:transform_topology_data", "src/polymesh/utils/topology/tr.py:repeat_cell_nodal_data"]}
{"id": "C10", "title": "compose_trmap is composition", "statement": "Transforming a topology with path1 and the result with path2 gives the same cells, in the same order, as one transformation with compose_trmap(path1, path2).", "quantifier": "every topology and every pair of compatible paths", "why_tests_cant": "Algebraic law over all paths and topologies.", "anchors": ["src/polymesh/utils/topology/tr.py:compose_trmap", "src/polymesh/utils/topology/tr.py:_transform_topology_", "src/polymesh/polyhedron.py:BiquadraticWedge.tetmap"]}
{"id": "C11", "title": "cell boundaries are closed and outward", "statement": "The faces that the library lists for a tetrahedron, a hexahedron and a wedge form a closed oriented surface (each edge is run through exactly once in each direction) using exactly the edges of the edge table, and for every positively oriented affine cell each face is listed so that the other nodes lie behind it.", "quantifier": "every cell of these types with any node numbers, every affine positively oriented geometry", "why_tests_cant": "The claim is for every cell geometry; tests check counts.", "anchors": ["src/polymesh/utils/topodata.py:faces_TET4", "src/polymesh/utils/topodata.py:faces_H8", "src/polymesh/utils/topodata.py:faces_W6", "src/polymesh/utils/topodata.py:edges_H8", "src/polymesh/utils/topology/tr.py:H8_to_Q4"]}
{"id": "C12", "title": "order elevation makes conforming meshes", "statement": "Order-elevating conversions (L2 to L3, T3 to T6, Q4 to Q8/Q9, TET4 to TET10, H8 to H27, W6 to W18) keep all original points and cell corners; each new node sits at the average of its parent nodes; two cells sharing an edge (or face) get the same new node on it, in both orders; different edges get different nodes; all new numbers are in range and all new points are used.", "quantifier": "every mesh of the given cell type", "why_tests_cant": "Sharing must be right for every pair of cells and every orientation of shared edges.", "anchors": ["src/polymesh/utils/topology/tr.py:T3_to_T6", "src/polymesh/utils/topology/tr.py:Q4_to_Q8", "src/polymesh/utils/topology/tr.py:Q4_to_Q9", "src/polymesh/utils/topology/tr.py:TET4_to_TET10", "src/polymesh/utils/topology/tr.py:H8_to_H27", "src/polymesh/utils/topology/tr.py:L2_to_L3", "src/polymesh/utils/topology/tr.py:W6_to_W18"]}
{"id": "C13", "title": "conversions to simpler cells preserve total area or volume", "statement": "Splitting T6 into T3, Q4/Q8/Q9 into triangles or quads, H8/H27/W6/W18/TET10 into tetrahedra, wedges or hexahedra gives pieces whose signed areas (volumes) add up to that of the parent, for straight-sided parents.", "quantifier": "every affine placement (polygon case: any corner positions) of the parent in space", "why_tests_cant": "Real-valued identity for all coordinates; tests compare one mesh within a tolerance.", "anchors": ["src/polymesh/utils/topology/tr.py:T6_to_T3", "src/polymesh/utils/topology/tr.py:Q4_to_T3", "src/polymesh/utils/topology/tr.py:Q8_to_T3", "src/polymesh/utils/topology/tr.py:Q9_to_Q4", "src/polymesh/utils/topology/tr.py:H8_to_TET4", "src/polymesh/utils/topology/tr.py:H27_to_H8", "src/polymesh/utils/topology/tr.py:W6_to_TET4", "src/polymesh/utils/topology/tr.py:W18_to_W6", "src/polymesh/utils/topology/tr.py:H27_to_TET10", "src/polymesh/polygon.py:trimap", "src/polymesh/polyhedron.py:tetmap"]}
{"id": "C14", "title": "conversions never invert and never overlap", "statement": "Every piece of such a splitting is positively oriented when the parent is, and the pieces tile the parent: their interiors are disjoint and each point of the parent is in a piece.", "quantifier": "every positively oriented affine parent, every point of it", "why_tests_cant": "Quantifies over all points of the cell; volume sums cannot see an overlap balanced by a gap.", "anchors": ["src/polymesh/utils/topology/tr.py:W6_to_TET4", "src/polymesh/utils/topology/tr.py:H8_to_TET4", "src/polymesh/utils/topology/tr.py:T6_to_T3", "src/polymesh/trimesh.py:TriMesh.to_triobj"]}
{"id": "C15", "title": "extrusion of triangles", "statement": "Extruding a triangulation over N layers yields wedges or tetrahedra whose node numbers are in range, with positive volumes when triangles are counter-clockwise and the height is positive, whose volumes add up to area times height, and the diagonals chosen on a lateral face by the two neighbouring wedges agree.", "quantifier": "every triangulation, every number of layers, every height", "why_tests_cant": "Conformity across all neighbouring pairs and layers.", "anchors": ["src/polymesh/extrude.py:extrude_T3_TET4", "src/polymesh/extrude.py:extrude_T3_W6", "src/polymesh/trimesh.py:TriMesh.extrude"]}
{"id": "C16", "title": "grid numbering is gap-free and in range", "statement": "grid(size, shape, eshape) returns exactly the documented number of points and cells; every node number in the topology is in range, every point is used, and the nodes of a cell are pairwise different.", "quantifier": "every grid shape and every element shape in 1, 2 and 3 dimensions", "why_tests_cant": "All shapes; off-by-one errors in index arithmetic survive square samples.", "anchors": ["src/polymesh/grid.py:grid", "src/polymesh/grid.py:rgridMT", "src/polymesh/grid.py:_rgridST"]}
{"id": "C17", "title": "grid geometry", "statement": "Node (a,b,c) of cell (i,j,k) of a grid lies at origin + ((i + a/(n-1))*Lx/nx, ...): the coordinates stored for a point shared by several cells are the same whichever cell wrote it, so the cells tile the box of the requested size.", "quantifier": "every size, shape, element shape and shift", "why_tests_cant": "Writes by different cells to one point must agree for every shape.", "anchors": ["src/polymesh/grid.py:grid", "src/polymesh/grid.py:rgridMT"]}
{"id": "C18", "title": "grid offset", "statement": "Generating a grid with start=s equals the grid with start 0 with s added to all node numbers, with identical coordinates.", "quantifier": "every grid and start", "why_tests_cant": "universal law", "anchors": ["src/polymesh/grid.py:grid", "src/polymesh/grid.py:rgridMT"]}
{"id": "C19", "title": "grid cells follow VTK node order", "statement": "The cells of gridQ4, gridQ9, gridH8 and gridH27 list their nodes in the order of the matching master cell: node n of the cell is at the position of the n-th local coordinate of Q4, Q9, H8, H27 mapped affinely to the cell.", "quantifier": "every grid of these types, every cell, every node", "why_tests_cant": "All cells of all grids; a transposed pair of nodes gives a plausible mesh.", "anchors": ["src/polymesh/grid.py:gridQ4", "src/polymesh/grid.py:gridQ9", "src/polymesh/grid.py:gridH8", "src/polymesh/grid.py:gridH27", "src/polymesh/cells/q9.py:Q9.lcoords", "src/polymesh/cells/h27.py:H27.lcoords"]}
{"id": "C20", "title": "parallel loops do not depend on the schedule", "statement": "The result of the parallel grid generator, of the cell-coordinates gather, of explode_mesh and of transform_topology does not depend on the order in which loop iterations run, and equals the sequential result.", "quantifier": "every schedule (every interleaving order of iterations) and every input", "why_tests_cant": "A race shows up in few schedules.", "anchors": ["src/polymesh/grid.py:rgridMT", "src/polymesh/utils/utils.py:cells_coords", "src/polymesh/utils/topology/tr.py:_transform_topology_", "src/polymesh/utils/utils.py:explode_mesh_bulk"]}
{"id": "C21", "title": "grids from bins", "statement": "grid_2d_bins/grid_3d_bins return the tensor-product points of the bins, once each, and the cell (i,j[,k]) is the box between consecutive bin values, in counter-clockwise (VTK) order for increasing bins.", "quantifier": "every list of bin values in each direction", "why_tests_cant": "Universal index statement.", "anchors": ["src/polymesh/grid.py:grid_2d_bins", "src/polymesh/grid.py:grid_3d_bins"]}
{"id": "C22", "title": "refining lines", "statement": "mesh1d_uniform with 2-noded cells splits each line into N pieces: original points keep number and position, the pieces of a line form a chain from its first to its second node, interior points are evenly spaced and belong to one line only.", "quantifier": "every line mesh, every N >= 1", "why_tests_cant": "Numbering must be right for all line and piece counts.", "anchors": ["src/polymesh/mesh1d.py:mesh1d_uniform", "src/polymesh/mesh1d.py:_mesh1d_uniform_"]}
{"id": "C23", "title": "exploding and decomposing meshes", "statement": "explode_mesh gives every cell its own points: no point is shared, coordinates and data of the points of a cell equal those of the original nodes; for a scalar per cell the value at every exploded node is that of its cell.", "quantifier": "every mesh", "why_tests_cant": "All meshes and all entries.", "anchors": ["src/polymesh/utils/utils.py:explode_mesh_bulk", "src/polymesh/utils/utils.py:explode_mesh_data_bulk", "src/polymesh/utils/utils.py:decompose"]}
{"id": "C24", "title": "nodal distribution factors are a partition", "statement": "At every node that belongs to some cell the factors of nodal_distribution_factors over the incident cell-node pairs sum to 1 and are non-negative for positive weights; factors of cells at a node are proportional to the weights.", "quantifier": "every regular topology without repeated nodes in a cell, every positive weight vector", "why_tests_cant": "Identity over all meshes and weights.", "anchors": ["src/polymesh/utils/utils.py:nodal_distribution_factors", "src/polymesh/utils/utils.py:_nodal_distribution_factors_dense_", "src/polymesh/utils/utils.py:_nodal_distribution_factors_csr_"]}
{"id": "C25", "title": "distributing and collecting cell data", "statement": "Collecting cell-nodal data with distribution factors conserves totals, reproduces a constant field exactly, and bounds the nodal value between the minimum and maximum of the contributions; distribute followed by collect is the identity on nodal data.", "quantifier": "every mesh, every data array, every set of factors summing to 1", "why_tests_cant": "Universal identities over data and meshes.", "anchors": ["src/polymesh/utils/utils.py:distribute_nodal_data_bulk", "src/polymesh/utils/utils.py:collect_nodal_data", "src/polymesh/pointdata.py:PointData.pull", "src/polymesh/celldata.py:CellData.pull"]}
{"id": "C26", "title": "averaging, centring", "statement": "avg_cell_data gives each cell the mean of its nodes' values; cell_center is the mean of the corners; centralize translates all points by one vector so that their mean is the origin, leaves all differences unchanged and is idempotent.", "quantifier": "every non-empty array of points, every topology", "why_tests_cant": "Universal identities; empty input.", "anchors": ["src/polymesh/utils/utils.py:avg_cell_data", "src/polymesh/utils/utils.py:cell_center", "src/polymesh/utils/utils.py:center_of_points", "src/polymesh/utils/utils.py:centralize", "src/polymesh/utils/utils.py:_centralize_cells_coords_"]}
{"id": "C27", "title": "triangle area", "statement": "area_tri is the signed area: invariant under translation and cyclic renumbering, changes sign when two nodes are swapped, is additive when a triangle is split at any point; the vectorised and coordinate-list variants agree with it.", "quantifier": "all triples of points", "why_tests_cant": "Identities over all coordinates.", "anchors": ["src/polymesh/utils/tri.py:area_tri", "src/polymesh/utils/tri.py:area_tri_bulk", "src/polymesh/utils/tri.py:areas_tri", "src/polymesh/utils/tri.py:area_tri_u"]}
{"id": "C28", "title": "natural coordinates of a triangle", "statement": "glob_to_nat_tri and nat_to_glob_tri are mutually inverse for every non-degenerate triangle, the natural coordinates sum to 1 and are those of the unique affine combination giving the point.", "quantifier": "all non-degenerate triangles of either orientation and all points", "why_tests_cant": "Orientation is a sign case that samples of counter-clockwise triangles never reach.", "anchors": ["src/polymesh/utils/tri.py:glob_to_nat_tri", "src/polymesh/utils/tri.py:nat_to_glob_tri", "src/polymesh/utils/tri.py:loc_to_glob_tri", "src/polymesh/utils/tri.py:glob_to_loc_tri", "src/polymesh/utils/tri.py:loc_to_nat_tri", "src/polymesh/utils/tri.py:nat_to_loc_tri"]}
{"id": "C29", "title": "point location in triangles is membership", "statement": "A point is reported inside a triangle iff it is a convex combination of the corners (with tolerance 0); localize_points and get_points_inside_triangles report a triangle containing the point whenever one exists and never one that does not.", "quantifier": "all triangulations, all points", "why_tests_cant": "iff over all points.", "anchors": ["src/polymesh/utils/tri.py:__pip_tri_bulk__", "src/polymesh/utils/tri.py:localize_points", "src/polymesh/utils/tri.py:get_points_inside_triangles", "src/polymesh/utils/locate.py:locate_tri_2d"]}
{"id": "C30", "title": "tetrahedron volume and natural coordinates", "statement": "vol_tet is the signed volume (translation invariant, alternating, additive under splitting at any point); glob_to_nat_tet returns the unique affine coordinates of the point, they sum to 1, and the point-in-tetrahedron test holds iff the point is a convex combination of the corners.", "quantifier": "all tetrahedra of non-zero volume of either orientation, all points", "why_tests_cant": "iff and identities over all coordinates.", "anchors": ["src/polymesh/utils/tet.py:vol_tet", "src/polymesh/utils/tet.py:vol_tet_bulk", "src/polymesh/utils/tet.py:glob_to_nat_tet", "src/polymesh/utils/tet.py:__pip_tet_bulk__"]}
{"id": "C31", "title": "cell frames are orthonormal and right-handed", "statement": "frames_of_surfaces, frames_of_lines and tri_glob_to_loc give three unit, mutually orthogonal, right-handed axes, the first along the cell's first edge, the third normal to the surface; local coordinates in such frames preserve distances.", "quantifier": "every non-degenerate cell (and every reference vector not parallel to the line)", "why_tests_cant": "All geometries; a missing normalisation is invisible on unit cells.", "anchors": ["src/polymesh/utils/space.py:frame_of_plane", "src/polymesh/utils/space.py:frames_of_surfaces", "src/polymesh/utils/space.py:frames_of_lines", "src/polymesh/utils/tri.py:tri_glob_to_loc", "src/polymesh/utils/space.py:tr_cell_glob_to_loc_bulk"]}
{"id": "C32", "title": "nearest and furthest points", "statement": "index_of_closest_point (index_of_furthest_point) returns an index whose point is at minimal (maximal) distance from the target among all points; for lists of targets entry i answers target i.", "quantifier": "every non-empty cloud, every target", "why_tests_cant": "Optimality over all points.", "anchors": ["src/polymesh/utils/space.py:index_of_closest_point", "src/polymesh/utils/space.py:index_of_furthest_point", "src/polymesh/utils/space.py:distance_matrix"]}
{"id": "C33", "title": "orientation of polygons", "statement": "For a simple polygon of non-zero area exactly one of is_cw and is_ccw holds; reversing the vertex order swaps them; a cyclic shift or translation changes nothing.", "quantifier": "every vertex list", "why_tests_cant": "All polygons and shifts.", "anchors": ["src/polymesh/utils/utils.py:is_cw", "src/polymesh/utils/utils.py:is_ccw"]}
{"id": "C34", "title": "hand-written shape functions interpolate", "statement": "For L2, T3, T6, Q4, Q9, TET4, H8 and H27 the shape functions sum to 1 everywhere, equal 1 at their own node of the master cell and 0 at the others, and reproduce every linear function of the local coordinates.", "quantifier": "every point of local coordinates", "why_tests_cant": "Polynomial identities at all points.", "anchors": ["src/polymesh/utils/cells/l2.py", "src/polymesh/utils/cells/t3.py", "src/polymesh/utils/cells/t6.py", "src/polymesh/utils/cells/q4.py", "src/polymesh/utils/cells/q9.py", "src/polymesh/utils/cells/tet4.py", "src/polymesh/utils/cells/h8.py", "src/polymesh/utils/cells/h27.py"]}
{"id": "C35", "title": "shape function derivatives are the derivatives", "statement": "For the same cells the values returned by shape_function_derivatives are the partial derivatives of the shape functions, at every point.", "quantifier": "every point, every node, every direction", "why_tests_cant": "A wrong sign in one of 81 formulas is invisible at symmetric points.", "anchors": ["src/polymesh/utils/cells/t6.py:dshp_T6", "src/polymesh/utils/cells/q4.py:dshp_Q4", "src/polymesh/utils/cells/q9.py:dshp_Q9", "src/polymesh/utils/cells/h8.py:dshp_H8", "src/polymesh/utils/cells/h27.py:dshp_H27"]}
{"id": "C36", "title": "generated shape functions interpolate", "statement": "Shape functions generated from the polynomial base and the local coordinates of a cell class have the Kronecker property, sum to 1 and reproduce every polynomial of the base, whenever the generation succeeds; it succeeds for L3, TET10, W6 and W18.", "quantifier": "every master cell (nodes, monomials) with an invertible matrix of monomials", "why_tests_cant": "A statement over every cell class that can be defined, not only the shipped ones.", "anchors": ["src/polymesh/cell.py:PolyCell.generate_class_functions", "src/polymesh/cells/w18.py:W18.polybase", "src/polymesh/cells/tet10.py:TET10.polybase"]}
{"id": "C37", "title": "quadrature rules are exact to their degree", "statement": "The rules shipped for triangles, tetrahedra and wedges integrate every polynomial up to their degree exactly over the master cell; weights sum to the measure and the points lie inside.", "quantifier": "every polynomial of the stated degree", "why_tests_cant": "All polynomials; the tests use constant integrands (volumes of affine cells).", "anchors": ["src/polymesh/utils/cells/gauss.py"]}
{"id": "C38", "title": "isoparametric areas and volumes", "statement": "The area (volume) computed from the quadrature rule equals the exact area (volume) for T6, H8, TET10 and W6 cells with straight sides, and is invariant under translations.", "quantifier": "every cell geometry", "why_tests_cant": "Real-valued identity for all node positions.", "anchors": ["src/polymesh/utils/cells/utils.py:volumes", "src/polymesh/utils/cells/t6.py:areas_T6", "src/polymesh/utils/cells/h8.py:volumes_H8"]}
{"id": "C39", "title": "the id allocator never hands out a live id", "statement": "Over any history of generating and recycling ids, no id is handed out while it is in use, and a request for n ids returns n different ids.", "quantifier": "every sequence of requests and recyclings", "why_tests_cant": "Needs every history; the defect needs a specific order of requests.", "anchors": ["src/polymesh/polydata.py:IndexManager"]}
{"id": "C40", "title": "cells of a mesh tree carry unique global ids", "statement": "After any sequence of adding and deleting blocks, the ids of all cells in all blocks are pairwise different.", "quantifier": "every history of adding and deleting blocks", "why_tests_cant": "History-dependent.", "anchors": ["src/polymesh/polydata.py:PolyData.__join_parent__", "src/polymesh/polydata.py:PolyData.__leave_parent__", "src/polymesh/polydata.py:IndexManager"]}
{"id": "C41", "title": "to_standard_form preserves every cell's geometry and data", "statement": "After to_standard_form all blocks refer to the single point array of the root; each node of each cell has the coordinates it had before in the coordinate array of its source block, and point data are carried along (missing fields filled with the default).", "quantifier": "every tree of point and cell blocks", "why_tests_cant": "All trees and all topologies.", "anchors": ["src/polymesh/polydata.py:PolyData.to_standard_form"]}
{"id": "C42", "title": "nummrg and rewire preserve every cell's geometry", "statement": "Merging nodal numbers with nummrg renumbers the nodes of every cell block consistently: each cell keeps its points.", "quantifier": "every tree of cell blocks", "why_tests_cant": "Nested blocks at every depth.", "anchors": ["src/polymesh/polydata.py:PolyData.nummrg", "src/polymesh/polydata.py:PolyData.rewire"]}
{"id": "C43", "title": "rigid motions of meshes", "statement": "Moving (rotating, centring) a mesh or a block changes the coordinates of exactly the points of that block, all by the same motion; no other point changes.", "quantifier": "every mesh, every block, every motion", "why_tests_cant": "All blocks and subsets of points.", "anchors": ["src/polymesh/polydata.py:PolyData.move", "src/polymesh/polydata.py:PolyData.rotate", "src/polymesh/polydata.py:PolyData.centralize"]}
{"id": "C44", "title": "point clouds keep track of original indices", "statement": "Slicing a point cloud any number of times yields points whose recorded indices refer to the original cloud: point i of the result is point inds[i] of the original.", "quantifier": "every chain of slices, integers and index lists", "why_tests_cant": "Compositions of arbitrary length.", "anchors": ["src/polymesh/space/pointcloud.py:PointCloud.__getitem__"]}
{"id": "C45", "title": "points seen from different frames", "statement": "show(target) gives the coordinates of the same points in the target frame: viewing back gives the original coordinates, distances do not depend on the frame, and viewing in the own frame returns the stored coordinates.", "quantifier": "every pair of (possibly nested) orthonormal frames with origins, every point", "why_tests_cant": "All frames.", "anchors": ["src/polymesh/space/pointcloud.py:PointCloud.show", "src/polymesh/space/frame.py:CartesianFrame.relative_origo"]}
{"id": "C46", "title": "stacking topologies", "statement": "TopologyArray built from several topologies lists all their cells in order with their widths; vstack is associative and keeps every cell; node numbers are untouched.", "quantifier": "every list of regular or jagged topologies", "why_tests_cant": "All mixes of widths.", "anchors": ["src/polymesh/topoarray.py:TopologyArray", "src/polymesh/topoarray.py:TopologyArray.vstack"]}
{"id": "C47", "title": "locating points in solid cells", "statement": "If PolyCell3d.locate reports cell c and local coordinates for a point then the point lies in a tetrahedron of cell c and evaluating the affine map of that tetrahedron at the reported natural coordinates gives the point; a point in some cell is located.", "quantifier": "every mesh of solid cells, every point", "why_tests_cant": "All points and cells; index arithmetic between tetrahedra and cells.", "anchors": ["src/polymesh/cell.py:PolyCell3d.locate", "src/polymesh/utils/cells/utils.py:_find_first_hits_", "src/polymesh/utils/cells/utils.py:_ntet_to_loc_bulk_"]}
{"id": "C48", "title": "first hits", "statement": "The hit search reports for every point an index at which the test is true if there is one, and -1 exactly when there is none, whatever the order of loop iterations; as its name says it reports the first one.", "quantifier": "every boolean table, every schedule", "why_tests_cant": "schedule-dependent", "anchors": ["src/polymesh/utils/cells/utils.py:_find_first_hits_", "src/polymesh/utils/cells/utils.py:_find_first_hits_1d_"]}
{"id": "C49", "title": "colour conversion round trip", "statement": "hex_to_rgb(rgb_to_hex(c)) == c for every colour with components 0..255; with or without a leading '#'; rgb_to_hex is injective.", "quantifier": "all 256^3 colours", "why_tests_cant": "exhaustive domain", "anchors": ["src/polymesh/utils/colors.py:rgb_to_hex", "src/polymesh/utils/colors.py:hex_to_rgb"]}
{"id": "C50", "title": "subdividing bins", "statement": "The subdivision of bins used by ribbed_plate keeps every original bin value, is increasing, and no gap exceeds the maximum length.", "quantifier": "every increasing list of bins, every positive maximum length", "why_tests_cant": "All bins and lengths, including gaps that are exact multiples.", "anchors": ["src/polymesh/recipes.py:ribbed_plate"]}
{"id": "C51", "title": "radius neighbours", "statement": "points_around / cells_around list for each point exactly the other points closer than the radius (or at the radius), in every return format.", "quantifier": "every cloud and radius", "why_tests_cant": "exactness over all clouds and formats", "anchors": ["src/polymesh/utils/utils.py:points_around", "src/polymesh/utils/utils.py:_cells_around_ST_", "src/polymesh/utils/utils.py:_cells_around_MT_"]}
{"id": "C52", "title": "blocks_of_cells answers with the owning block", "statement": "blocks_of_cells(ids) returns for every given cell id the block that contains the cell with that id.", "quantifier": "every tree and id", "why_tests_cant": "All trees of blocks.", "anchors": ["src/polymesh/polydata.py:PolyData.blocks_of_cells", "src/polymesh/polydata.py:PolyData._create_mappers_"]}
{"id": "C53", "title": "points of selected cells", "statement": "PolyCell.points_of_cells(cells=c) returns the points of exactly the cells whose ids are c.", "quantifier": "every block of a mesh tree, every selection", "why_tests_cant": "Ids of later blocks do not start at 0.", "anchors": ["src/polymesh/cell.py:PolyCell.points_of_cells", "src/polymesh/utils/utils.py:points_of_cells"]}
{"id": "C54", "title": "evaluating positions in cells", "statement": "PolyCell.loc_to_glob(x) returns for every cell the point sum_j N_j(x) X_j, so the images of the master nodes are the cell's nodes and linear local interpolation is exact.", "quantifier": "every cell, every list of local points", "why_tests_cant": "All evaluation point counts.", "anchors": ["src/polymesh/cell.py:PolyCell.loc_to_glob", "src/polymesh/utils/cells/utils.py:_loc_to_glob_bulk_"]}
{"id": "C55", "title": "flipping cells", "statement": "flip() reverses the orientation of every cell, keeps its node set, and flipping twice restores the cell.", "quantifier": "every topology", "why_tests_cant": "universal", "anchors": ["src/polymesh/cell.py:PolyCell.flip"]}
{"id": "C56", "title": "tiling and populating", "statement": "tile2d merges coincident border points of neighbouring tiles: each geometric point occurs once in the result and each cell keeps its geometry.", "quantifier": "every tile, every tile count", "why_tests_cant": "All tile counts; corner points shared by four tiles.", "anchors": ["src/polymesh/tile.py:tile2d"]}
{"id": "C57", "title": "closed triangulated surface from a tetrahedron file", "statement": "The triangles produced for each tetrahedron read from an .inp file form a closed oriented surface; the flip option reverses every triangle and keeps its nodes; node numbers of later parts are offset by the number of nodes read before.", "quantifier": "every sequence of records", "why_tests_cant": "All files / parts.", "anchors": ["src/polymesh/io/inp2stl.py:readInpFile"]}
{"id": "C58", "title": "one-dimensional coordinate maps", "statement": "pcoords_to_coords_1d maps 0 and 1 to the ends of each line and parameters between to the convex combination, in cell-major order; lengths_of_lines are the Euclidean distances of ends.", "quantifier": "every line mesh, every parameter list", "why_tests_cant": "index and real identities", "anchors": ["src/polymesh/utils/utils.py:pcoords_to_coords_1d", "src/polymesh/utils/utils.py:lengths_of_lines", "src/polymesh/utils/utils.py:lengths_of_lines2"]}
{"id": "C59", "title": "skin of a solid mesh", "statement": "The surface extracted from a solid mesh is made of exactly those faces that belong to one cell only.", "quantifier": "every conforming solid mesh", "why_tests_cant": "All meshes and face orientations.", "anchors": ["src/polymesh/cell.py:PolyCell3d.extract_surface", "src/polymesh/polydata.py:PolyData.surface", "src/polymesh/utils/topology/topo.py:unique_topo_data"]}
{"id": "C60", "title": "splitting a conforming mesh gives a conforming mesh", "statement": "If neighbouring cells of a mesh share their faces node by node, the cells they are split into (T6 to T3, Q9 to Q4, H8 to TET4, W6 to TET4, H27 to H8, W18 to W6) again share their faces node by node.", "quantifier": "every pair of neighbouring cells, every node numbering, every position of the shared face", "why_tests_cant": "areas and volumes stay right when diagonals of neighbours cross; only the topology of all neighbour configurations shows it", "anchors": ["src/polymesh/utils/topology/tr.py"]}
{"id": "C61", "title": "clouds and frames move as told", "statement": "Moving a point cloud or frame by a vector given in some frame (the root frame if none is given) shifts its points by this vector; centralizing brings the centre to the origin of the chosen frame; the origin of a frame can be assigned.", "quantifier": "all orthonormal frames, all points and vectors", "why_tests_cant": "real identities over all frames", "anchors": ["src/polymesh/space/pointcloud.py:PointCloud.move", "src/polymesh/space/pointcloud.py:PointCloud.centralize", "src/polymesh/space/frame.py:CartesianFrame.move", "src/polymesh/space/frame.py:CartesianFrame.origo"]}
{"id": "C62", "title": "the ribbed plate is the plate and its ribs", "statement": "For positive sizes, the cells made by ribbed_plate are boxes (or tetrahedra of positive volume) that cover exactly the union of the plate and of the given ribs, do not overlap and share their points; no edge of a box is longer than the given maximum length; an order other than 1 or 2 is an error.", "quantifier": "all sizes of plate and ribs, all eccentricities, all maximum lengths, both orders, hexahedra and tetrahedra", "why_tests_cant": "real sizes and arbitrary numbers of subdivisions", "anchors": ["src/polymesh/recipes.py:ribbed_plate", "src/polymesh/utils/utils.py:cell_centers_bulk"]}
{"id": "C63", "title": "inscribed circles of triangles", "statement": "inscribed_radius returns the radius of the circle inside of the triangle that touches the three sides; radius times half of the perimeter is the area; inscribed_radii does this for each triangle.", "quantifier": "all triangles in space that are not degenerate", "why_tests_cant": "real coordinates, square roots", "anchors": ["src/polymesh/utils/tri.py:inscribed_radius", "src/polymesh/utils/tri.py:inscribed_radii"]}
{"id": "C64", "title": "offsetting triangles", "statement": "offset_tri shrinks every triangle about its own centre by its factor: same centre, parallel sides, for factors from 0 to 1 inside of the triangle; the triangles of the result share no points. A single number is used for all triangles.", "quantifier": "all meshes of triangles, all factors", "why_tests_cant": "arbitrary meshes and factors", "anchors": ["src/polymesh/utils/tri.py:offset_tri", "src/polymesh/utils/tri.py:_offset_tri_uniform_", "src/polymesh/utils/tri.py:_offset_tri_"]}
{"id": "C65", "title": "data approximated at points", "statement": "approx_data_to_points gives at every point inside of a triangle the linear interpolation of the nodal data of that triangle, whatever the schedule.", "quantifier": "all triangulations, all points, all nodal data, all schedules", "why_tests_cant": "arbitrary meshes and schedules of the parallel loop", "anchors": ["src/polymesh/utils/tri.py:approx_data_to_points"]}
{"id": "C66", "title": "recognizing planes and lines", "statement": "is_planar_surface and TriMesh.is_planar hold exactly if all triangles of a connected mesh are in one plane (up to the tolerance); is_line holds exactly if the points are on a line, is_planar exactly if they are in a plane.", "quantifier": "all sets of points, all connected meshes of triangles", "why_tests_cant": "real coordinates", "anchors": ["src/polymesh/utils/space.py:is_planar_surface", "src/polymesh/utils/space.py:is_line", "src/polymesh/utils/space.py:is_planar", "src/polymesh/trimesh.py:TriMesh.is_planar"]}
{"id": "C67", "title": "Jacobians of cells", "statement": "The Jacobian matrix of a cell at a parametric point has in its columns the derivatives of the position with respect to the parameters, in the local frame; its determinant is, for solids, the triple product of the tangents whatever the frames, for flat surface cells up to sign the area of the parallelogram of the tangents, for lines the length of the tangent. It is constant for affine cells.", "quantifier": "all cell types, all coordinates, all orthonormal frames, all evaluation points", "why_tests_cant": "real coordinates and frames, arbitrary meshes", "anchors": ["src/polymesh/utils/utils.py:jacobian_matrix_bulk", "src/polymesh/utils/utils.py:jacobian_det_bulk_1d", "src/polymesh/utils/utils.py:jacobian_matrix_bulk_1d", "src/polymesh/utils/utils.py:points_of_cells", "src/polymesh/cell.py:PolyCell.jacobian_matrix", "src/polymesh/cell.py:PolyCell.jacobian", "src/polymesh/cell.py:PolyCell.local_coordinates", "src/polymesh/cells/l2.py", "src/polymesh/line.py"]}
{"id": "C72", "title": "shape function matrices", "statement": "The shape function matrix applied to the vector of all nodal values (node after node, ndof values each) gives for each component the interpolation of the nodal values of that component; at a node it gives the values of the node, and linear fields are reproduced. Any number of components.", "quantifier": "all cell types, all numbers of components, all nodal values, all points, all schedules", "why_tests_cant": "arbitrary numbers of components, real values, schedules of the parallel loops", "anchors": ["src/polymesh/utils/cells/*.py:shape_function_matrix_*", "src/polymesh/cell.py:PolyCell.shape_function_matrix", "src/polymesh/utils/tri.py:shape_function_matrix_tri_loc"]}
{"id": "C68", "title": "lines between nearest neighbours", "statement": "knngridL2 joins every point with its nearest neighbours: lines join two different points, no pair is joined twice, joined points are among the k nearest of one another from one end at least, every pair of this kind is joined, points keep their coordinates and numbers. No line is longer than max_distance; every point gets k neighbours; any k.", "quantifier": "all point clouds, all numbers of neighbours, all answers of the KD-tree that meet its contract", "why_tests_cant": "arbitrary clouds and ties in the distances", "anchors": ["src/polymesh/grid.py:knngridL2", "src/polymesh/utils/knn.py:k_nearest_neighbours", "src/polymesh/utils/knn.py:knn_to_lines"]}
{"id": "C69", "title": "locating points in triangulations", "statement": "locate_tri_2d reports a point exactly if it lies in a triangle: it names a triangle that contains the point up to the tolerance, and local coordinates that the affine map of the master triangle takes to the point; every point of a triangle is reported. Also for a single triangle, for maps of larger cells, for clockwise triangles and for the default search among near centres.", "quantifier": "all triangulations, points, tolerances, candidate lists and orders of the parallel loop", "why_tests_cant": "arbitrary triangulations and points; scheduling", "anchors": ["src/polymesh/utils/locate.py:locate_tri_2d", "src/polymesh/utils/cells/utils.py:_find_first_hits_", "src/polymesh/utils/tri.py:nat_to_loc_tri"]}
{"id": "C73", "title": "points inside of a block of cells", "statement": "PolyCell2d.pip and PolyCell3d.pip answer for every point whether it lies in one of the cells: every point of a cell is found, what is found lies in one of the simplices of a cell up to the tolerance. Also for clockwise cells, for points on sides with tolerance 0 and for the default search.", "quantifier": "all blocks, maps to simplices, points and tolerances", "why_tests_cant": "arbitrary cells and points", "anchors": ["src/polymesh/cell.py:PolyCell2d.pip", "src/polymesh/cell.py:PolyCell3d.pip"]}
{"id": "C70", "title": "voxels of a cylinder", "statement": "voxelize_cylinder divides the bounding box of the cylinder into the fewest equal boxes with edges of at most the given size and returns exactly those whose middle lies between the two radii, without overlaps, coinciding points or unused points; the result differs from the cylinder by at most half a diagonal. The recipe cylinder with voxelize=True: a float is the size, an integer n gives edges of length (r1 - r0) / n; a float radius is that of a solid cylinder.", "quantifier": "all radii, heights and sizes", "why_tests_cant": "all real sizes; geometry of the covered set", "anchors": ["src/polymesh/voxelize.py:voxelize_cylinder", "src/polymesh/recipes.py:cylinder"]}
{"id": "C71", "title": "areas and volumes of lines and surfaces", "statement": "The area of a surface cell is the sum of the areas of the triangles of its map, which equals the area enclosed by the sides of the cell in its plane (the middle node of a Q9 has no effect); with the frames made by frames_of_surfaces it is the positive area of the cell, whatever the position in space. The volume of a surface is its area times the thickness, that of a line the distance of its ends times the area of the section, 1 by default. Cutting the coordinates of cells into triangles agrees with cutting the topology and does not depend on the order of the parallel loop.", "quantifier": "all coordinates, topologies, frames, maps to triangles and orders of writing", "why_tests_cant": "arbitrary positions of cells and frames; scheduling", "anchors": ["src/polymesh/cell.py:PolyCell2d.areas", "src/polymesh/cell.py:PolyCell2d.volumes", "src/polymesh/cell.py:PolyCell1d.volumes", "src/polymesh/polygon.py:Triangle.areas", "src/polymesh/utils/tri.py:triangulate_cell_coords"]}
{"id": "C74", "title": "circular helices", "statement": "circular_helix returns a curve on the cylinder of radius a around the third axis that rises by 2 pi b with every turn and runs at constant rates; a and b are used as given, a pitch is the rise of a turn and a slope the ratio a/b.", "quantifier": "all parameters a, b, slope, pitch given or missing, and all arguments t", "why_tests_cant": "real parameters and arguments; combinations of missing arguments", "anchors": ["src/polymesh/recipes.py:circular_helix"]}
{"id": "C75", "title": "points and lines of triangulate", "statement": "For a rectangle and a pair of numbers triangulate takes n times m different points in rows of equal distances with the four corners; for an integer the corners and as many random points of the rectangle. With return_lines every side of every triangle is listed exactly once, and the lines given for a triangle are its three sides.", "quantifier": "all sizes, shapes, origins, random numbers in [0,1) and all triangulations", "why_tests_cant": "random points and arbitrary triangulations", "anchors": ["src/polymesh/triang.py:triangulate", "src/polymesh/utils/topology/topo.py:unique_topo_data", "src/polymesh/utils/tri.py:edges_tri"]}
{"id": "C76", "title": "disks and regular cylinders", "statement": "circular_disk takes nangles points on each of nradii circles with radii from rmin to rmax, all different and none inside the hole; of the triangulation exactly the triangles whose mean is nearer than rmin are dropped, so no triangle between points of the inner circle is left, and exactly the points used remain. cylinder fills the prisms over these triangles in n_z layers with tetrahedra of positive volume whose sum is the volume of the prisms.", "quantifier": "all radii, numbers of divisions, heights and all triangulations of the points", "why_tests_cant": "the triangulation is arbitrary; real radii", "anchors": ["src/polymesh/recipes.py:circular_disk", "src/polymesh/recipes.py:cylinder"]}
{"id": "C77", "title": "perforated cubes", "statement": "perforated_cube triangulates the points of a lattice over the rectangle that are far enough from the hole and points at equal angles on the edge of the hole; no point is inside of the hole, the corners of the rectangle are among the points, no triangle between three points of the edge is kept. The cells are prisms over the triangles kept in layers from 0 to lz, or three tetrahedra each, with the volume of the prisms. With order=2 the mesh is the one of order 1 with nodes in the middle of the edges (and faces); other orders are refused.", "quantifier": "all sizes, radii, numbers of angles, edge lengths and all triangulations of the points", "why_tests_cant": "the triangulation is arbitrary; real sizes", "anchors": ["src/polymesh/recipes.py:perforated_cube"]}
{"id": "C78", "title": "lines of cells", "statement": "T3_to_L2, TET4_to_L2 and H8_to_L2 list every edge of the cells exactly once, whatever direction the cells use it in, and nothing else; with a path of the right shape they list the pairs of the path; data is refused.", "quantifier": "all topologies of triangles, tetrahedra, hexahedra and all paths", "why_tests_cant": "arbitrary numbers of cells sharing edges in both directions", "anchors": ["src/polymesh/utils/topology/tr.py:T3_to_L2", "src/polymesh/utils/topology/tr.py:TET4_to_L2", "src/polymesh/utils/topology/tr.py:H8_to_L2"]}
{"id": "C79", "title": "quantities of meshes with several blocks", "statement": "topology(), cell_indices(), volumes(), number_of_cells(), centers_of_cells() and areas() run through the cells of the blocks in one and the same order, so that row k of each belongs to the same cell; nodal distribution factors of the whole mesh are a partition; the index of the closest or furthest cell is that of a nearest or furthest centre; the pieces handed to a plotter show the cells of every block at their places with the data of their points.", "quantifier": "all trees of blocks with any numbers of cells and points, all plots", "why_tests_cant": "arbitrary nesting of blocks and arbitrary geometry", "anchors": ["src/polymesh/polydata.py:PolyData.topology", "src/polymesh/polydata.py:PolyData.centers_of_cells", "src/polymesh/polydata.py:PolyData.nodal_distribution_factors", "src/polymesh/polydata.py:PolyData._detach_block_data_"]}
{"id": "C80", "title": "detached meshes", "statement": "detach() makes a mesh of its own out of a block: it has every cell of the block and of the blocks beneath it, with their data and at their places; the original stays as it was, the two do not share points, the ids of cells are unique.", "quantifier": "all trees of blocks, all points and all blocks to detach", "why_tests_cant": "arbitrary nesting of blocks; sharing shows only under later changes", "anchors": ["src/polymesh/polydata.py:PolyData.detach"]}
{"id": "C81", "title": "copies of meshes", "statement": "copy and deepcopy of a mesh succeed and give a mesh of the same shape: every block has the same points and cells with the same data, all points of the copy are new, the points of the original are not changed, the cells of the copy refer to the closest points of the copy, ids of cells are as unique as they were, and points are seen at the same places; changing one of the two meshes does not change the other.", "quantifier": "all trees of blocks with any points, cells and data; shallow and deep copies; all later changes of coordinates", "why_tests_cant": "arbitrary nesting of blocks; sharing between copy and original shows only under later changes", "anchors": ["src/polymesh/polydata.py:PolyData.__copy__", "src/polymesh/pointdata.py:PointData.__copy__", "src/polymesh/celldata.py:CellData.__copy__"]}
{"id": "C82", "title": "points of line cells", "statement": "points_of_cells of line cells returns, for every chosen cell and every given parameter, the point of the cell at this share of the given range, one row per cell in the order of the choice, or the same points in one list; without parameters the nodes of the chosen cells; without parameters and cells the nodes of all cells; nothing if no chosen cell is in the block.", "quantifier": "all blocks of line cells, all coordinates, all choices of cells (with repetitions), all parameters and ranges, all orders of the parallel loop", "why_tests_cant": "arbitrary coordinates and ranges; ids of cells differ from row numbers only in later blocks", "anchors": ["src/polymesh/cell.py:PolyCell1d.points_of_cells", "src/polymesh/utils/utils.py:pcoords_to_coords_1d"]}
{"id": "C83", "title": "frames and points of meshes", "statement": "The frame of a block is that of the closest block at or above it that has a frame or points; points() of a block returns the points and ids of all blocks beneath it in one order, at the places given by their own frames, whatever the target; points(from_cells=True) returns exactly the points used by the cells, once each; a mesh made of coordinates in a frame shows the places of these coordinates.", "quantifier": "all meshes with any nesting, all frames (orthonormal targets), all coordinates, ids and cells", "why_tests_cant": "unbounded nesting and real coordinates; tests use one frame or frames with a common origin", "anchors": ["src/polymesh/polydata.py:PolyData.frame", "src/polymesh/polydata.py:PolyData.points", "src/polymesh/polydata.py:PolyData.coords", "src/polymesh/pointdata.py:PointData.__init__", "src/polymesh/pointdata.py:PointData.frame"]}
{"id": "C84", "title": "local coordinates by monomials", "statement": "The monomial evaluators return the values of the monomials of the polynomial basis of the cell, in its order; _glob_to_loc_bulk_ and _glob_to_loc_bulk_2_ return for every point and every cell (every point and its own cell) the local coordinates of the point: the unique point of master space that the map of the cell takes to it; _pip_H8_bulk_ answers whether the local coordinates are in the cube enlarged by the tolerance, _pip_H8_bulk_knn_ the same for the given neighbours only.", "quantifier": "all twelve cell classes, all lists of cells and points, all coordinates, every matrix inversion that is right", "why_tests_cant": "real coordinates; singular cases (turned squares) and curved or tapered cells are not sampled", "anchors": ["src/polymesh/utils/cells/h8.py:monoms_H8_single", "src/polymesh/utils/cells/tet4.py:monoms_TET4_multi", "src/polymesh/utils/cells/utils.py:_glob_to_loc_bulk_", "src/polymesh/utils/cells/utils.py:_glob_to_loc_bulk_2_", "src/polymesh/utils/cells/h8.py:_pip_H8_bulk_", "src/polymesh/utils/cells/h8.py:_pip_H8_bulk_knn_"]}
{"id": "C85", "title": "topologies in other containers", "statement": "For topologies stored as csr matrices, the numbers of cells at the nodes and the incidences are those of the topology the matrix holds, for regular and for any numbering; the matrix of the caller keeps its numbers; for jagged (awkward) topologies nodal_adjacency returns for every node the nodes of its cells, sorted and without repetition, in every order of the parallel loops; nodal_adjacency works for every container count_cells_at_nodes works for; the csr form of a jagged array holds its rows, the places within the rows, and as many columns as the longest row has entries.", "quantifier": "all topologies with rows of any lengths, all csr matrices holding them, all orders of the parallel loops", "why_tests_cant": "all topologies and all interleavings; side effects on arguments are not looked at", "anchors": ["src/polymesh/utils/topology/topo.py:_count_cells_at_nodes_reg_csr_", "src/polymesh/utils/topology/topo.py:_cells_at_nodes_reg_csr_", "src/polymesh/utils/topology/topo.py:regularize", "src/polymesh/utils/topology/topo.py:_subtopo_1d_", "src/polymesh/utils/topology/topo.py:_nodal_adjacency_as_dol_ak_", "src/polymesh/utils/utils.py:_jagged_to_spdata"]}
{"id": "C86", "title": "meshes of cross sections", "statement": "LineSection.trimesh(subdivide=True) covers every triangle of the section by four triangles that do not overlap, keep its orientation and have a quarter of its area each; trimesh() has the corners of every triangle and no unused point; the points are those of the section moved such that their mean, which is the centroid of the section, is the origin; LineSection.extrude fills a beam whose volume is area times length, with N layers of positively oriented tetrahedra; the size limit passed to the mesher is the least of the limits asked for (equilateral triangle with the longest side allowed, area, area over number), and for every shape that of the least thickness by default.", "quantifier": "all section meshes (straight-sided six-noded triangles), all lengths and numbers of layers, all parameters", "why_tests_cant": "real coordinates, all meshes and parameters; types of the parameters matter", "anchors": ["src/polymesh/section.py:LineSection.coords", "src/polymesh/section.py:LineSection.trimesh", "src/polymesh/section.py:LineSection.extrude", "src/polymesh/section.py:generate_mesh", "src/polymesh/section.py:get_section"]}
{"id": "C87", "title": "STL files and bounding boxes", "statement": "An STL file written from a vertex list and triangles is a solid with exactly one facet per triangle, in order, with the coordinates of its three vertices and a normal that is a unit vector, perpendicular to the triangle and right-handed with respect to the order of the vertices; exchanging two vertices reverses it; the bounding box contains all vertices used by a triangle of any mesh and each of its sides is touched; every mesh of an input file is written to a file of its own, named after its own element set.", "quantifier": "all vertex lists, triangles, meshes, names", "why_tests_cant": "real coordinates; all names and all meshes, empty and degenerate ones included", "anchors": ["src/polymesh/io/inp2stl.py:computeNormal", "src/polymesh/io/inp2stl.py:writeStlFile", "src/polymesh/io/inp2stl.py:getMeshBBox", "src/polymesh/io/inp2stl.py:getBBox", "src/polymesh/io/inp2stl.py:isFileExtensionSTL"]}
{"id": "C88", "title": "bounds, closest and furthest points of clouds", "statement": "PointCloud.bounds gives the least and greatest coordinates of the points in the requested frame; PointCloud.closest and furthest return a point of the cloud at minimal (maximal) distance in space from the target, whatever the frame of the cloud and the frame the target is given in, with its place in the cloud and its recorded index, and located where the point of the cloud is; for several targets a cloud with the recorded indices.", "quantifier": "all clouds, Cartesian frames and targets (numbers, vectors, points, clouds)", "why_tests_cant": "real coordinates and all frames; tests use frames at the origin", "anchors": ["src/polymesh/space/pointcloud.py:PointCloud.bounds", "src/polymesh/space/pointcloud.py:PointCloud.index_of_closest", "src/polymesh/space/pointcloud.py:PointCloud.index_of_furthest", "src/polymesh/space/pointcloud.py:PointCloud.closest", "src/polymesh/space/pointcloud.py:PointCloud.furthest", "src/polymesh/space/point.py:Point"]}
{"id": "C89", "title": "cells as collections of simplices", "statement": "to_triangles, to_tetrahedra and to_simplices split every cell of a block as the trimap or tetmap of its class says, cell after cell (flatten=False groups them by cell), and PolyCell3d.volumes, the sum of the volumes of these tetrahedra, is the volume of the cell.", "quantifier": "every class of cells, all topologies with the right number of columns, all coordinates", "why_tests_cant": "all blocks and all coordinates in any ordered field; tests use a few grids", "anchors": ["src/polymesh/polygon.py:to_triangles", "src/polymesh/polyhedron.py:tetmap", "src/polymesh/cell.py:PolyCell.to_simplices", "src/polymesh/cell.py:PolyCell3d.to_tetrahedra", "src/polymesh/cell.py:PolyCell3d.volumes"]}
{"id": "C90", "title": "databases of points and cells", "statement": "The constructors of PointData and CellData store every array that is given (coordinates, nodes, activity, areas, thicknesses, fields, keyword arguments) as one column of the right length under its name, ignore arrays of other lengths, and leave the dictionary of the caller as it is; to_dict and to_list return exactly the columns that are asked for; nodal distribution factors are stored under the given or a default key.", "quantifier": "all combinations of arguments, all names and arrays", "why_tests_cant": "all names, lengths and precedences between arguments; tests use a few", "anchors": ["src/polymesh/akwrap.py:AkWrapper", "src/polymesh/celldata.py:CellData.__init__", "src/polymesh/celldata.py:CellData.set_nodal_distribution_factors", "src/polymesh/pointdata.py:PointData.__init__"]}
{"id": "C91", "title": "fields and records of meshes", "statement": "to_lists returns the records of the points and of the cells of all blocks of a mesh, with the columns that are asked for; point_fields and cell_fields return the names of all columns of all blocks.", "quantifier": "all meshes with any number of nested blocks and columns", "why_tests_cant": "any nesting of blocks and any set of columns", "anchors": ["src/polymesh/polydata.py:PolyData.to_lists", "src/polymesh/polydata.py:PolyData.point_fields", "src/polymesh/polydata.py:PolyData.cell_fields"]}
{"id": "C92", "title": "meshes of other libraries", "statement": "from_meshio and from_pv return a mesh with all cells of the given mesh, one block per type, of the class with the type and the number of nodes of VTK; to_vtk hands over one grid per block of cells, of which VTK reads exactly the cells of the block at the same places.", "quantifier": "all meshes of meshio and PyVista with any groups of cells, all meshes with any number of nested blocks", "why_tests_cant": "any number and order of groups of cells, any topology and any nesting of blocks", "anchors": ["src/polymesh/polydata.py:PolyData.from_meshio", "src/polymesh/polydata.py:PolyData.from_pv", "src/polymesh/polydata.py:PolyData.to_vtk", "src/polymesh/vtkutils.py:mesh_to_UnstructuredGrid", "src/polymesh/helpers.py"]}
{"id": "C93", "title": "constructors of meshes", "statement": "PolyData, TriMesh, TetMesh, LineData and Grid, given points and nodes of cells, make a mesh with these points and cells, of the class that is asked for or of the class for cells with this number of nodes and this dimension; triangles with three nodes become triangles with six if that class is asked for; areas of lines are kept or one; the keyword arguments of the parent class can be used; meshes of every class can be copied.", "quantifier": "all points, topologies, numbers of nodes, classes and combinations of arguments", "why_tests_cant": "all widths of topologies and all combinations of arguments; tests build a few", "anchors": ["src/polymesh/polydata.py:PolyData.__init__", "src/polymesh/trimesh.py:TriMesh.__init__", "src/polymesh/tetmesh.py:TetMesh.__init__", "src/polymesh/linedata.py:LineData.__init__", "src/polymesh/grid.py:Grid.__init__"]}
{"id": "C94", "title": "neighbours in whole meshes", "statement": "For a mesh with any number of blocks, cells_at_nodes lists for every node that is used, and only for these, the cells at it with the place of the node in each cell, where a cell is given by its place in the topology of the mesh or by the id given for it; nodal_adjacency lists for every such node the nodes of the cells it belongs to, across blocks; the centre of a block is the mean of its points, or of the points its cells use, each of them once; k_nearest_cell_neighbours lists the cells with the nearest centres; cells_around_cells those within a radius.", "quantifier": "all trees of blocks, cells of equal or different sizes, node numbers with and without gaps, ids of cells, radii and numbers of neighbours", "why_tests_cant": "all distributions of cells over blocks and all node numbers; the branch of meshes with cells of several sizes depends on the cells", "anchors": ["src/polymesh/polydata.py:PolyData.cells_at_nodes", "src/polymesh/polydata.py:PolyData.nodal_adjacency", "src/polymesh/polydata.py:PolyData.center", "src/polymesh/polydata.py:PolyData.k_nearest_cell_neighbours", "src/polymesh/polydata.py:PolyData.cells_around_cells"]}
{"id": "C95", "title": "shape functions at several points", "statement": "shape_function_values, shape_function_derivatives and shape_function_matrix of every class of cells, given any number of points, return for each point, in order, the weights of the nodes (they sum to one, reproduce linear functions and select a node at its place), the partial derivatives of the shape functions, and the matrix of the weights for the given number of unknowns per node; a single point is accepted, and integer coordinates mean the same as floating point ones.", "quantifier": "all classes with compiled or generated functions, all numbers of points, coordinates and unknowns per node", "why_tests_cant": "all points and all classes; integer coordinates truncate the results silently", "anchors": ["src/polymesh/cell.py:PolyCell.shape_function_values", "src/polymesh/cell.py:PolyCell.shape_function_matrix", "src/polymesh/cell.py:PolyCell.shape_function_derivatives", "src/polymesh/utils/cells/q4.py:shp_Q4_multi", "src/polymesh/utils/cells/h8.py:shape_function_matrix_H8_multi"]}
{"id": "C96", "title": "repeated triangulations", "statement": "populate_trimesh_T3 returns N copies of a triangulation, copy i moved by i times the step, the triangles of every copy refer to the points of this copy; with return_lines every side of every triangle of the population is listed exactly once, nothing else is, and the numbers given for a triangle are those of its sides in order, whether the lines of the first copy are given or found.", "quantifier": "all triangulations, steps, numbers of copies, given or missing lines", "why_tests_cant": "all triangulations and numbers of copies; three offsets have to agree", "anchors": ["src/polymesh/pop.py:populate_trimesh_T3", "src/polymesh/pop.py:populate_trimesh_T3_njit"]}
{"id": "C97", "title": "nodal data pulled to the cells of a mesh", "statement": "When the blocks of a mesh pull nodal data with nodal distribution factors of the whole mesh, the shares of the cells that meet at a node add up to the datum of the node, for regular and irregular meshes and either container of the factors; without factors every cell receives copies; homogenized values times the measures of the cells add up to the data.", "quantifier": "all meshes, data, factors that add up to one, ids", "why_tests_cant": "all meshes of several blocks; ids and rows have to agree; examples have one block", "anchors": ["src/polymesh/celldata.py:CellData.pull", "src/polymesh/utils/utils.py:distribute_nodal_data_sparse", "src/polymesh/utils/utils.py:nodal_distribution_factors", "src/polymesh/utils/utils.py:homogenize_nodal_values"]}
{"id": "C98", "title": "local frames of cells turn with the mesh", "statement": "When a mesh is turned, spun or moved, the local frames stored for the cells of all blocks at and beneath it are turned with it: they remain orthonormal, the local components of vectors attached to the mesh do not change, and the stored frames are those one would compute for the turned mesh; frames of other blocks stay.", "quantifier": "all rotations, meshes, frames", "why_tests_cant": "all rotations and meshes; the frame of the source matters, and tests use the ambient one", "anchors": ["src/polymesh/cell.py:PolyCell._rotate_", "src/polymesh/polydata.py:PolyData._rotate_attached_cells_", "src/polymesh/polydata.py:PolyData.spin", "src/polymesh/utils/space.py:frames_of_surfaces"]}
{"id": "C99", "title": "faces of the cells of grids", "statement": "The faces that H8_to_Q4 gives for gridH8 are 6 per cell; each occurs once or twice as a set of nodes, twice exactly if it lies inside; the faces that occur once are those whose nodes lie on one side of the box; unique_topo_data finds 3abc+ab+bc+ca different faces; the skin consists of 4(ab+bc+ca) triangles, all on the box. The same for the edges of gridQ4, for equal cells and for bins that are distinct numbers.", "quantifier": "all numbers of divisions, sizes not zero, distinct bins, shifts", "why_tests_cant": "counting over grids of all sizes; tests look at some sizes", "anchors": ["src/polymesh/utils/topology/tr.py:H8_to_Q4", "src/polymesh/grid.py:gridH8", "src/polymesh/grid.py:gridQ4", "src/polymesh/utils/topology/topo.py:unique_topo_data"]}
{"id": "C100", "title": "volumes and areas of grids", "statement": "volumes of the cells of gridH8 and gridH27 (by quadrature, and by tetrahedra for H8) are the products of the widths of the cells, in the order of the cells, and add up to the volume of the box; the areas of the cells of gridQ4 and gridQ9 are the products of the widths and add up to the area of the rectangle; for equal cells and for bins (in order, for the method by tetrahedra).", "quantifier": "all sizes, numbers of divisions, bins, shifts, interval rules exact for constants, frames upright on the plane", "why_tests_cant": "all grids; passes through numbering, node order, shape functions, quadrature", "anchors": ["src/polymesh/grid.py:gridH8", "src/polymesh/grid.py:gridH27", "src/polymesh/grid.py:gridQ4", "src/polymesh/grid.py:gridQ9", "src/polymesh/cells/h8.py:H8.volumes", "src/polymesh/cell.py:PolyCell2d.areas", "src/polymesh/cell.py:PolyCell3d.volumes"]}
{"id": "C101", "title": "drawings with K3D", "statement": "to_k3d adds to the scene, for every block of cells in order, a picture of its cells at their points: lines as lines, faces as their triangles (once or on both sides, with edges if wanted), solids as the triangles of the faces that belong to one cell only; only used points are handed over, every value goes with its point, and the range of colours contains all values.", "quantifier": "all meshes, cells, values, sides, edges", "why_tests_cant": "the result is looked at by eyes; the points of the call and of the blocks have to agree", "anchors": ["src/polymesh/polydata.py:PolyData.to_k3d", "src/polymesh/polydata.py:PolyData.surface", "src/polymesh/utils/topology/topo.py:detach_mesh_data_bulk"]}
{"id": "C102", "title": "grids cut into simplices tile the box", "statement": "The tetrahedra obtained from gridH8 by to_tetrahedra and from gridH27 by H27_to_TET10, and the triangles obtained from gridQ4 and gridQ9 by to_triangles, all have positive orientation, cover exactly the box (rectangle) of the grid and have no inner points in common.", "quantifier": "all positive sizes, numbers of cells, increasing bins, shifts; every point of space", "why_tests_cant": "sums of volumes do not see an overlap next to a gap of the same size; no sample of points covers the box", "anchors": ["src/polymesh/grid.py:gridH8", "src/polymesh/grid.py:gridH27", "src/polymesh/grid.py:gridQ4", "src/polymesh/grid.py:gridQ9", "src/polymesh/cell.py:PolyCell3d.to_tetrahedra", "src/polymesh/polygon.py:BiQuadraticQuadrilateral.to_triangles", "src/polymesh/utils/topology/tr.py:H27_to_TET10"]}
{"id": "C103", "title": "points located in grids", "statement": "locate(x, lazy=False) of the hexahedra of gridH8 with a positive tolerance finds every point of the box exactly once, names a cell of the grid, and returns the local coordinates of the point in the box of that cell, which lie between -1 and 1 up to eight times the tolerance.", "quantifier": "all grids and bins in increasing order, all lists of points, all tolerances, all orders of the parallel loop", "why_tests_cant": "points on the faces between tetrahedra and cells belong to several of them and the parallel search may take any", "anchors": ["src/polymesh/cell.py:PolyCell3d.locate", "src/polymesh/grid.py:gridH8", "src/polymesh/utils/cells/utils.py:_find_first_hits_"]}
{"id": "C104", "title": "meshes for PyVista and plots", "statement": "to_pv returns one grid per block of cells, in order, with its cells at their points and the values asked for: values of points at points, values of cells at cells. pvplot adds these grids with the options of the call and the entries of the closest configuration above the block; the colour is left out exactly for blocks that show values, and no configuration is changed.", "quantifier": "all meshes, fields, arrays, configurations and options", "why_tests_cant": "plots are looked at by eyes; configurations are shared by blocks and by later plots", "anchors": ["src/polymesh/polydata.py:PolyData.to_pv", "src/polymesh/polydata.py:PolyData.pvplot", "src/polymesh/polydata.py:PolyData._has_plot_scalars_", "src/polymesh/polydata.py:PolyData._get_config_"]}
{"id": "C105", "title": "tetrahedral meshes of bodies", "statement": "tetrahedralize takes meshes with exactly one block of cells. For order 1 it returns the tetrahedra of TetGen at their points, for order 2 the same tetrahedra with one node at the middle of every edge that is shared by all cells around the edge, other orders are refused; the result has the frame of the mesh and shows the points where TetGen has them.", "quantifier": "all meshes, all frames, all orders and all results of TetGen", "why_tests_cant": "tests need TetGen and use one body in the ambient frame", "anchors": ["src/polymesh/tetrahedralize.py:tetrahedralize"]}
{"id": "C106", "title": "cells at the nodes of grids", "statement": "In gridH8 with a, b, c cells count_cells_at_nodes gives 8 for nodes inside of the box, 4 on its faces, 2 on its edges and 1 at its corners (for one cell in a direction: one side only); cells_at_nodes lists for the node (x, y, z) exactly the cells it is a corner of, in order; nodal_adjacency gives the nodes that differ by at most one in each direction; the distribution factors of equal cells are one over the number of cells at the node. The same in the plane for gridQ4.", "quantifier": "all sizes, numbers of cells, bins and shifts, all nodes", "why_tests_cant": "tests look at a few small grids; the formulas hold for every grid and every node", "anchors": ["src/polymesh/grid.py:gridH8", "src/polymesh/grid.py:gridQ4", "src/polymesh/utils/topology/topo.py:count_cells_at_nodes", "src/polymesh/utils/topology/topo.py:cells_at_nodes", "src/polymesh/utils/topology/topo.py:nodal_adjacency", "src/polymesh/utils/utils.py:nodal_distribution_factors"]}
{"id": "C107", "title": "grids refined and elevated", "statement": "H27_to_H8 takes gridH27 to gridH8 with twice as many cells in each direction (with bins: with the means of neighbouring values inserted): the very same points, and the same cells, with the same order of nodes, in another order. H8_to_H27 takes gridH8 to gridH27 with as many cells, up to the numbers of the points: one to one, each node of each cell at the same place, no point left over. Hence H8_to_H27 followed by H27_to_H8 refines a grid into the one with twice as many cells. The same in the plane for Q9_to_Q4, Q4_to_Q9, gridQ9 and gridQ4.", "quantifier": "all sizes, numbers of cells, bins and shifts", "why_tests_cant": "tests compare counts and total volumes of single grids; that two ways of building a mesh agree node by node is a statement about all grids", "anchors": ["src/polymesh/grid.py:gridH27", "src/polymesh/grid.py:gridH8", "src/polymesh/grid.py:gridQ9", "src/polymesh/grid.py:gridQ4", "src/polymesh/utils/topology/tr.py:H27_to_H8", "src/polymesh/utils/topology/tr.py:H8_to_H27", "src/polymesh/utils/topology/tr.py:Q9_to_Q4", "src/polymesh/utils/topology/tr.py:Q4_to_Q9"]}
{"id": "C108", "title": "points in the cells of grids", "statement": "pip of the quadrilaterals of gridQ4 and of the hexahedra of gridH8 (lazy=False) answers yes for every point of the rectangle or box of the grid, sides included, and, for a positive tolerance, only for points in the box of a cell widened by a small multiple of the tolerance. locate_tri_2d with the triangles Q4_to_T3 of gridQ4 (lazy=False) finds every point of the rectangle exactly once, and names the lower or upper triangle of a cell and the coordinates of the point along the two sides of that triangle. Also for tolerance 0 and for bins in any order.", "quantifier": "all grids and bins in increasing order, all lists of points, all positive tolerances, all orders of the parallel loop", "why_tests_cant": "the points on diagonals and shared sides are where tests of membership fail, and there are infinitely many", "anchors": ["src/polymesh/cell.py:PolyCell2d.pip", "src/polymesh/cell.py:PolyCell3d.pip", "src/polymesh/utils/locate.py:locate_tri_2d", "src/polymesh/grid.py:gridQ4", "src/polymesh/grid.py:gridH8"]}
{"id": "C109", "title": "cells of locked and renumbered meshes", "statement": "After every history of locking (with or without mappers), unlocking, setting and deleting blocks and bringing the mesh to standard form, blocks_of_cells names for every cell number of the mesh the block that contains this cell now, and refuses other numbers; a locked mesh refuses to set and delete blocks; unlocking makes every answer right again; to_standard_form keeps the blocks and numbers the cells 0, 1, ... in the order of the walk; the numbers of all cells of the mesh stay different from each other.", "quantifier": "all histories, all lists of cell numbers, all orders of the walk through the blocks", "why_tests_cant": "stored mappers and the queue of recycled numbers depend on the whole history of the mesh", "anchors": ["src/polymesh/polydata.py:PolyData.lock", "src/polymesh/polydata.py:PolyData.unlock", "src/polymesh/polydata.py:PolyData.blocks_of_cells", "src/polymesh/polydata.py:PolyData._create_mappers_", "src/polymesh/polydata.py:PolyData.to_standard_form", "src/polymesh/polydata.py:IndexManager"]}
{"id": "C110", "title": "triangulation objects and edges of triangle meshes", "statement": "triangulate returns, for each backend, the points, the triangles of the backend and an object holding both; get_triobj_data reads the same points and triangles from the object, triobj_to_mpl turns it into a matplotlib object with the same points and triangles, triangulate(triobj=...) transforms it to any other backend; other objects are refused. TriMesh.edges lists every side of the triangles once and the numbers of the sides of each cell, from which the cells can be rebuilt. QuadraticTriangle.from_TriMesh elevates meshes and arrays.", "quantifier": "all points, all triangulations made by the backends, all triangle meshes with three or six nodes per cell", "why_tests_cant": "backends, masks and given triangles are combined in ways the tests do not visit", "anchors": ["src/polymesh/triang.py:triangulate", "src/polymesh/triang.py:triobj_to_mpl", "src/polymesh/triang.py:get_triobj_data", "src/polymesh/triang.py:is_triobj", "src/polymesh/trimesh.py:TriMesh.edges", "src/polymesh/polygon.py:QuadraticTriangle.from_TriMesh"]}
{"id": "C111", "title": "points given in integers", "statement": "Asking which cells contain given points (pip), in which cells and where they are (locate), and extruding a triangulation give the same answer whether points with integer coordinates come in arrays of integers or of floating point numbers.", "quantifier": "all meshes of plane cells cut into triangles and of solid cells cut into tetrahedra, all points with integer coordinates, all tolerances, all candidate tables and schedules, all heights and numbers of layers", "why_tests_cant": "the tests call these functions with arrays of floating point numbers only; lists of whole numbers become arrays of integers", "anchors": ["src/polymesh/utils/tri.py:glob_to_nat_tri", "src/polymesh/utils/tet.py:glob_to_nat_tet", "src/polymesh/cell.py:PolyCell2d.pip", "src/polymesh/cell.py:PolyCell3d.pip", "src/polymesh/cell.py:PolyCell3d.locate", "src/polymesh/extrude.py:extrude_T3_TET4", "src/polymesh/extrude.py:extrude_T3_W6"]}
{"id": "C112", "title": "form of elevated and refined cells", "statement": "The form of a cell is the image of its master cell under the map given by its shape functions and its nodes. Elevating a mesh (L2 to L3, T3 to T6, Q4 to Q9, TET4 to TET10, H8 to H27, W6 to W18) keeps the form of every cell, point by point, however distorted the cells are. Cutting cells with straight sides (T6 to T3, Q9 to Q4, H27 to H8, W18 to W6) gives cells whose forms together are the form of the cell; they do not overlap if the cell does not, and their Jacobians are positive where that of the cell is. Elevating and cutting one after the other refines any mesh of linear cells in this sense.", "quantifier": "all meshes with any coordinates in any (ordered) field, all cells, all local coordinates, all inverses used to generate shape functions", "why_tests_cant": "the tests compare volumes of a few regular meshes; the claim is about every point of arbitrarily distorted cells", "anchors": ["src/polymesh/topo/tr.py:T3_to_T6", "src/polymesh/topo/tr.py:Q4_to_Q9", "src/polymesh/topo/tr.py:TET4_to_TET10", "src/polymesh/topo/tr.py:H8_to_H27", "src/polymesh/topo/tr.py:W6_to_W18", "src/polymesh/topo/tr.py:L2_to_L3", "src/polymesh/topo/tr.py:T6_to_T3", "src/polymesh/topo/tr.py:Q9_to_Q4", "src/polymesh/topo/tr.py:H27_to_H8", "src/polymesh/topo/tr.py:W18_to_W6"]}
{"id": "C113", "title": "copies of frames", "statement": "In programs that make frames (with or without an origin), read their origins, copy them (shallow or deep) and move them, every frame keeps the axes it was made with; a shallow copy and its source always have the same origin and move together; a deep copy starts at the origin of its source and afterwards moves on its own; frames made separately never influence each other nor the data of the caller.", "quantifier": "all histories of such steps of any length, all axes, origins and motions", "why_tests_cant": "the tests make a few frames and never move one after copying it; sharing shows up only after later steps", "anchors": ["src/polymesh/space/frame.py:CartesianFrame.__init__", "src/polymesh/space/frame.py:CartesianFrame.origo", "src/polymesh/space/frame.py:CartesianFrame.move", "src/polymesh/space/frame.py:CartesianFrame.copy", "src/polymesh/space/frame.py:CartesianFrame.deepcopy"]}
{"id": "C114", "title": "coordinates, weights and data in arrays of integers", "statement": "Areas of triangles, centres and centring of points and cells, grids from bins, distribution factors, homogenized nodal data, exploded data and points of line cells are the same whether the same numbers are given in arrays of integers or of floating point numbers.", "quantifier": "all integer coordinates, weights and bins, all data, meshes, numbers of nodes per direction and schedules of the parallel loops", "why_tests_cant": "the tests pass floating point arrays; with integers the results lose their decimals without any message, and only for some sizes", "anchors": ["src/polymesh/utils/utils.py:cell_center", "src/polymesh/utils/utils.py:center_of_points", "src/polymesh/utils/utils.py:centralize", "src/polymesh/utils/utils.py:_centralize_cells_coords_", "src/polymesh/utils/utils.py:_nodal_distribution_factors_dense_", "src/polymesh/utils/utils.py:_nodal_distribution_factors_csr_", "src/polymesh/utils/utils.py:homogenize_nodal_values", "src/polymesh/utils/utils.py:explode_mesh_data_bulk", "src/polymesh/utils/utils.py:pcoords_to_coords_1d", "src/polymesh/utils/tri.py:area_tri_bulk", "src/polymesh/grid.py:grid_3d_bins"]}
{"id": "C115", "title": "centres of meshes and cells in given frames", "statement": "`center(T)` and `centers(T)` of a mesh, and `centers(T)` of a block of cells, are the coordinates in the frame T of the mean of the positions of the points and of the nodes of every cell; `centralize(T)` moves all blocks of points of the source by the same vector and brings the centre to the origin of T.", "quantifier": "all meshes with blocks with and without points, frames and cells, all orthonormal frames, with and without a target", "why_tests_cant": "the tests use meshes in the ambient frame, where ambient coordinates and coordinates in the frame of the mesh are the same numbers", "anchors": ["src/polymesh/polydata.py:PolyData.center", "src/polymesh/polydata.py:PolyData.centers", "src/polymesh/polydata.py:PolyData.centralize", "src/polymesh/cell.py:PolyCell.centers"]}
{"id": "C116", "title": "points used by the cells of a block", "statement": "`points_involved` of a block of cells are exactly the points that its cells use, once each and in increasing order, in the frame of the mesh, with their positions and global indices; `detach_points_cells` gives the positions of the same points, and cells whose corners are where they were.", "quantifier": "all meshes with blocks with and without points and frames, all topologies whose node numbers are in range", "why_tests_cant": "the tests never call these with frames, or with cells that leave points out", "anchors": ["src/polymesh/cell.py:PolyCell.unique_indices", "src/polymesh/cell.py:PolyCell.points_involved", "src/polymesh/cell.py:PolyCell.detach_points_cells"]}
{"id": "C117", "title": "properties of cross sections", "statement": "The triangular meshes of a section (of the corners, or of all nodes) have the area and the second moments of the section; A and Ix do not depend on the axes; the dictionary of section properties holds A, Iy, Iz and Ix = Iy + Iz of the section whatever was called before, also before anything was calculated.", "quantifier": "all sections of triangles with six nodes and middle nodes on the middles of the sides, all rotations, all sequences of calls of the methods", "why_tests_cant": "the tests compute one section, calling the methods in one order", "anchors": ["src/polymesh/section.py:LineSection.A", "src/polymesh/section.py:LineSection.Ix", "src/polymesh/section.py:LineSection.Iy", "src/polymesh/section.py:LineSection.Iz", "src/polymesh/section.py:LineSection.section_properties", "src/polymesh/section.py:LineSection.calculate_section_properties", "src/polymesh/section.py:LineSection.get_section_properties", "src/polymesh/section.py:LineSection.trimesh"]}
{"id": "C118", "title": "blocks of meshes with frames as VTK grids, and their surfaces", "statement": "`to_vtk` of a block of cells (also detached) is a grid whose cells have their corners where the cells of the block have them in the ambient frame; `surface()` of a mesh or of a block of volume cells is a mesh of triangles, of which every one is a triangle of the boundary of exactly one cell, at the same position in the ambient frame.", "quantifier": "all meshes with blocks with and without points and frames, all topologies in range, all positions of distinct points", "why_tests_cant": "the tests build surfaces of meshes in the ambient frame only", "anchors": ["src/polymesh/cell.py:PolyCell.to_vtk", "src/polymesh/cell.py:PolyCell3d.surface", "src/polymesh/polydata.py:PolyData.surface"]}
{"id": "C119", "title": "centres of the master cells", "statement": "`lcenter` of every class of cells is the mean of the local coordinates of its nodes and inside the master cell; the point of a cell with these local coordinates is the mean of its nodes, for linear cells of any form and for every affine image of the master cell.", "quantifier": "all classes of cells of the package, all positions of nodes (linear cells), all affine images (other cells)", "why_tests_cant": "the tests call lcenter and do not look at the result", "anchors": ["src/polymesh/cell.py:PolyCell.lcenter", "src/polymesh/cell.py:PolyCell2d.lcenter", "src/polymesh/cells/l2.py:L2.lcenter", "src/polymesh/cells/l3.py:L3.lcenter", "src/polymesh/cells/t3.py:T3.lcenter", "src/polymesh/cells/t6.py:T6.lcenter", "src/polymesh/cells/q4.py:Q4.lcenter", "src/polymesh/cells/q9.py:Q9.lcenter", "src/polymesh/cells/tet4.py:TET4.lcenter", "src/polymesh/cells/tet10.py:TET10.lcenter", "src/polymesh/cells/h8.py:H8.lcenter", "src/polymesh/cells/h27.py:H27.lcenter", "src/polymesh/cells/w6.py:W6.lcenter", "src/polymesh/cells/w18.py:W18.lcenter"]}
{"id": "C120", "title": "small functions", "statement": "`area_Q4_bulk` gives the signed areas of quadrilaterals, equal to the integrals of the determinants of their bilinear maps; `cell_coords` of a row is the row of `cells_coords`; `norms` gives Euclidean norms; `move_points` adds the vector to every point; `center_tri_3d` is the mean of the corners; `monoms_tri_loc_bulk` has the rows of `monoms_tri_loc`; `dol_keys` gives all keys in order; `explode_mesh` and `nodal_distribution_factors` give for every kind of argument what the compiled functions give, or refuse; names and numbers of VTK cell types correspond one to one and cover the classes of cells; `meshio_to_vtk` knows their meshio names.", "quantifier": "all arrays with indices in range, all orders of the parallel loops, all quadrilaterals (also not convex), all names and numbers", "why_tests_cant": "most of these are called indirectly, with one mesh, or never", "anchors": ["src/polymesh/utils/cells/q4.py:area_Q4_bulk", "src/polymesh/utils/utils.py:cell_coords", "src/polymesh/utils/utils.py:norms", "src/polymesh/utils/utils.py:explode_mesh", "src/polymesh/utils/utils.py:nodal_distribution_factors", "src/polymesh/utils/space.py:move_points", "src/polymesh/utils/tri.py:center_tri_3d", "src/polymesh/utils/tri.py:monoms_tri_loc", "src/polymesh/utils/tri.py:monoms_tri_loc_bulk", "src/polymesh/utils/topology/topo.py:dol_keys", "src/polymesh/vtkcelltypes.py:vtkCellTypes.celltype", "src/polymesh/vtkcelltypes.py:CellTypeId", "src/polymesh/vtkcelltypes.py:meshio_to_vtk"]}
{"id": "C121", "title": "reading meshes and attaching data", "statement": "`input_to_mesh` gives points and cells of every argument, in order, and is an error exactly if one of them cannot be read; after any sequence of assignments to `pointdata` or `celldata`, accepted or refused, a mesh has the data of the last accepted assignment, and it is the container of its data; `frames` of a mesh can be read after they were set and belong to its cells only.", "quantifier": "all lists of arguments, all sequences of assignments to any meshes, with and without PyVista", "why_tests_cant": "the tests read two files and attach data once", "anchors": ["src/polymesh/io/io.py:input_to_mesh", "src/polymesh/vtkutils.py:PolyData_to_mesh", "src/polymesh/polydata.py:PolyData.pointdata", "src/polymesh/polydata.py:PolyData.celldata", "src/polymesh/polydata.py:PolyData.frames"]}
{"id": "C122", "title": "sections by name", "statement": "`get_section` builds, for every documented shape, the geometry of the function of the library for this shape, with exactly the given values of its parameters, and a mesh with edges not longer than the least thickness or as the given parameters say; other shapes are refused; `LineSection` wraps the section named or given, positionally or by keyword.", "quantifier": "all shapes, all values of parameters, all further keyword arguments, all combinations of arguments of the constructor", "why_tests_cant": "the tests build circular and I sections, all in the same way", "anchors": ["src/polymesh/section.py:get_section", "src/polymesh/section.py:generate_mesh", "src/polymesh/section.py:LineSection.__init__"]}
{"id": "C123", "title": "nearest neighbours of points", "statement": "`k_nearest_neighbours` gives, for every point searched for (the points of the tree themselves if none are given) and every rank asked for (the first k, or those in a list), the number of a point of exactly this rank by distance, and its distance if asked for; missing ranks are marked by the number of points and an infinite distance; only points within `max_distance` are returned; both backends answer; the dictionaries of the caller are left as they are.", "quantifier": "all points, all points searched for, all numbers and lists of ranks, every tree that meets its contract (ties broken in any way)", "why_tests_cant": "the tests ask for a fixed number of neighbours of the points of a few grids and look at the shape of the result", "anchors": ["src/polymesh/utils/knn.py:k_nearest_neighbours"]}
{"id": "C124", "title": "what each argument of grid does", "statement": "Whatever the other arguments of `grid` are: a shift moves all points by itself and changes no cell; the start is added to the numbers of nodes and changes no point; `centralize` moves all points by one vector so that their mean is the origin and changes no cell; a path makes node j of a cell the node path[j] of the grid without a path and is refused only if a cell has no such node; a named element shape is the grid with its numbers of points and a fixed path, other names are refused; leaving out the shift, the numbers of cells or (with bins) the element shape is giving zeros, ones and twos; lengths with numbers of cells give the same grid as bins of equal intervals, and have no effect beside bins.", "quantifier": "all lengths, numbers of cells, bins with two or more values, numbers of points per edge, shifts, starts, paths, in two and three dimensions", "why_tests_cant": "tests build a few grids with one combination of arguments and compare sums of areas or volumes; how one argument acts for all values of the others is not looked at", "anchors": ["src/polymesh/grid.py:grid", "src/polymesh/grid.py:rgridMT", "src/polymesh/grid.py:grid_2d_bins", "src/polymesh/grid.py:grid_3d_bins"]}
{"id": "C125", "title": "names and attributes of databases", "statement": "A class of databases knows exactly the names its own map and the maps of its bases know, and a name of its own has the meaning it gives; frames and activities given once hold for all cells, given for each cell they hold for the cells in order, other numbers of frames are refused; an attribute of cell data is the field of the cells with this name, or else the mean over the nodes of each cell of the field of the points with this name, other names are refused; the data as records and as arrays are the same, for databases and for whole meshes, and the lists of names of the caller are left as they are.", "quantifier": "all maps of names and numbers of bases; all databases, frames, names; all point data and cells", "why_tests_cant": "the tests read single fields of a few meshes; inheritance of names, averaging by attribute and the different forms of the same data are not compared", "anchors": ["src/polymesh/abcdata.py:ABCMeta_MeshData.__new__", "src/polymesh/celldata.py:CellData.__getattr__", "src/polymesh/celldata.py:CellData.frames", "src/polymesh/celldata.py:CellData.activity", "src/polymesh/akwrap.py:AkWrapper.to_ak", "src/polymesh/akwrap.py:AkWrapper.to_akrecord", "src/polymesh/polydata.py:PolyData.to_ak"]}
{"id": "C126", "title": "the text of .inp files", "statement": "A file is read for what it says: lines and fields are what stands between newlines and commas, keywords are recognised in letters of any case and in any spelling the format allows, comments, empty lines and other records have no effect, node coordinates, tetrahedra and names of sets are those in the file, with the prefix PT_ of names left out; files with other extensions are refused; reading a text is reading its records. The script writes every mesh to a file of its own, and its option --flip takes the words for yes and no only.", "quantifier": "all texts; all files made of parts, nodes, tetrahedra, comments and other records, with any spelling of numbers and keywords", "why_tests_cant": "there are no tests of the reader; texts with comments, blanks, other letters and other records cannot be enumerated", "anchors": ["src/polymesh/io/inp2stl.py:readInpFile", "src/polymesh/io/inp2stl.py:isFileExtensionINF", "src/polymesh/io/inp2stl.py:str2bool", "src/polymesh/io/inp2stl.py:processCmdLine", "src/polymesh/io/inp2stl.py:writeStlFile"]}
{"id": "C127", "title": "arguments of the conversions of cells", "statement": "Every conversion of cells hands on the coordinates and cuts each cell along the table of its kind; a given path with the right number of columns is used instead, path=\"grid\" selects the table for the numbering of grids where there is one, subdivide=False returns the corners, so that conversions to higher order are undone; all other paths are refused. Data given for cells or for nodes of cells, one array or several, follow the cells; other data are refused; further arguments do not change the result.", "quantifier": "all ten conversions with a path, all meshes, all paths, all data, all further positional arguments; for Q9_to_T6 all orders of the loops", "why_tests_cant": "tests call a few conversions with their defaults; the combinations of conversions, paths, flags and data cannot be enumerated", "anchors": ["src/polymesh/utils/topology/tr.py:transform_topology", "src/polymesh/utils/topology/tr.py:transform_topology_data", "src/polymesh/utils/topology/tr.py:T6_to_T3", "src/polymesh/utils/topology/tr.py:H27_to_H8", "src/polymesh/utils/topology/tr.py:Q9_to_Q4", "src/polymesh/utils/topology/tr.py:Q9_to_T6", "src/polymesh/utils/topology/tr.py:W18_to_W6"]}
{"id": "C128", "title": "meshes made by extrusion fit together", "statement": "If the triangles of a plane mesh have area and fit together (what two of them share is spanned by their common nodes), the cells made by extrusion fit together as well, a point inside a cell is in no other cell, and the cells cover the prism over the triangles and nothing else.", "quantifier": "all plane triangulations that fit together, all positive heights, all numbers of layers", "why_tests_cant": "tests count cells or sum volumes of one extruded mesh; gaps, overlaps and faces that meet across different diagonals keep the volume", "anchors": ["src/polymesh/extrude.py:extrude_T3_TET4", "src/polymesh/extrude.py:extrude_T3_W6", "src/polymesh/trimesh.py:TriMesh.extrude"]}
{"id": "C129", "title": "grids fit together", "statement": "Cells of the grids fit together: what two cells of gridQ4, gridQ9, gridH8 or gridH27 share is spanned by their common nodes. The same holds for the triangles and tetrahedra made of them, and for a plane grid that is cut into triangles and extruded, whose cells fill the box.", "quantifier": "all positive sizes, all numbers of cells, all shifts, all bins in increasing order, all heights and numbers of layers", "why_tests_cant": "tests compare numbers of cells or volumes for a few sizes; a numbering that joins the wrong nodes or diagonals across cells keeps both", "anchors": ["src/polymesh/grid.py:grid", "src/polymesh/grid.py:gridQ4", "src/polymesh/grid.py:gridQ9", "src/polymesh/grid.py:gridH8", "src/polymesh/grid.py:gridH27", "src/polymesh/cell.py:PolyCell2d.to_triangles", "src/polymesh/cell.py:PolyCell3d.to_tetrahedra", "src/polymesh/extrude.py:extrude_T3_W6"]}
{"id": "C130", "title": "options of cells_at_nodes and nodal_adjacency", "statement": "In every format `cells_at_nodes` lists, for every node, the cells that have it and its places in them: padded arrays filled up with zeros, rows, a csr matrix with cells as columns and places as values, dictionaries with the ids of the caller. Counts are added if asked for. `nodal_adjacency` gives the same neighbours in every format. The answers do not depend on the container of the topology, and calls that cannot be answered are refused.", "quantifier": "all topologies in arrays, awkward arrays and csr matrices, all formats and values of assume_regular, return_counts and cellIDs, all orders of the parallel loops", "why_tests_cant": "tests call a few formats for one mesh numbered without gaps; rows, keys and counts that belong to different nodes, and the width of the matrix, differ only with gaps, empty rows or mixed cells", "anchors": ["src/polymesh/utils/topology/topo.py:cells_at_nodes", "src/polymesh/utils/topology/topo.py:nodal_adjacency", "src/polymesh/utils/topology/topo.py:_nodal_cell_data_to_spdata_", "src/polymesh/utils/topology/topo.py:_cells_at_nodes_reg_ak_", "src/polymesh/utils/topology/topo.py:_count_cells_at_nodes_reg_ak_"]}
{"id": "C131", "title": "arguments and results of plots", "statement": "`pvplot` adds the blocks, in their order and behind what a given plotter has, to the given or to a new plotter. A new plotter has the theme, the edges, the lighting, the size of the window, the title and the further keywords of the call; unknown themes and keywords are refused. The plotter, an image or the result of showing is returned as asked for, and the plot has no effect on later plots. `plot` and `LineData.plot` hand their arguments to the backend that is named, and refuse other names. Blocks are drawn with their own configuration or with that of the closest mesh above.", "quantifier": "all combinations of the arguments, all themes and plotters, all settings of configurations, every library of themes", "why_tests_cant": "plots need a display, are switched off in tests, and the number of combinations of arguments is unbounded", "anchors": ["src/polymesh/polydata.py:pvplot", "src/polymesh/polydata.py:plot", "src/polymesh/polydata.py:k3dplot", "src/polymesh/polydata.py:_init_config_", "src/polymesh/linedata.py:plot", "src/polymesh/linedata.py:_init_config_"]}
{"id": "C132", "title": "monomials of arrays of points", "statement": "The functions `monoms_TET4`, `monoms_TET10`, `monoms_H8`, `monoms_H27`, `monoms_W6` and `monoms_W18` give for a point the values of all monomials of the class, for an array of points the row of every point, for an array of cells the table of the points of every cell, whatever their number, and raise for arrays with any other number of axes.", "quantifier": "all six classes, all points, all arrays of points and of cells with any number of points", "why_tests_cant": "arrays of unbounded length; only arrays with as many points as nodes are used in tests", "anchors": ["src/polymesh/utils/cells/tet4.py:monoms_TET4", "src/polymesh/utils/cells/tet10.py:monoms_TET10", "src/polymesh/utils/cells/h8.py:monoms_H8", "src/polymesh/utils/cells/h27.py:monoms_H27", "src/polymesh/utils/cells/w6.py:monoms_W6", "src/polymesh/utils/cells/w18.py:monoms_W18"]}
{"id": "C133", "title": "clouds in compiled functions, topologies in functions of NumPy", "statement": "Inside a compiled function the attributes x, y, z and [] of a cloud of points are what the methods of the object give, and a cloud that a compiled function returns unchanged has the same places and indices; show_coords multiplies every point with the matrix; np.unique of a topology gives the used node numbers once each and in order, np.vstack lists the cells of all topologies, and other functions of NumPy are applied to the wrapped arrays.", "quantifier": "all clouds, frames, indices and keys, all orders of the parallel loop, all topologies and lists of arguments, all results of the base class", "why_tests_cant": "The tests call one compiled function that returns plain arrays, with one cloud in the ambient frame; clouds in other frames, returned clouds and further arguments of NumPy functions are never tried, and the parallel loop runs in one order at a time.", "anchors": ["src/polymesh/space/pointcloud.py:40-45", "src/polymesh/space/pointcloud.py:521-637", "src/polymesh/topoarray.py:114-148"]}
{"id": "C134", "title": "numbers of edges and faces of grids, Euler's formula", "statement": "For gridH8 with a, b, c cells, unique_topo_data finds a(b+1)(c+1)+(a+1)b(c+1)+(a+1)(b+1)c different edges among those listed by edges_H8 and (a+1)bc+a(b+1)c+ab(c+1) different faces among those listed by faces_H8; points - edges + faces - cells = 1. For gridQ4 with a, b cells there are a(b+1)+(a+1)b different edges among those listed by edges_Q4, and points - edges + cells = 1.", "quantifier": "all numbers of cells, sizes, bins (also repeated) and shifts", "why_tests_cant": "the numbers of cells are unbounded; a mistake in the numbering, in the tables of edges or in the removal of duplicates can show for some numbers of cells only", "anchors": ["src/polymesh/grid.py:gridH8", "src/polymesh/grid.py:gridQ4", "src/polymesh/utils/topodata.py:edges_H8", "src/polymesh/utils/topodata.py:faces_H8", "src/polymesh/utils/topodata.py:edges_Q4", "src/polymesh/utils/topology/topo.py:unique_topo_data"]}
{"id": "C135", "title": "cutting and elevating in either order", "statement": "Cutting cells into simplices and raising their order can be exchanged. H8 to H27 to TET10 and H8 to TET4 to TET10 give as many tetrahedra with the same corners, and Q4 to Q9 to T6 and Q4 to T3 to T6 as many triangles with the same corners; all nodes are at the same places if and only if opposite edges of the faces that are cut are parallel (in particular for all affine images of the master cell and for the cells of grids). Refining quadrilaterals of parallelogram shape and cutting them gives the same triangles as cutting and refining, up to order and rotation.", "quantifier": "all meshes of hexahedra or quadrilaterals, all positions of nodes", "why_tests_cant": "positions of nodes and meshes are unbounded; a wrong column of a table for mid-side nodes goes unnoticed on the symmetric cells that tests use", "anchors": ["src/polymesh/utils/topology/tr.py:H8_to_H27", "src/polymesh/utils/topology/tr.py:H27_to_TET10", "src/polymesh/utils/topology/tr.py:H8_to_TET4", "src/polymesh/utils/topology/tr.py:TET4_to_TET10", "src/polymesh/utils/topology/tr.py:Q4_to_Q9", "src/polymesh/utils/topology/tr.py:Q9_to_T6", "src/polymesh/utils/topology/tr.py:T3_to_T6"]}
{"id": "C136", "title": "answers about meshes that were moved", "statement": "If a mesh and the points asked for are mapped together, the answers follow. After any affine map with nonzero determinant, points are located in the same solid cells with the same local coordinates, points are inside of the same cells, volumes of tetrahedra and volumes by quadrature (any rule) are multiplied by the determinant, areas of triangles likewise, centres are mapped and raising the order of cells gives the mapped points with the same cells. After a motion, areas, Jacobian matrices and determinants with frames that were turned along (or with the frames the library computes), lengths, distances, closest and furthest points and nearest neighbours are the same. Plane cells and triangulations give the same answers when the orientation is kept.", "quantifier": "all meshes, points, affine maps and motions, any order of the writes", "why_tests_cant": "the maps form a continuum and the meshes are unbounded; a test moves one mesh in one direction, mostly along an axis", "anchors": ["src/polymesh/utils/locate.py", "src/polymesh/utils/tet.py:glob_to_nat_tet", "src/polymesh/utils/tri.py:glob_to_nat_tri", "src/polymesh/utils/utils.py:jacobian_matrix_bulk", "src/polymesh/utils/topology/tr.py:H8_to_H27", "src/polymesh/utils/space.py", "src/polymesh/utils/knn.py"]}
{"id": "C137", "title": "answers do not depend on the numbers of the points", "statement": "Two meshes whose cells have the same points in the same order, with whatever numbers and with whatever other points, get the same answers: cells that are cut have the same points, points are located in the same cells with the same local coordinates, are inside of the same cells, and frames, local coordinates, areas, volumes, Jacobian matrices and determinants, lengths, centres and points of cells are equal; raising the order gives cells with the same points. Detaching, regularizing, renumbering, exploding and leaving out or adding unused points all give meshes of this kind.", "quantifier": "all pairs of meshes with the same cells, any numbering, any order of the writes", "why_tests_cant": "every mesh has unboundedly many numberings, and the tests number points in the order in which they are made", "anchors": ["src/polymesh/utils/topology/topo.py:detach", "src/polymesh/utils/topology/topo.py:regularize", "src/polymesh/utils/topology/topo.py:rewire", "src/polymesh/utils/utils.py:explode_mesh_bulk", "src/polymesh/cell.py", "src/polymesh/utils/space.py"]}
{"id": "C138", "title": "a part of a mesh gets its part of the answers", "statement": "What a method of a block answers for its cells is the list of what it answers for the cells one by one: selecting, repeating or reordering cells selects, repeats or reorders the answers, joining blocks joins them, and a block has no answer if and only if one of its cells has none. This holds for centres, lengths, frames, local coordinates, Jacobian matrices and determinants, areas and volumes; and a point is inside of two parts together if and only if it is inside of one of them.", "quantifier": "all blocks with at least one cell, all selections of cells, all points", "why_tests_cant": "the selections of a block are exponentially many, and a sum over a block of the wrong size shows only for some of them", "anchors": ["src/polymesh/cell.py:areas", "src/polymesh/cell.py:volumes", "src/polymesh/cell.py:pip", "src/polymesh/cell.py:jacobian_matrix", "src/polymesh/cell.py:local_coordinates", "src/polymesh/utils/utils.py:cell_centers_bulk", "src/polymesh/utils/utils.py:lengths_of_lines", "src/polymesh/utils/space.py"]}
{"id": "C139", "title": "areas and volumes of blocks by quadrature", "statement": "Whatever the order in which the parallel loop over the cells runs, the volumes (areas) of a block are the sums over the points of the rule of weights times Jacobian determinants for the nodes of each cell. They exist if and only if all nodes exist and all cells have the number of nodes of the class. For hexahedra of any shape, 27-noded hexahedra, ten-noded tetrahedra and 18-noded wedges with straight sides, six-noded triangles in the plane with straight sides, and grids these are the volumes (areas) enclosed.", "quantifier": "all blocks, coordinates and topologies, all orders of all iterations of the parallel loops, all rules with the named degree of exactness", "why_tests_cant": "a test sees the few orders the scheduler happens to choose and the shapes and sizes of blocks it tries", "anchors": ["src/polymesh/utils/cells/utils.py:volumes", "src/polymesh/utils/cells/h8.py:volumes_H8", "src/polymesh/utils/cells/h27.py:volumes_H27", "src/polymesh/utils/cells/t6.py:areas_T6", "src/polymesh/cells/h8.py:volumes", "src/polymesh/cells/h27.py:volumes", "src/polymesh/cells/tet10.py:volumes", "src/polymesh/cells/w18.py:volumes", "src/polymesh/cells/w6.py:volumes", "src/polymesh/cells/t6.py:areas"]}
{"id": "C140", "title": "cells listed from another corner", "statement": "The same cells, with their nodes listed in another order that describes the same cell, give the same answers: centres for any order, lengths for both directions, areas of triangles in space and volumes of tetrahedra and the points inside of them for any order, volumes of hexahedra by quadrature for all 24 turns of the cell (and the negative volume when mirrored), the list of edges and faces of a block, and the points that conversion to more nodes adds.", "quantifier": "all coordinates and blocks; for every cell its own order among those named", "why_tests_cant": "every cell may be listed in up to 24 orders independently of the others", "anchors": ["src/polymesh/utils/utils.py:cell_centers_bulk", "src/polymesh/utils/utils.py:lengths_of_lines", "src/polymesh/utils/cells/h8.py:volumes_H8", "src/polymesh/utils/tet.py:vol_tet_bulk", "src/polymesh/utils/tri.py", "src/polymesh/utils/topology/topo.py:unique_topo_data", "src/polymesh/utils/topology/tr.py:H8_to_H27"]}
{"id": "C141", "title": "outer faces of solid meshes are closed and enclose the volume of the cells", "statement": "The faces that belong to one cell only bound the mesh: for tetrahedra with positive volumes that do not overlap, and for hexahedra whose common faces are run through in opposite directions (in particular those of regular grids), the outer faces form a closed surface (along every side as many faces run one way as the other), and the volume this surface encloses is the sum of the volumes that the library reports. The triangles returned by surface extraction form a closed surface, without regard to direction, whenever no face belongs to more than two tetrahedra.", "quantifier": "all coordinates and all meshes of tetrahedra or hexahedra meeting the stated conditions; all grid sizes", "why_tests_cant": "the sum of the volumes over all cells must cancel exactly along every inner face of meshes of any size and shape", "anchors": ["src/polymesh/utils/topodata.py:faces_TET4", "src/polymesh/utils/topodata.py:faces_H8", "src/polymesh/cell.py:volumes", "src/polymesh/utils/cells/h8.py:volumes_H8", "src/polymesh/cell.py:extract_surface", "src/polymesh/grid.py:gridH8"]}
{"id": "C142", "title": "the outline of plane meshes is closed and encloses the area of the cells", "statement": "The edges that belong to one cell only bound the mesh: for triangles with positive areas that do not overlap, and for triangles and quadrilaterals whose common edges are run through in opposite directions, the outer edges form closed lines (at every node as many begin as end), and the area they enclose is the total area that the library reports, also when quadrilaterals are cut into triangles first.", "quantifier": "all coordinates and all meshes of triangles or quadrilaterals meeting the stated conditions", "why_tests_cant": "the areas must cancel exactly along every inner edge of meshes of any size and shape", "anchors": ["src/polymesh/utils/tri.py:edges_tri", "src/polymesh/utils/tri.py:areas_tri", "src/polymesh/utils/topodata.py:edges_Q4", "src/polymesh/utils/topology/tr.py:Q4_to_T3"]}
