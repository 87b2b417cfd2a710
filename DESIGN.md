# Formal model of PolyMesh — design

The model is written in Lean 4 (`/verif/lean`, modules `Verif/*`). `/repo` is read as text and never run.
The properties are listed in `properties.jsonl`; the theorem names per property are in `MANIFEST.json`; attempts
to break the theorems by wrong models are in `seeded/LOG.jsonl`.

A theorem belongs to a property if its name begins with the property's id (`C15_...`). Suffixes:

* `_partial` — only part of the property is proved; the comment at the theorem says what is missing;
* `_false` — the property (or a claim of the documentation) is false of the code; the theorem is its negation with
  a concrete witness, or states the failure for all inputs.

## 1. Trusted base

* Lean 4.33.0's kernel, and Mathlib's definitions used in statements (`Field`, `LinearOrder`, `List`, `Real`,
  `Real.sqrt`, `HasDerivAt`, interval integrals, `Int.ceil`).
* Axioms: only `propext`, `Classical.choice`, `Quot.sound`. `lean/Verif/Audit.lean` collects the axioms of every theorem of
  the project and makes the build fail if there is another one. No own axioms, no `sorry`, no
  `native_decide`/`bv_decide`.
* The reading of the Python source: every definition cites file and lines. Nothing has been executed.
* The contracts of libraries listed in 1.2.

### 1.1 Conventions of the model

* A topology (2d `ndarray`, `TopologyArray`, jagged array) is `List (List Nat)`; a 2d array is one whose rows
  have equal length. Functions that the code has in three copies (numpy / awkward / csr) are modelled once on
  rows; where a copy differs, this is said at the definition.
* Coordinates are elements of an arbitrary (ordered) field `K`, or reals where square roots occur, instead of 64-bit
  floats. Rounding, overflow, NaN and tolerances other than an explicit parameter are therefore **not** modelled.
  Integer overflow of int32/int64 node numbers is not modelled.
* An exception (`KeyError`, `IndexError`, failed `assert`, an unbound name) is `none`. numba-compiled code does
  not check bounds; the model returns `none` there ("undefined"), and theorems state when the result is `some`.
  A normalized zero vector (NaN) is `none` as well.
* An in-place array update in a loop is a fold of writes. A `prange` loop is a *list of writes in any order*:
  schedule-independence theorems quantify over all permutations of the write list.
* Python aliasing (two names for one array) is modelled only where a property is about it. In particular the csr branches of
  `regularize`, `count_cells_at_nodes`, `cells_at_nodes`, which overwrite the data of their argument, are modelled without this
  side effect.

### 1.2 Contracts of libraries

| library | what is assumed | where |
|---|---|---|
| numpy | `unique` (sorted, without repetitions, inverse), `sort`, `cumsum`, `repeat`, fancy indexing, slices, `argmin`/`argmax` (first), `vstack`/`hstack` | `Basic.lean`, `Topo.lean`, `Cloud.lean`; as definitions |
| numba | a loop body is a sequence of atomic assignments; `prange` runs iterations in any order; dictionaries keep the last value of a key | as definitions |
| awkward, `JaggedArray` | an array made from flat data and widths is the list of rows; whether a field accepts an array of another length is left open (`strict`, both cases are covered) | `Stack.lean`, `PolyData.lean` |
| `linkeddeepdict` | a mesh is a tree of named blocks; `blocks()` is a walk in preorder; joining and leaving the tree call the two hooks of the class once | `Ids.lean`, `PolyData.lean` |
| neumann | a frame has orthonormal absolute axes; `Vector.show` gives the components of the same vector along the target's axes; frames of blocks as inverse pairs of maps (`Fr.Valid`) | `Cloud.lean`, `PolyData.lean` |
| neumann `gauss_points` | hypothesis `LineExact d` (exact for polynomials up to degree `d` on [-1, 1]); for the rules with one to three points examples show that it can be met | `PropsQuad.lean` |
| `np.linalg.inv`, sympy | hypothesis `InvContract` (the result is an inverse; it is found if there is one); `diff` is the derivative of polynomials, `lambdify` is exact evaluation | `GenShape.lean`, `PropsGenShape.lean` |
| scipy `cKDTree` | hypothesis: the answer is a nearest point (`PropsFrames`, `PropsSkin`), `k` nearest points (`IsKNearest`) | stated in the theorems |
| `np.linalg.det` | the determinant, by the formula for up to three rows | `Jacobian.lean` |
| neumann `normalize2d` | each row divided by its norm; what becomes of a zero row (NaN or zero) is left open (`keep`, both cases are covered) | `TriMore.lean` |
| networkx | `from_dict_of_lists` makes the graph with the given lists of neighbours | `TopoOpts.lean` |
| pyvista | hypothesis `VtkSurface`: the extracted surface consists of triangles of the faces that belong to one cell, each such face covered, at the coordinates of the cell's nodes | `PropsSkin.lean` |

### 1.3 What is modelled

All paths relative to `/repo/src/polymesh`.

| module | code |
|---|---|
| `Topo` | `utils/topology/topo.py`: `regularize`, `is_regular`, `rewire`, `remap_topo*`, index maps, `detach*`, `count_cells_at_nodes`, `cells_at_nodes`, `nodal_adjacency`, `unique_topo_data` |
| `Transform` | `utils/topology/tr.py` 62-204: `transform_topology`, data along with it, `compose_trmap` |
| `Cells` | tables of `tr.py`, `utils/topology/topodata.py`, `polygon.py`, `polyhedron.py`, `trimesh.py`; master coordinates of the cells |
| `Elevate` | `tr.py` 529-612, 676-691 |
| `Extrude` | `extrude.py`, `trimesh.py` 110-142 (without the planarity check) |
| `Grid` | `grid.py` 16-568 |
| `Mesh1d` | `mesh1d.py` |
| `CellData` | `utils/utils.py` 242-713, 800-832; `celldata.py` pull; `pointdata.py` pull |
| `Tri`, `Tet` | `utils/tri.py` 41-424 (see the definitions), `utils/tet.py`; `utils/utils.py` 983-1001 |
| `Frames` | `utils/space.py` frames, distances, index of closest and furthest points; `utils/tri.py` 517-533 |
| `ShapeFn` | the shape functions and their derivatives in `utils/cells/{l2,t3,t6,q4,q9,tet4,h8,h27}.py` |
| `GenShape` | `cell.py` 112-192 and the bases in `cells/*.py` |
| `Quadrature` | `utils/cells/gauss.py`, `utils/cells/utils.py` 10-21, volumes in `t6.py`, `h8.py`, `h27.py` and `cell.py` |
| `Ids` | `polydata.py` 172-237, 458-499, 2263-2326 (ids of cells, look-up of blocks) |
| `PolyData` | `polydata.py` source, `rewire`, `to_standard_form`, `nummrg`, `move`, `rotate`, `spin`, `centralize` |
| `Cloud` | `space/pointcloud.py`, `space/frame.py` |
| `Stack` | `topoarray.py`, `PolyCell.flip` |
| `Misc` | `utils/colors.py`, `recipes.py` 251-293, `utils/utils.py` 835-943 |
| `Locate` | `cell.py` 387-423, 517-543, 890-1045; `utils/cells/utils.py` 24-148 |
| `Around` | `utils/utils.py` 26-173 |
| `Inp` | `io/inp2stl.py` (parsed records; the text is modelled in `InpText`) |
| `Tile` | `tile.py` |
| `Skin` | `cell.py` 935-949, `polydata.py` 1210-1229 |
| `Plate` | `recipes.py` 189-329, `utils/utils.py` 367-383 |
| `Jacobian` | `utils/utils.py` 176-251, 717-797; `cell.py` 162-173, 318-363, 425-445, 824-829; `line.py` 21-47; the shape function matrices in `utils/cells/*.py` and `utils/tri.py` 62-68 |
| `Knn` | `utils/knn.py`, `grid.py` 571-603, `cell.py` 1010-1017 |
| `LocateTri` | `utils/locate.py` 19-69, `utils/cells/utils.py` 97-113, `utils/tri.py` 341-351, `cell.py` 841-865 and 1047-1087 |
| `TriMore` | `utils/tri.py` 114-168, 427-482; `utils/space.py` 178-201, 291-345; `trimesh.py` 95-108 |
| `Voxel` | `voxelize.py`, `recipes.py` 83-150 (voxels only, default frame) |
| `Areas` | `cell.py` 660-705, 755-845, `polygon.py` (maps to triangles, areas), `utils/tri.py` 13-27, `celldata.py` 375-400 (setting frames) |
| `Triang` | `triang.py` 98-135, 170-172, `utils/tri.py` 485-514; the triangulation itself (matplotlib, scipy, pyvista) is not modelled |
| `Recipes` | `recipes.py` 19-82, 151-160, 338-394 with `order=1`; the triangulation is a parameter |
| `CellLines` | `utils/topology/tr.py` 398-473 |
| `Walk` | `polydata.py`: `topology`, `cell_indices`, `number_of_cells`, `volumes`, `areas`, `centers_of_cells`, `nodal_distribution_factors`, `index_of_closest_cell`, `index_of_furthest_cell`, `_detach_block_data_`, `detach` (1278-1305); volumes and areas of blocks are parameters; `detach` is modelled with a store of points, so that sharing is seen |
| `Copy` | `polydata.py` 204-237 (the part of the constructor that rewires cells by ids), 294-359, 2263-2270, `pointdata.py` 117-142, `celldata.py` 141-166; Python's `copy`/`deepcopy` of arrays and records are taken to return equal new objects, `memo` gives one copy per object |
| `LinePoints` | `cell.py` 701-753; `neumann.utils.to_range_1d` is taken to be the affine map of ranges |
| `FrameMesh` | `pointdata.py` 45-112, 179-192 (frames of three axes); `polydata.py` 241-253, 956-971, 1131-1194; that a new cloud takes the numbers it is given (`Vector(coords, frame=…)`) is trusted |
| `Monoms` | `monoms_*_single`, `_multi`, `_bulk_multi` of `utils/cells/*.py` for the twelve cell classes; `utils/cells/utils.py` 50-75; `utils/cells/h8.py` 44-66; `np.linalg.inv` is a parameter that is assumed to return inverses and to succeed if there is one (`InvFn`) |
| `CsrTopo` | `utils/topology/topo.py` 133-135, 165-169, 240-279, 310-312, 363-384, 509-553 (csr branches), 574-599, 826-845; `utils/utils.py` 98-116; `csr_matrix` of `neumann` is a pair of lists; the branch of `is_regular` for scipy matrices reads an unassigned name and is not modelled; `JaggedArray` and awkward arrays are lists of rows |
| `Section` | `section.py` 53-66, 118-171 (choice of the size only), 257-306, 325; the mesh of the section is made by `sectionproperties` and is an argument (contract: `SectionOK`, straight sides, node i + 3 opposite to corner i); the check for planarity in `TriMesh.extrude` is left out, as in `Extrude` |
| `Stl` | `io/inp2stl.py` 47-76, 107-112, 195-288, 318-343; lines carry numbers instead of their decimal strings, the file is the list of lines (opening, and that it is never closed, are left out), the command line and the printed lines are left out; `upper()` and the removal of `PT_` are done by whoever supplies the names of the sets |
| `Extremes` | `space/pointcloud.py` 211-224, 248-353, `polydata.py` 1197-1208 (the same as `PointCloud.bounds` of the points), `space/point.py` (inherits `show`); three dimensions; `minmax` and `Vector.show` of `neumann` and the KD-tree by contract, a vector without a frame shows its numbers |
| `Simplices` | `polygon.py` 15-124 and `polyhedron.py` 18-113 (`trimap`, `tetmap`, `to_triangles`, `to_tetrahedra`), `cell.py` 611-621, 882-910, 957-968; not `from_TriMesh`. `PolyCell3d.volumes` is what `TET4` and the classes of `polyhedron.py` use; `TET10`, `H8`, `H27`, `W6`, `W18` of the package `cells` replace it by quadrature (C38); topologies have the right number of columns |
| `Database` | `akwrap.py` 20-31, 154-211, `celldata.py` 71-136 (without `frames`, `wrap` and `db`), 293-312, 402-424, `pointdata.py` 45-112, `polydata.py` 709-777, 927-953; not parquet and data frames. Entries of any type; `ak.zip` and `np.unique` are parameters: columns with different names and equal lengths are kept, the names are the same; assigning a column of another length to a database is not modelled |
| `Exchange` | `abcdata.py` 21-35, `helpers.py`, `polydata.py` 517-609 (`from_meshio`, `from_pv`), 1818-1853, `vtkutils.py` 15-48. The points are handed on as they are. The readers of meshio and PyVista and VTK itself are not modelled; `meshioName` is a table of meshio, the numbers of nodes of the types of VTK are those of vtkCellType.h |
| `NewMesh` | `polydata.py` 157-167, 239-292, `trimesh.py` 62-88, `tetmesh.py` 21-30, `linedata.py` 20-36, `grid.py` 625-630, `polydata.py` 312: the points, the class and the nodes of the cells of new meshes. The frames of the cells and the dictionary made of the other keyword arguments are not modelled; the triangulation is a parameter |
| `Neigh` | `polydata.py` 1437-1494, 1526-1547, 1613-1636: `cells_at_nodes`, `nodal_adjacency`, `center`, `k_nearest_cell_neighbours`, `cells_around_cells` of meshes. `to_csr` and `is_jagged` of neumann and the search tree are parameters; targets of `center` other than the frame of the mesh are not modelled |
| `EvalPts` | `cell.py` 154-180, 195-278, the loops `*_multi` of `utils/cells/*.py` for shape functions, derivatives and matrices: points as arrays of one or two axes, of an integer or a floating point type; arrays of integers truncate towards zero. What is rejected by the compiler (arrays for `L2`, numbers for the others) is `none` |
| `Populate` | `pop.py` 13-39; `tile` of neumann is taken to stack `a + i * da` |
| `Pull` | `utils.py` 522-555, 969-980, `celldata.py` 314-350; a csr matrix is its values and its row pointers; scalars are elements of `M` |
| `TurnFrames` | `cell.py` 648-657, `polydata.py` 1730-1732; `CartesianFrame(axes).rotate(...)` of neumann is taken to turn each axis by the rotation the arguments describe, the one applied to the points; `show` gives components |
| `K3d` | `polydata.py` 1919-2020; the objects added to the scene: kind, points, cells, values, range of colours. The surface of a block comes from an external library (contract of C59), colours and single precision are not modelled |
| `Pv` | `polydata.py` 1782-1815, 1857-1915, 2149, 2191-2210: the grids and values handed to PyVista, the parameters of the blocks, the configurations after a plot. Configurations are those of one key, values per cell have one number per cell; that PyVista attaches values to points if their number fits, else to cells, is trusted; themes, windows and the plotter are not modelled |
| `Tetrahedralize` | `tetrahedralize.py` 13-83: the assertion about blocks, the choice of the order and the construction of the result. What TetGen returns for the triangulated surface is a parameter; the frames handed to the cells are not represented |
| `Lock` | `polydata.py` 420-479, 1114-1120: lock, unlock, stored mappers, numbers of the cells after `to_standard_form`. That a locked tree refuses changes is the documented behaviour of `DeepDict` (another library) and trusted; the walk is any enumeration of the blocks; the lock of the root is meant for all levels |
| `TriObj` | `triang.py` 93-97, 137-228, `trimesh.py` 144-169, `polygon.py` 73-82: objects of the three backends and what is read from them. The triangulations are functions of the points; that matplotlib keeps given triangles is trusted; keyword arguments handed on are not modelled |
| `RecipeOrder` | `recipes.py` 391-406: the order of perforated cubes |
| `IntPts` | `utils/tri.py` 297-338, `utils/tet.py` 77-144, `cell.py` 841-865, 970-1087, `extrude.py` 9-80 for arrays of integers: numbers are cut off towards zero wherever they are stored in an array with the type of the points. That storing a floating point number in an array of integers cuts it off, and that `atleast2d` keeps the type, is trusted. Coordinates of cells in integers are not modelled (the volumes refuse them) |
| `CloudMore` | `space/pointcloud.py` 48-57, 427-462 (all kinds of arguments), `space/frame.py` 76-97, 210-251. The components `v[0]`, `v[1]`, `v[2]` of a `Vector` are taken to be those in its own frame; axes of frames are values (the base class of `neumann` is not modelled) |
| `IntMesh` | the type of the results of `utils.py` 242-250, 345-364, 403-453, 630-672, 800-832, 908-944, 969-980, `utils/tri.py` 207-240, `grid.py` 523-568 for arguments in arrays of integers: a stored number loses its decimals. That numba refuses `np.dot`, `norm`, `@` and in-place division for integers is assumed (those functions are left out) |
| `CellTables` | the arrays filled by `edges_Q4`, `edges_TET4`, `faces_TET4`, `edges_H8`, `faces_H8`, `edges_W6`, `faces_W6` (`utils/topodata.py` 8-203) for whole meshes |
| `FrameCentre` | `PolyData.is_source`, `source`, `center`, `centers`, `centralize` (polydata.py 832-864, 1526-1611), `PolyCell.centers` (cell.py 623-631) with `target`, for meshes with frames; `if target:` is read as "a frame is given"; the argument `axes` is not used by the code |
| `FrameCells` | `PolyCell.unique_indices`, `points_involved`, `detach_points_cells` (cell.py 633-646) for meshes with frames; `neumann`'s `unique2d` is taken to be `np.unique` |
| `SecProps` | `LineSection.A`, `Ix`, `Iy`, `Iz`, `geometric_properties`, `calculate_*`, `section_properties`, `get_section_properties` (section.py 327-392); the library `sectionproperties` is trusted to return area and second moments (`SecContract`), None before `calculate_geometric_properties`, and to refuse warping before it |
| `FrameSurf` | `PolyCell.to_vtk`, `PolyCell3d.surface`, `PolyData.surface` (cell.py 371-379, 912-949; polydata.py 1210-1229) for meshes with frames |
| `Lcenter` | `lcenter` of the classes of cells (cells/*.py) and its defaults (cell.py 86-96, 776-786; utils.py 324-370) |
| `Small` | `area_Q4_bulk`, `cell_coords`, `norms`, `move_points`, `center_tri_3d`, `monoms_tri_loc(_bulk)`, `dol_keys`, `explode_mesh`, `nodal_distribution_factors`, vtkcelltypes.py |
| `Readers` | `input_to_mesh` (io/io.py 19-72), `PolyData_to_mesh` with `v=0` (vtkutils.py 51-63), setters of `PolyData` (polydata.py 377-411, 973-990), `get_section`, `LineSection.__init__` (section.py 116-173, 229-255); meshio and PyVista give points and cells, the parameters of the functions of `sectionproperties` are a table (`sectionLib`), materials are not modelled |
| `KnnCall` | all arguments and results of `k_nearest_neighbours` (utils/knn.py 19-124), for scipy 1.6.0 and later; the tree is a parameter with a contract (`TreeContract`: at most k nearest points, nearer ones first), the square root too |
| `Grid` (again) | C124 is about the same model as C16-C21; keywords that `grid` does not know are swallowed by `**kwargs` and are not arguments of the model |
| `Attrs` | `abcdata.py` 21-28, `akwrap.py` 102-152, `celldata.py` 270-291, 381-401, 450-461, `polydata.py` 678-707. Names of members of awkward arrays (`mask`, `type`, ...) are not asked for as attributes; `ak.from_iter` keeps records; a base without a map of its own counts as one with an empty map |
| `InpText` | `io/inp2stl.py` 12-43, 70-75, 78-192, 195-243 (names), 291-341: the characters of the file, names of sets, the script. Letters and numerals of ASCII; `float` is a parameter; files written before an error are not counted |
| `Convert` | `utils/topology/tr.py` 62-164 and 207-395, 476-526, 615-673: the arguments `path`, `subdivide`, `data`, further positional arguments, exceptions by kind. Not modelled: data types of arrays, unknown keywords |
| `utils/topology/topo.py` 417-562, 786-845 (all options; 207-231 and 345-360 for awkward arrays) | `TopoOpts` |
| `PlotCall` | `polydata.py` 196, 810-812, 2025-2052, 2147-2190, 2212-2261; `linedata.py` 38-95: arguments, themes, plotters, results and backends of plots. PyVista is a parameter (its themes by name, the keyword arguments of a plotter); of a theme the attributes that `pvplot` sets; names are compared in lower case of ASCII; what plotly draws is not modelled |
| `Monoms` (`call`) | `monoms_*` of `utils/cells/{tet4,tet10,h8,h27,w6,w18}.py`: the choice by the number of axes; assigning a table to the rows of another one needs as many rows or a single one, which is repeated |
| `Compiled` | `space/pointcloud.py` 40-45, 137-142, 521-637, `topoarray.py` 114-148: clouds handed to and returned by compiled functions, `__array_function__`. Trusted: Numba calls `unbox`, the overloads and `box` as registered; `unique2d` of `neumann`; NumPy raises a `TypeError` if the protocol answers `NotImplemented`. The constructor of `Vector` is a parameter. Not modelled: making clouds inside of compiled functions |
| VolBlocks.lean | `volumes` (utils/cells/utils.py 10-21), `volumes_H8`, `volumes_H27`, `areas_T6` as loops over points (in order) and cells (in any order), and the methods of H8, H27, TET10, W6, W18, T6 that call them. `none`: shapes that do not fit, a node without a point |

### 1.4 What is not modelled

The insides of VTK, PyVista, meshio, K3D and matplotlib (what is handed to them is modelled in `Exchange`, `K3d`, `Pv`), plots with
matplotlib and plotly, the insides of KD-trees, persistence of awkward arrays (parquet, data frames), Delaunay triangulation and TetGen
(parameters), `sectionproperties`, the geometric recipes other than the ribbed plate, the helix, the disk, the regular cylinder and the
perforated cube, documentation, floating point error, memory layout, failures of numba's compiler, performance.

## 2. How the properties are proved

| id | method |
|----|-------|
| C01–C08 | list lemmas about `np.unique`; invariants of the counting and slot-filling folds |
| C09, C10, C20, C23 | write loops with index `i*n+k`: consistent writes can be made in any order (`runW`, `Consistent`) |
| C11, C14, C60 | literal tables: a finite check by `decide`, lifted by a lemma to all node numbers and all affine images of the master cell; tilings by separating planes and volumes |
| C12 | from C08 |
| C13 | polynomial identities (`ring`) |
| C15–C19, C21, C22 | closed forms of the loops, mixed radix numbering |
| C24–C26 | sums over lists |
| C27–C30, C33 | algebra over fields |
| C31, C32 | norms and cross products over the reals; induction for `argmin` |
| C34–C36 | polynomial identities; derivatives by `HasDerivAt`; inverse of the Vandermonde matrix |
| C37, C38 | moments; iterated integrals as specification |
| C39, C40, C52 | state machines, inductive invariants |
| C41–C43 | induction on the walk of the tree |
| C44, C45, C61 | indexing; orthonormal frames |
| C46, C55 | lists |
| C47, C48, C53, C54 | writes in any order; affine maps |
| C49, C50, C58 | digits; ceilings; affine maps |
| C51 | lists, padding |
| C56, C57, C59 | incidence counts, renumbering |
| C62 | gaps of the bins: a cell is in the plate or rib, or outside, as a whole; C04, C13 and C14 for the rest |
| C63–C66 | Heron's formula, tangent lengths; shrinking maps; writes in any order; Lagrange's identity |
| C67, C72 | derivatives by `HasDerivAt`; orthonormal frames; writes in any order |
| C68 | counting; rows of `unique_topo_data` |
| C69 | weights of points (`IsNat`, `InTri`), the affine map of the triangle |
| C73 | weights of points in triangles and tetrahedra, `InTri`, `Hull` |
| C70 | the centred grid is a grid of bins; then as C62; triangle inequality in the plane for the fit |
| C71 | closed form of the cut coordinates (as C09); Binet-Cauchy turns the shoelace sum in local coordinates into the component of the vector area along the normal of the frame; Lagrange identity for flat cells |
| C74 | trigonometric identities, derivatives |
| C75 | `np.linspace` in closed form; lines by C08 |
| C76 | polar coordinates: equal points have equal radii and angles that differ by full turns; the mean of three points of a circle is inside (sum of squared distances); C04 for the points used, C15 for the cells |
| C77 | C17 for the centred lattice, C76 for the mask, C15 for the cells |
| C78 | C09 for the path, C08 for the unique lines, tables by `decide` lifted to all topologies |
| C79 | all quantities are stacked over the same list of blocks: `stack_walk`; C24, C32, C04 for factors, nearest cells and pieces |
| C80 | paths below the block are cut off by `relPath`; closest points before and after are compared by `ClosestPts` |
| C81 | the children are copied one after another; the invariant (`CopyOK`, `CopyBlockOK`) keeps that every copied block has new points and that `sourceRef` finds the copy of the closest points |
| C82 | C58 for the parallel loop; reshaping and flattening are inverse (`reshapeCells_get`); shape functions of two- and three-noded lines by components |
| C83 | induction on the path for the lookup; orthonormality of the target (C45) for the views; inverse maps of ids (C04) for the points of cells |
| C84 | functions in the span of the monomials are reproduced (`reproduces`, `loc_of_span`); spans of the master cell carried over by the inverse map of the cell give regularity (`Regular.transport`); the master matrices are regular by C36 |
| C85 | the entries a csr matrix is looped over are those of its topology (`IsCsr.entries`), so C05-C07 carry over; `subtopo_eq`: gathering rows commutes with flattening, in any order of writes; `spFold`: the loop state as writes |
| C86 | `tiles_section` as in C14 with the node order of sections; corners by C04; beams by C15 on pairs and triples of the same mesh |
| C87 | a grammar of files with unique facets; normals by algebra over the reals; boxes as unions; names by what follows the last hyphen |
| C88 | ranges by induction; C32 on the shown points; the place of a point in a frame is C45's |
| C89 | C09 and C10 on the tables of the classes; volumes of images of the master cells from integer tables and the determinant of the map |
| C90, C91 | an invariant of dictionaries (different names, equal lengths, the value of every name) kept by every step of the constructors; induction over the names asked for |
| C92 | VTK's way to read an array of cells as a small recursive specification; the tables of classes by evaluation, lifted to all types; dictionaries by induction over the groups of cells |
| C93 | the tables of classes by evaluation, lifted to all numbers of columns; C12 for triangles with six nodes, C19 for grids |
| C94 | the stacked topology of C79, then C06/C85, C07/C85, C68 and C51 |
| C95 | C34 - C36 for each point; C72 for the matrices; truncation is harmless for expressions with integer values at integer points (T3, T6, Q9, TET4, H27; checked for all parities of the coordinates) and at nodes |
| C96 | lines of the first copy from C75; different copies have no node in common |
| C97 | rows named by the ids, stacked, are the factors; then C24, C25 |
| C98 | rotations commute with dot and cross products and with normalizing |
| C14 (H8, convex) | Cramer's rule at corners 0, 2, 5 gives the signs of the tetrahedra on the diagonals; cases by the four inner planes; separating planes |
| C99 | closed form of grids (C19, C21), a face is determined by a direction and the lattice point of its lowest node; counting incidences of faces and cells |
| C100 | closed form of grids, C38 and C89 for affine cells, C71; telescoping sums |
| C101 | detaching (C04), triangles of faces (C89), surfaces (C59), block by block |
| C102 | axes cut the box into boxes, each tiled by its pieces (C14); the interior of a piece lies in the interior of its box |
| C103 | C102 gives a tetrahedron for every point of the box, C47 finds it and maps the local coordinates back |
| C104 | the loop keeps the configurations up to removed colours (`fade`), so the lookup does not change; blocks by C79 and C92 |
| C105 | the stored coordinates by C83, the nodes of quadratic tetrahedra by C12 |
| C106 | the closed form of the topology (C99), with indices for nodes and cells (`Indexed`), put into C05, C06, C07 and C24 |
| C107 | closed forms of the topologies (`hexTopo27`, `quadTopo9`); two nodes of an elevated mesh are the same iff they belong to the same edge, face or cell (C12), iff they are at the same place of the lattice with half the step |
| C108 | C73 and C69 on the two triangles (five tetrahedra, C102) of each cell of a grid; the rectangle is covered by explicit natural coordinates |
| C109 | invariant of histories: mappers exist only while locked and are those of the blocks; the invariant of C40 with numbers that are not negative |
| C110 | case analysis over backends with a relational specification of the plane coordinates; edges by C08 and C75 |
| C111 | a stored number passes the test if the number is between minus one and two; then as C73, C47 and C15 |
| C112 | the nodes of a cell with straight sides are fixed combinations of its corners; the combinations of the shape functions are compared with the shape functions behind the placement of the part as polynomials (`formCheck`, `tangentCheck`); covering and separation from C14 on the master cell |
| C113 | induction on the history; two frames share an array exactly if they are shallow copies of one frame |
| C114 | writing mapped values is mapping written values (`runW_mapVal`); a number without decimals is characterised by `IsCut` (unique), a factor between zero and one becomes zero |
| C115 | means are characterised without a division (`MeanPt`, unique) and carried along by frames (`MeanPt.place`); blocks with the same axes keep their stored numbers (`framedPoints_same`) |
| C116 | selecting rows commutes with showing points in a frame; the points of the first block of a source come first, as stored |
| C117 | integrals of quadratic functions by the middles of the sides (`tri_quad`, from the moments of C37); refining a triangle into four keeps them; second moments about the centroid do not see translations, their sum does not see rotations |
| C118 | the skin of C59 applied to the points in the ambient frame; the nearest point of a point of the cloud is itself |
| C119 | tables by kernel computation over ℚ; equal weights give the mean; interpolation of affine functions (C34, C36) gives the rest |
| C120 | the swept area of C33, polynomial identities, the lemmas on writes in any order, tables by kernel computation |
| C121 | results of mapping over a list; invariants of sequences of assignments |
| C122 | case by case over the shapes; keyword arguments as sets of pairs |
| C123 | the first r of the k nearest points in order are the r nearest; counts of closer points by inclusion of lists without repetition |
| C124 | one closed form for all arguments, linear in the shift; sums of columns for the mean; axes that agree at the bounds of the cells give the same grid |
| C125 | the last base with a name decides; averages by C26, records by C90 and C91 |
| C126 | a grammar of files (`Says`), runs of records, first occurrences in texts, decimal numerals; a simulation links the text with the records of C57; files by C87 |
| C127 | tables of all conversions (`Conv`), `Parts` (places of nodes), `Spread` (values of cells), `Follows` (data); the closed form of C09 for the loops, C12 for undoing |
| C128 | `FaceToFace` (hulls of common nodes), `PlaneFit`, `HullWeights`; weights of a point are pushed down to the plane, where they are unique, and lifted along stairs of nodes (`Stair`) |
| C129 | `FaceToFace` as in C128; products of `AxisFit` for boxes, chains of a lattice (`IsChain2`, `chain_unique`) for triangles; closed forms of C99, C107, tilings of C102, extrusion by C128 |
| C130 | `IncidenceList`, `NodeRows`, `Largest`, `IsCsr` (rows of a csr matrix); a container `Holds` a topology |
| C131 | the attributes of the theme, the list of meshes, the parameters and the calls of `show` of the plotter, each in terms of the arguments |
| C132 | the monomials of `polybase` at the point, one row per point, one table per cell |
| C42, C43 (exact accounts) | ranks among the used nodes, applied as often as there are cell blocks above; the moved points of the used nodes in increasing order |
| C50, C51, C53, C55 (exact accounts) | fewest equal parts of a gap; near points cut or filled with zeros; ids used as row numbers; nodes counted from the end |
| C60 (exact account) | `SameDiagonal`; `trisW6`, the triangles on each quadrilateral of a split wedge; `TrisMatch` |
| C28, C61, C65, C67, C68, C69 (exact accounts) | `seenIn`, the point or its mirror image in the third corner; motions without a frame; `Interpolated` rows of triangles; half chords of lines; lines through a point |
| C29, C53, C73, C79, C80 (exact accounts) | points from the nearest block with points (`PointsFrom`), areas and ids of blocks also when some have none; points of cells of any width; planes of triangles seen from either side |
| C82, C87, C88, C91, C92 (exact accounts) | `Target.aim`, the point that is really searched for; `LabelAt`, negative indices included; `BlocksOf`, the last group of each known type; `Beneath` with equal numbers of columns |
| C77 (numbers) | `PiecesAtLeast`: the largest number of pieces not shorter than `lmax`, at least a given one |
| C107 (bins) | `HalvedBins`, for all bins by `halvedBins_halveBins` |
| C109 (any history) | `MappedAt`, `Unmapped`: the mappers of the first lock with mappers since the last unlock; `LooksUpIn` their blocks and numbers |
| C113 (arrays of the caller) | `owner`, `placeSpec`: things with the same owner move together |
| C115 (exact) | `C115_centralize_exact`: with a frame of other axes the centre moves by the vector with the components of the centre in `T`, taken along the axes of the source |
| C133 | writes of the parallel loop in any order; cases of the arguments; C46 for stacking |
| C134 | faces from C99; edges from the number of points after `H8_to_H27`, which C107 knows to be that of `gridH27` |
| C135 | closed forms of elevation (C12) and cutting (C08); positions of mid-side nodes as means, compared with means of faces: equal exactly for parallelograms (`BoxLike`) |
| C15, C128, C129 | `C15_diagonals_exact`, `C128_tets_exact`, `C129_tets_exact`, `C129_extruded_tets_exact`: crossing diagonals of neighbours against uniqueness of weights in a tetrahedron |
| C38, C84 | `C38_T6_exact`, `C38_W6_exact`, `C84_Q4_exact`, `C84_Q4_right_exact`: coefficients of the determinant against the exact integral; the bilinear map is inverted by the matrix exactly for parallelograms |
| C31, C39, C98 | `C31_plane_exact`, `C31_surfaces_exact`, `C39_exact`, `C98_exact`: reading off when the test or the counter fails |
| C09, C54, C56, C59, C76, C85 | `C09_cell_data_exact`, `C54_exact`, `C56_exact`, `C59_blocks_exact`, `C76_distinct_exact`, `C85_twice_exact`: conditions under which the wrong step happens to do nothing |
| C71, C72 | `C71_triangle_exact`, `C71_exact`, `C72_tri_loc_exact`, `C72_H8_exact`: projected area against area, equality termwise |
| C44, C83, C105 | `C44_slice_exact`, `C44_mask_exact`, `C83_points_exact`, `C83_mesh_exact`, `C105_frame_exact`: injectivity of places in a frame |
| C95 | `C95_int_L2_exact`, `C95_int_Q4_exact`, `C95_int_H8_exact`: truncation changes nothing exactly at integers, sums of weights give the parity of the coordinates |
| C136 | `C136_*`: each function of the mapped mesh is compared with itself before mapping (affine `Aff.app` with `det ≠ 0`, motion `x ↦ G (x − o) + c` with `IsFrame G`). Cells of zero volume divide by zero in the code; the model gives 0 there on both sides |
| C14 | `C14_triobj_partial`, `C14_triobj_exact`: the path of `to_triobj` is right for nodes opposite to the corners; on `T6` three of four triangles are turned over |
| C137 | `SameCells c t c' t'` compares two meshes place by place by the points behind the numbers. `C137_detach`, `C137_renumber`, `C137_regularize`, `C137_explode`, `C137_unused` give meshes related like this, the other `C137_*` give equal answers; `C41_same_partial` and `C42_same_partial` do this for the standard form and for merged numbers of whole trees |
| C62 | `C62_wide`, `C62_wide_exact`, `C62_apart`, `C62_apart_exact`: what is made of ribs wider than the plate or apart from it (`filledRib`), and exactly when it is right |
| C97, C75 | `C97_ids_exact`, `C97_dense_exact`, `C97_missing_exact`: pulled data add up if and only if the factors that are read do; `C75_made_exact`, `C75_pair_exact`: when `triangulate` makes points, how many and at which height |
| C40 | `C40_add_exact`, `C40_graft_exact`: exactly which blocks and which meshes built before lead to cells with equal ids |
| C138 | `CellByCell P f`: for rows that satisfy `P`, `f rows = some A` if and only if `A` lists the answers `f [r]`. `C138_part`, `C138_join`, `C138_none` say what follows for selections, joined blocks and errors; the other `C138_*` show that the methods of cells are of this kind. `C138_inside_2d`, `C138_inside_3d` are about points in two parts. `C138_empty`: the part must have a cell |
| C47, C69, C73 | `C47_found_exact`, `C69_found_exact`, `C73_found_exact`: for any candidates a point is found if and only if one of them holds it. `C47_lazy_exact` says in terms of the points alone which points the default search finds and which it misses; `C47_lazy_few`: none is missed in blocks with 2 to `k` tetrahedra |
| C37 | `C37_Wedge_3x2_exact`: with both layers at one height, terms of degree `k` in height are integrated if and only if `k` is 0 or 2 |
| C139 | `RunsOverAll order`: every inner loop visits all cells once. `C139_loops`: every cell gets its own sum. `C139_volumes`, `C139_areas`, `C139_exact`, `C139_areas_exact`, `C139_dimension`, `C139_empty`: blocks, and exactly when there is an answer. `C139_H8`, `C139_H27`, `C139_TET10`, `C139_W18`, `C139_T6`, `C139_grid`: the volumes enclosed, from C38 and C100. `C138_quadrature`: cell by cell |
| C140 | `SameNodes`: rows with the same nodes. `HexTurn p`: generated by two quarter turns; `C140_turns` shows that these are exactly the 24 orders that keep edges and orientation (`KeepsHex`). `C140_centres`, `C140_lengths`, `C140_areas`, `C140_tetrahedra`, `C140_inside_block`, `C140_H8`, `C140_mirrored`, `C140_entities`, `C140_elevate`, `C140_elevate_centre`, `C140_elevated` say which answers do not change. `C140_triangle_partial`: triangles in the plane, same direction only |
| C94 (default format) | `C94_raw_exact`: exactly when `cells_at_nodes` without a format answers; `C94_raw`: the answer, by the incidences of C06 |
| C141 | `outer`: faces of one cell only. `FacesFit`: every other face belongs to two cells, with opposite directions. `ClosedSurface`: directed sides match. `EvenSides`: any two nodes belong to an even number of triangles. `flux12`: twelve times the volume of the cone from the origin over a face. `C141_TET4`: tetrahedra with positive volumes and no common inner point. `C141_closed_*`, `C141_volume_*`: cells whose faces fit. `C141_grid`: grids. `C141_surface`: surface extraction. Without the conditions the claim fails: `C141_three_false` (three tetrahedra at one face), `C141_mirrored_false` (one tetrahedron listed with the other orientation) |
| C142 | `EdgesFit`, `ClosedLines`, `sweep` (twice the area between the origin and an edge): the plane versions. `C142_T3`: triangles with positive areas and no common inner point. `C142_closed_*`, `C142_area_*`: cells whose edges fit. Without the conditions the claim fails: `C142_mirrored_false` |
| C66 (`is_planar`, exactly) | `ChosenThree`: the three points the code looks at, by distances alone. `C66_planar_exact`: yes exactly if these are not on a line and all points are in a plane through the origin |
| C69 (maps of larger cells) | `HitTri`: the point is in a triangle up to the tolerance. `CornersOnly`: the row of the map names corners of the master triangle. `C69_trimap_total`, `C69_trimap_fails`: when the search answers and when it fails, whatever the order of the loop |
| C141, C142 (grids) | `C142_grid`, `C142_grid_bins`: the edges of the cells of `gridQ4` fit, and the outer ones are closed lines; `C141_grid_bins`: the outer faces of `gridH8` with bins are closed |
| C81, C79, C127, C133 (further cases) | `C81_copy_block_partial`: copies of a block are those of the blocks beneath it. `C79_shown_each`: results block by block. `C127_path_overrun`: paths that name missing nodes. `C133_refused`, `C133_wrapped`: `__array_function__` itself; `C133_new`: what new clouds contain |
| C40, C93, C101 (further cases) | `C40_graft_blocks`: which block has which ids after a mesh built before is assigned. `C93_poly_partial` also states which arguments are refused. `C101_refused`: empty arrays of values |

## 3. Disagreements between documentation or name and code

Each has a theorem (negation with a witness, or a statement for all inputs).

| property | disagreement | theorem |
|---|---|---|
| C08 | `unique_topo_data`: the docstring's loop does not give the input back, rows come back sorted | `C08_exact_reconstruction_false` |
| C09 | data per cell with as many columns as nodes are taken for nodal data | `C09_cell_data_false` |
| C11, C12 | `faces_W6` writes to `faces2[:, 1, 3]`, outside of the array; `W6_to_W18` uses it | `C11_faces_W6_false`, `C12_W6_to_W18_false` |
| C13, C14 | `W6_to_TET4`: tetrahedra overlap, volume not preserved | `C13_W6_to_TET4_false`, `C14_W6_to_TET4_false` |
| C14 | `Q9_to_T6` expects another node order than `Q9_to_Q4`; `to_triobj` expects another order of mid-side nodes | `C14_Q9_to_T6_false`, `C14_triobj_false` |
| C15 | `extrude_T3_TET4`: neighbouring prisms split their common face along different diagonals; `TriMesh.extrude` loses the position of the plane | `C15_diagonals_false`, `C15_trimesh_base_false` |
| C16 | `grid` raises for the documented default of `eshape` and in one dimension | `C16_default_eshape_false`, `C16_one_dimension_false` |
| C19 | `path` is ignored when the element shape is given by name | `C19_path_ignored` |
| C22 | `mesh1d_uniform` writes behind its array for three-noded cells | `C22_three_nodes_false` |
| C24 | a cell that repeats a node gets factors that do not sum to one | `C24_repeated_node_false` |
| C25 | distributing and collecting with the same factors is not the identity; factors are looked up by id but stored by position | `C25_same_factors_false`, `C25_ids_false` |
| C26 | `avg_cell_data` of 1d data returns an unbound name; `centralize` needs two columns | `C26_avg_1d_false`, `C26_one_column_false` |
| C28 | `glob_to_loc_tri` lacks a transposition; `glob_to_nat_tri` is wrong for clockwise triangles | `C28_glob_to_loc_false`, `C28_clockwise_false` |
| C29 | boundary excluded for tolerance 0; clockwise triangles never hit; `localize_points` takes the wrong triangle | `C29_boundary_false`, `C29_clockwise_false`, `C29_localize_false` |
| C30 | faces excluded for tolerance 0 | `C30_boundary_false` |
| C31 | `tri_glob_to_loc` is not orthonormal; `frame_of_plane` fails for parallelograms; local z of lines along x | `C31_tri_glob_to_loc_false`, `C31_parallelogram_false`, `C31_auto_z_false` |
| C33 | degenerate polygons count as counter-clockwise either way | `C33_degenerate_false` |
| C36 | generation fails for TET4 (ten monomials) | `C36_TET4_false` |
| C37, C38 | `Gauss_Legendre_Tet_11` has a wrong constant; `Wedge_3x2` has both layers at one height, so volumes of tapered W6 cells are wrong; T6 areas in space use two coordinates only | `C37_Tet_11_false`, `C37_Wedge_3x2_false`, `C38_W6_false`, `C38_T6_space_false` |
| C39, C40 | the id manager lowers `next` when fewer ids than queued are requested; nested blocks keep their own ids when added | `C39_false`, `C40_queue_false`, `C40_graft_false` |
| C41 | frames applied twice; a block of one point is refused | `C41_frame_false`, `C41_single_false` |
| C42 | `nummrg` renumbers nested cell blocks twice | `C42_false` |
| C43 | moving a block without own points, or with nested points, damages the coordinates; `centralize` ignores `axes` | `C43_block_false`, `C43_nested_false`, `C43_axes_false` |
| C44 | recorded indices of slices with negative, overlong or missing bounds and negative steps, masks | `C44_*_false` |
| C47, C48 | the lazy search misses points; last instead of first hit, dependent on the schedule; no mark for "no hit" | `C47_lazy_false`, `C48_*_false` |
| C50 | an integer `lmax` is ignored | `C50_int_false` |
| C51 | padding with point 0, the point itself is listed, truncation | `C51_*_false` |
| C53, C54 | ids used as row numbers; three evaluation points; `loc_to_glob` with a transposed table | `C53_*_false`, `C54_*false` |
| C55 | `flip` does not turn solids and spoils T6 | `C55_solid_false`, `C55_T6_false` |
| C56 | a corner of four tiles is repeated; order of side nodes | `C56_corner_false`, `C56_order_false` |
| C57 | labels of nodes in the file are ignored | `C57_labels_false` |
| C58 | documented parameter range | `C58_range_false` |
| C59 | interfaces of blocks belong to the "surface"; coincident points | `C59_blocks_false`, `C59_duplicates_false` |
| C60 | hexahedra and wedges of a grid are not split conformingly | `C60_*_false` |
| C62 | ribs that do not touch the plate are lost; a rib wider than the plate widens the plate | `C62_floating_false`, `C62_wide_false` |
| C61 | default frame of motions; setter of the origin | `C61_*_false` |
| C64 | `offset_tri` with a single number always raises | `C64_float_false` |
| C65 | data are taken from the triangle with the number of the point, outside of the array if there are fewer triangles, with a race | `C65_row_false`, `C65_bounds_false`, `C65_race_false` |
| C66 | `is_planar_surface` accepts parallel pieces; `is_line` denies every line whose ends differ; `is_planar` denies planes away from the origin and fails if the chosen points are on a line | `C66_*_false` |
| C67 | three-noded lines whose middle node is not half way get a constant Jacobian; coordinates relative to a target frame: every cell is projected on one axis of the frame, from the fourth cell on it is an index error | `C67_line_false`, `C67_target_false` |
| C72 | H8 with other than three components raises; the local matrix of triangles always steps by three | `C72_H8_false`, `C72_tri_loc_false` |
| C68 | `max_distance` is not passed on to the tree; the point itself counts as a neighbour; errors for one neighbour, for more neighbours than points and for the backend sklearn | `C68_max_distance_false`, `C68_k_false`, `C68_errors` |
| C69 | a single triangle raises by default (the tree answers with a vector); maps other than the default index local coordinates beyond the master triangle; clockwise triangles contain no points; the default search misses points | `C69_single_false`, `C69_trimap_false`, `C69_clockwise_false`, `C69_lazy_false` |
| C73 | clockwise plane cells contain no points; sides are outside for tolerance 0; the default search misses points | `C73_clockwise_false`, `C73_boundary_false`, `C73_lazy_false` |
| C47 | a block of a single tetrahedron cannot be searched by default | `C47_single_false` |
| C70 | a float radius raises; the edges are not `(r1 - r0) / size` for an integer size, but at most this | `C70_float_false`, `C70_edge_false` |
| C71 | with the frames a mesh has by default (its own frame for every cell) the area is that of the projection: 0 for an upright triangle; clockwise cells have negative areas; a block without cells raises | `C71_default_false`, `C71_clockwise_false`, `C71_empty_false` |
| C74 | a slope given together with `a` makes `b = slope / a`, the slope is then `a * a / slope` | `C74_slope_false` |
| C75 | `shape` counts points, not subdivisions; the default makes one point; an integer without `random` raises; the third number of `origo` is ignored for the lattice | `C75_subdivision_false`, `C75_default_false`, `C75_int_false`, `C75_height_false` |
| C76 | `size` of a cylinder is radial, angular, vertical, not angular, radial, vertical; `rmin = 0` makes coincident points; triangles with a corner outside of the hole are dropped if there are few angles | `C76_order_false`, `C76_centre_false`, `C76_dropped_false` |
| C77 | no cells if `lmax` is so large that no point of the lattice is kept, or larger than `lz`; `lmax` is exceeded by up to a quarter | `C77_empty_false`, `C77_layers_false`, `C77_lmax_false` |
| C78 | a path is checked for its shape only: any 3 (6, 12) pairs are taken as the edges | `C78_path_false` |
| C79 | `index_of_closest_cell` returns a position in the list of centres of the block, not the id of a cell; `centers_of_cells` of a mesh with points in a nested block uses wrong points; `areas` leaves out solids but keeps no trace of which; cells in nested blocks are shown twice | `C79_closest_false`, `C79_centers_false`, `C79_areas_false`, `C79_shown_false` |
| C80 | `detach` renumbers the points of the original, shares them with it, hands the points of the source to blocks with points of their own, keeps ids of the cells of the block but renumbers those beneath from 0, and gives the cells of the block a mesh instead of points | `C80_original_false`, `C80_shared_false`, `C80_geometry_false`, `C80_ids_false`, `C80_coords_false` |
| C81 | the cells of the root of a shallow copy refer to points that are not those of the copy; cells of nested blocks with points of their own are rewired by the ids of the points (wrong nodes or an exception); ids of cells are not unique in the copy; a block that gets its points from above cannot be copied if there are cells beneath it; the origin of the frame is lost | `C81_shallow_false`, `C81_rewired_false`, `C81_ids_false`, `C81_above_false`, `C81_frame_false` |
| C82 | ids of cells are used as row numbers (wrong cell or an exception for blocks added later); points of curved three-noded lines are taken on the chord, so that choosing all cells loses their middle nodes | `C82_ids_false`, `C82_L3_false` |
| C83 | the origins of frames are ignored when points of several blocks are collected (`Vector` instead of `PointCloud`); coordinates given together with a frame are stored as places but shown in the frame again, so they are transformed twice; planar coordinates are not embedded without a frame | `C83_origins_false`, `C83_mesh_false` (with `C83_mesh_twice`), `C83_planar_false` |
| C84 | local coordinates are found by interpolating with global monomials: singular for a square standing on a corner, wrong for trapezoids; ten monomials of TET4 do not fit into arrays of four columns; the table of neighbours is not used in `_pip_H8_bulk_knn_` (the first cells are looked at) | `C84_turned_false`, `C84_trapezoid_false`, `C84_TET4_false`, `C84_knn_false` |
| C85 | `regularize` overwrites the data of the csr matrix passed: counting twice gives the counts of other nodes; `nodal_adjacency` of csr matrices always fails (`dol` is not assigned) | `C85_twice_false`, `C85_csr_adjacency_false` |
| C86 | the origin is the mean of all vertices before the middles are dropped, not the mean of the points and not the centroid of the section; integer lengths and areas and float numbers are ignored by `generate_mesh`; rectangles (`RS`) need a thickness they do not have | `C86_centre_false`, `C86_centroid_false`, `C86_integer_false`, `C86_rectangle_false` |
| C87 | a degenerate triangle aborts the file (division by zero), the label 0 is taken for the last vertex, a file without tetrahedra or with an empty element record next to others has no box and nothing is written, sets are assigned by position among the records that name one | `C87_degenerate_false`, `C87_label_false`, `C87_empty_false`, `C87_sets_false` |
| C88 | numbers, vectors and points given in a frame with another origin lose the origin, while the cloud keeps its own; the point that is returned is displaced by the origin of the frame of the cloud; several points record their places in the cloud instead of their indices | `C88_origin_false`, `C88_place_false`, `C88_inds_false` |
| C89 | `to_simplices` of lines calls itself without end; `TET10` and `H27` have no tetrahedra; the tetrahedra of wedges overlap, so the inherited volume of a truncated prism is wrong; blocks without cells divide by zero | `C89_lines_false`, `C89_quadratic_false`, `C89_wedge_false`, `C89_empty_false` |
| C90 | arrays of other lengths reach `ak.zip`; the dictionary of the caller is changed; the default key of factors does not exist, the factors of a whole mesh need a field `id` while ids are stored as `_id`; tuples of names have no `extend`, an empty list of names is an error for `to_list` | `C90_length_false`, `C90_caller_false`, `C90_factors_false`, `C90_iter_false` |
| C91 | the fields of the block itself are left out of `point_fields` and `cell_fields`, blocks with different numbers of fields have none; `to_lists` needs points and cells | `C91_fields_false`, `C91_nothing_false` |
| C92 | groups of cells of one type replace each other in `from_meshio`, cells of other types are left out; lines with three nodes have no type | `C92_meshio_false`, `C92_line3_false` |
| C93 | the class is not checked against the number of nodes; tetrahedra and triangles with six nodes without a class are taken for quadrilaterals and wedges, so are plane grids of 2 x 3 nodes; `TriMesh` rejects `coords` and `topo` and ignores other classes with three nodes; `TetMesh` knows four nodes only; `LineData` replaces areas; meshes of class `TriMesh`, `TetMesh` and `Grid` cannot be copied (nor moved with `inplace=False`) | `C93_nodes_false`, `C93_guess_false`, `C93_grid_false`, `C93_names_false`, `C93_subclass_false`, `C93_tet_false`, `C93_areas_false`, `C93_copies_false` |
| C94 | `cells_at_nodes` without a format is an error if node numbers have gaps; `k_nearest_cell_neighbours(k=1)` and `max_distance` as in C68; `cells_around_cells` keeps at most ten cells and pads with zeros, as in C51 | `C94_gaps_false`, C68, C51 |
| C95 | points in integers make the compiled functions truncate: at the centres of lines, quadrilaterals and hexahedra all weights are zero, derivatives vanish; a single point of a surface raises, or, for derivatives of triangles, counts as two; `L2` takes numbers only, `L3` arrays only; matrices of `H8` for three unknowns only | `C95_int_false`, `C95_derivs_false`, `C95_single_false`, `C95_matrix_false` |
| C97 | the factors of a regular mesh are a dense array; handed to `CellData.pull` of the second block, the rows of the first block are used (the ids are ignored); ids that are not places select wrong rows of a csr matrix | `C97_dense_false`, `C97_ids_false` |
| C98 | frames are read as ambient axes and stored as components in the frame of the source: with another frame of the source a turn by nothing changes them; frames of lines without a reference do not turn with the line | `C98_frame_false`, `C98_lines_auto_false` |
| C14 | hexahedra with plane faces that are not convex have inverted tetrahedra | `C14_H8_nonconvex_false` |
| C99 | with a repeated bin some inner edges lie on the side of the rectangle | `C99_repeated_bin_false` |
| C100 | volumes by tetrahedra do not add up to the volume of the box for bins out of order: cells lie on each other | `C100_bins_order_false` |
| C101 | blocks with points of their own are drawn between points of the mesh; a solid with solids beneath it shows the surface of all of them, which are drawn again; with other cells beneath it nothing is drawn | `C101_points_false`, `C101_solids_false`, `C101_mixed_false` |
| C102 | bins that are not sorted give overlapping simplices | `C102_bins_order_false` |
| C103 | with tolerance 0 points on faces of the tetrahedra are not found | `C103_zero_false` |
| C104 | a plot with data removes colours from the configurations themselves: later plots and blocks that share a configuration lose them; a block counts as one with data if any points above it have the field, even if they are not its points; values of cells go to the points if there are as many points as cells; with `multiblock` values are dropped | `C104_again_false`, `C104_sibling_false`, `C104_flag_false`, `C104_ring_false`, `C104_multiblock_false` |
| C105 | with a frame other than the ambient one the points of TetGen, which are places in ambient space, are taken as coordinates in the frame, and are transformed twice; orders below one are taken as one although the message allows 1 and 2 only | `C105_frame_false`, `C105_order_false` |
| C108 | with tolerance 0 points on the diagonals and sides of the cells of a grid are outside of all cells; with bins in decreasing order the triangles are clockwise and no point is found | `C108_zero_false`, `C108_order_false` |
| C109 | `to_standard_form` renumbers the cells but keeps the stored mappers of a locked mesh: `blocks_of_cells` names wrong blocks | `C109_stale_false` |
| C109 | `to_standard_form` numbers the cells with a manager of its own and the mesh goes on with the old one: blocks added later get numbers that are in use | `C109_unique_false` |
| C110 | `triangulate(triobj=...)` ignores the backend and returns the given object instead of transforming it | `C110_backend_false` |
| C110 | the triangles of a `PolyData` are triangulated anew instead of read | `C110_pv_false` |
| C110 | masked triangles of a matplotlib object are read as well | `C110_mask_false` |
| C110 | `QuadraticTriangle.from_TriMesh(mesh)` calls a method of the class without an object and always raises | `C110_from_mesh_false` |
| C77 | `perforated_cube(order=2)` with prisms, the default, runs into the write outside of an array in `faces_W6` | `C77_prisms_false` |
| C111 | points outside a cell are reported inside (and, without tolerance, none is inside) if the points come in integers | `C111_plane_false`, `C111_solid_false` |
| C111 | local coordinates of located points are cut off to whole numbers if the points come in integers | `C111_locate_false` |
| C111 | the heights of the layers of an extrusion are cut off to whole numbers if the points come in integers | `C111_extrude_false` |
| C61 | a `Vector` is not transformed to the frame of the cloud; axes given as a tuple are refused | `C61_vector_false`, `C61_axes_false` |
| C113 | a frame made with an array as origin shares the array of the caller, and changes it when it is moved | `C113_argument_false` |
| C114 | results are stored in arrays of the type of the arguments: centres, bins, factors, data and points of lines lose their decimals for integers; with integer weights every factor at a node shared by two cells is zero; exploded data have the type of the coordinates | `C114_center_false`, `C114_centralize_false`, `C114_bins_false`, `C114_factors_false`, `C114_homogenize_false`, `C114_explode_false`, `C114_lines_false` |
| C03 | `inds_to_invmap_as_array` holds 0 both for the first index and for numbers that are no index | `C03_invmap_array_false` |
| C11 | `faces_W6` works for no mesh of wedges | `C11_faces_W6_none` |
| C15 | `TriMesh.extrude` checks planarity only: a surface that is not perpendicular to `newaxis` is flattened before it is extruded, an upright one gives tetrahedra without volume | `C15_trimesh_upright_false` |
| C83 | `PointData.frame` prefers the frame of the points, `PolyData.frame` that of the block: they can disagree | `C83_pointdata_false` |
| C03 | `arrays_to_imap_as_dict` with a number twice among the sources: the last entry counts | `C03_imap_arrays_false` |
| C115 | `centers(T)` of a mesh takes ambient coordinates as coordinates in the frame of the source: wrong if the mesh has a frame | `C115_centers_false` |
| C115 | `centers()` of a block that knows its points gives coordinates in the frame of the mesh, `centers()` of the mesh ambient ones | `C115_block_false` |
| C115 | `centralize(T)` subtracts coordinates in T from coordinates in the frame of the block: wrong if the axes differ | `C115_centralize_false`, `C115_centralize_frames_false` |
| C117 | `section_properties` is None until the properties were asked for | `C117_all_false` |
| C117 | on a new section `A` is None and `Ix` raises | `C117_new_false` |
| C118 | cells that know their points, in a mesh with a frame: the search uses local coordinates for points of the ambient frame, and finds other nodes | `C118_block_false` |
| C118 | `surface()` gives ambient coordinates together with the frame to the constructor | `C118_surface_false` |
| C119 | `lcenter` of TET4 and TET10 is (1/3, 1/3, 1/3), on a face | `C119_centre_false`, `C119_tet_false` |
| C120 | with arrays of integers `move_points` and `center_tri_3d` cut off | `C120_int_false` |
| C120 | `meshio_to_vtk` knows triangles only | `C120_meshio_false` |
| C121 | `None` gives an empty list as its mesh | `C121_read_false` |
| C121 | data given to two meshes have the second as their container | `C121_container_false` |
| C122 | rectangular hollow sections cannot be built: `n_out` is passed on in the place of `r_out` | `C122_rhs_false` |
| C122 | the parameters in the documentation of `get_section` are refused (`n_min`) | `C122_params_false` |
| C122 | `LineSection(shape=...)` without positional arguments wraps nothing | `C122_shape_false` |
| C123 | without points to search for, and with sklearn, the search raises | `C123_default_false` |
| C123 | `max_distance` has no effect | `C123_distance_false` |
| C123 | the dictionary `query_kwargs` of the caller is changed (and not used) | `C123_caller_false` |
| C124 | a path given with a named element shape is dropped | `C124_path_named_false` |
| C125 | a class cannot give a name of its base another meaning | `C125_override_false` |
| C125 | a field of the points with one number per point is said not to exist | `C125_average_false` |
| C125 | with an empty list of names the array cannot be made, the record has all columns | `C125_forms_false` |
| C125 | the list of names of the caller is extended | `C125_caller_false` |
| C125 | positional arguments of `PolyData.to_ak` always fail; so does the example in its documentation | `C125_args_false`, `C125_example_false` |
| C126 | `*ELEMENT,TYPE=C3D4` (no blank) and other orders of parameters: the tetrahedra are passed over silently | `C126_spelling_false` |
| C126 | empty lines and trailing commas in node and element records, `*NODE PRINT`, text before the first keyword: errors | `C126_lines_false` |
| C126 | `PT_` inside names is removed, parameters after the name become part of it | `C126_set_false` |
| C127 | `subdivide=False` is ignored by seven conversions | `C127_subdivide_false` |
| C127 | a path with one axis is accepted by `transform_topology` and refused by the conversions | `C127_row_false` |
| C127 | data of points, as documented, are refused, or taken for data of cells if there are as many points as cells | `C127_points_false` |
| C127 | a positional argument after `data=None` becomes the data and is an exception | `C127_positional_false` |
| C127 | `Q9_to_T6` reads outside of a path with one row | `C127_short_false` |
| C119 | `lcenter` is a table with one row for triangles, tetrahedra and wedges, a vector for the other cells | `C119_shape_false` |
| C128 | tetrahedra extruded from triangles that fit together share faces with different diagonals, unless common edges are listed in the same order | `C128_tets_false` |
| C129 | the five tetrahedra of a hexahedron of `gridH8` do not fit those of the next one | `C129_tets_false` |
| C129 | tetrahedra extruded from a grid with two rows of cells do not fit together | `C129_extruded_tets_false` |
| C129 | quadrilaterals of a grid with bins that are not sorted overlap | `C129_bins_order_false` |
| C130 | with gaps in the numbers the counts are those of the k-th used node, not of node k, and never the dictionary of the documentation | `C130_counts_false` |
| C130 | without networkx `nodal_adjacency` refuses all formats but "jagged", also the plain dictionary | `C130_networkx_false` |
| C130 | `nodal_adjacency` has no answer for csr matrices | `C130_csr_false` |
| C130 | with `assume_regular` nodes of no cell are listed and not adjacent to themselves | `C130_self_false` |
| C131 | a plot without a theme changes the global theme of PyVista; with the default arguments it switches the lighting off for all later plots | `C131_global_false` |
| C131 | `return_img` gives no image in notebooks or together with `return_plotter` | `C131_image_false` |
| C131 | with a given plotter the size of the window and all further keywords are dropped silently | `C131_window_false` |
| C131 | `plot(backend="k3d")` outside of notebooks, and any unknown backend, does nothing and raises nothing | `C131_backend_false` |
| C131 | `LineData.plot(scalar_labels=...)`: plotly never gets the labels | `C131_labels_false` |
| C131 | `LineData.plot(backend="vtk")` without a plotter always raises: `scalar_labels` is handed to `pv.Plotter` | `C131_vtk_false` |
| C131 | for the default key every block has its own configuration from the beginning, so that settings of the mesh above are never used | `C131_inherit_false` |
| C132 | the ten monomials of TET4 do not fit into four columns: every array of points and of cells is refused | `C132_TET4_false` |
| C132 | arrays of cells have room for as many points as there are monomials: any other number but one is refused, and for one point its row is repeated | `C132_count_false` |
| C133 | in compiled functions `x`, `y`, `z` are coordinates in the frame of the cloud, `x()`, `y()`, `z()` of the object are ambient; returned clouds have lost frame and indices (`box_type` calls the class with the indices as a second positional argument) | `C133_attributes_false`, `C133_return_inds_false`, `C133_return_frame_false` |
| C133 | positional arguments of `np.unique` after the first are ignored; functions of NumPy that are not registered raise if an argument is not a topology (`np.concatenate([t1, t2])`) | `C133_unique_false`, `C133_other_false` |
| C135 | with the table of `Q9_to_T6` itself the corners of the triangles differ from those of `Q4_to_T3` on every mesh | `C135_Q9_to_T6_false` |
| C136 | a plane cell that is mirrored loses the points in it: `_glob_to_nat_tri_` divides by the absolute area | `C136_mirror_false` |
| C140 | volumes of hexahedra by tetrahedra (`PolyCell3d.volumes`, inherited method) change when a hexahedron with a lifted corner is turned: 7/6 becomes 4/3 | `C140_cut_false` |
| C140 | triangles in the plane listed in the other direction have negative areas, and points inside are not found | `C140_reversed_false` |

## 4. Tests of the theorems

Definitions of the model were changed in a scratch copy, the way a programmer might get the code wrong, and the project was
rebuilt; theorems whose proofs failed were replaced one by one so that the full list of failing claims is known. The record is
`seeded/LOG.jsonl`: the definition, the edit, the claim it breaks, the theorems that failed, the theorems tightened afterwards.
