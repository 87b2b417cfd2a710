import Verif.Geom
import Verif.Transform

/-!
# Cell tables

Local coordinates of the master cells (`src/polymesh/cells/*.py`, `lcoords`), the tables of edges and faces
(`utils/topodata.py`) and the default paths of the conversions (`utils/topology/tr.py`).
Local coordinates are stored doubled, so that they are integers; two-dimensional cells have third
coordinate zero.
-/

namespace PM
open V3

/-! ## master cells: doubled `lcoords` -/

/-- cells/t3.py `lcoords` -/
def lcT3 : List (V3 Int) := [⟨0, 0, 0⟩, ⟨2, 0, 0⟩, ⟨0, 2, 0⟩]
/-- cells/t6.py `lcoords` -/
def lcT6 : List (V3 Int) := lcT3 ++ [⟨1, 0, 0⟩, ⟨1, 1, 0⟩, ⟨0, 1, 0⟩]
/-- cells/q4.py `lcoords` -/
def lcQ4 : List (V3 Int) := [⟨-2, -2, 0⟩, ⟨2, -2, 0⟩, ⟨2, 2, 0⟩, ⟨-2, 2, 0⟩]
/-- The 8-noded quadrilateral of `Q4_to_Q8`, tr.py 555-562: corners, then midpoints of edges 01, 12, 23, 30. -/
def lcQ8 : List (V3 Int) := lcQ4 ++ [⟨0, -2, 0⟩, ⟨2, 0, 0⟩, ⟨0, 2, 0⟩, ⟨-2, 0, 0⟩]
/-- cells/q9.py `lcoords` -/
def lcQ9 : List (V3 Int) := lcQ8 ++ [⟨0, 0, 0⟩]
/-- Order of the nodes of a cell of `grid(eshape=(2, 2))`, grid.py 269-379: the last index runs fastest. -/
def lcGrid4 : List (V3 Int) := [⟨-2, -2, 0⟩, ⟨-2, 2, 0⟩, ⟨2, -2, 0⟩, ⟨2, 2, 0⟩]
/-- Order of the nodes of a cell of `grid(eshape=(3, 3))`. -/
def lcGrid9 : List (V3 Int) := [⟨-2, -2, 0⟩, ⟨-2, 0, 0⟩, ⟨-2, 2, 0⟩, ⟨0, -2, 0⟩, ⟨0, 0, 0⟩, ⟨0, 2, 0⟩,
  ⟨2, -2, 0⟩, ⟨2, 0, 0⟩, ⟨2, 2, 0⟩]
/-- cells/tet4.py `lcoords` -/
def lcTET4 : List (V3 Int) := [⟨0, 0, 0⟩, ⟨2, 0, 0⟩, ⟨0, 2, 0⟩, ⟨0, 0, 2⟩]
/-- cells/tet10.py 46-61 -/
def lcTET10 : List (V3 Int) := lcTET4 ++ [⟨1, 0, 0⟩, ⟨1, 1, 0⟩, ⟨0, 1, 0⟩, ⟨0, 0, 1⟩, ⟨1, 0, 1⟩, ⟨0, 1, 1⟩]
/-- cells/h8.py `lcoords` -/
def lcH8 : List (V3 Int) := [⟨-2, -2, -2⟩, ⟨2, -2, -2⟩, ⟨2, 2, -2⟩, ⟨-2, 2, -2⟩,
  ⟨-2, -2, 2⟩, ⟨2, -2, 2⟩, ⟨2, 2, 2⟩, ⟨-2, 2, 2⟩]
/-- cells/h27.py `lcoords` -/
def lcH27 : List (V3 Int) := lcH8 ++ [⟨0, -2, -2⟩, ⟨2, 0, -2⟩, ⟨0, 2, -2⟩, ⟨-2, 0, -2⟩,
  ⟨0, -2, 2⟩, ⟨2, 0, 2⟩, ⟨0, 2, 2⟩, ⟨-2, 0, 2⟩,
  ⟨-2, -2, 0⟩, ⟨2, -2, 0⟩, ⟨2, 2, 0⟩, ⟨-2, 2, 0⟩,
  ⟨-2, 0, 0⟩, ⟨2, 0, 0⟩, ⟨0, -2, 0⟩, ⟨0, 2, 0⟩, ⟨0, 0, -2⟩, ⟨0, 0, 2⟩, ⟨0, 0, 0⟩]
/-- cells/w6.py 45-55 -/
def lcW6 : List (V3 Int) := [⟨0, 0, -2⟩, ⟨2, 0, -2⟩, ⟨0, 2, -2⟩, ⟨0, 0, 2⟩, ⟨2, 0, 2⟩, ⟨0, 2, 2⟩]
/-- cells/w18.py 64-86 -/
def lcW18 : List (V3 Int) := lcW6 ++ [⟨1, 0, -2⟩, ⟨1, 1, -2⟩, ⟨0, 1, -2⟩, ⟨1, 0, 2⟩, ⟨1, 1, 2⟩, ⟨0, 1, 2⟩,
  ⟨0, 0, 0⟩, ⟨2, 0, 0⟩, ⟨0, 2, 0⟩, ⟨1, 0, 0⟩, ⟨1, 1, 0⟩, ⟨0, 1, 0⟩]

/-! ## paths of the conversions -/

/-- `T6_to_T3`, tr.py 221-223; the same table is `QuadraticTriangle.trimap`, polygon.py 66. -/
def pathT6T3 : List (List Nat) := [[0, 3, 5], [3, 1, 4], [5, 4, 2], [5, 3, 4]]
/-- `H27_to_H8`, tr.py 246-258. -/
def pathH27H8 : List (List Nat) := [[0, 8, 24, 11, 16, 22, 26, 20], [8, 1, 9, 24, 22, 17, 21, 26],
  [24, 9, 2, 10, 26, 21, 18, 23], [11, 24, 10, 3, 20, 26, 23, 19], [16, 22, 26, 20, 4, 12, 25, 15],
  [22, 17, 21, 26, 12, 5, 13, 25], [26, 21, 18, 23, 25, 13, 6, 14], [20, 26, 23, 19, 15, 25, 14, 7]]
/-- `Q9_to_Q4`, tr.py 279-282. -/
def pathQ9Q4 : List (List Nat) := [[0, 4, 8, 7], [4, 1, 5, 8], [8, 5, 2, 6], [7, 8, 6, 3]]
/-- `Q9_to_Q4(path="grid")`, tr.py 284-288. -/
def pathQ9Q4Grid : List (List Nat) := [[0, 3, 4, 1], [3, 6, 7, 4], [4, 7, 8, 5], [1, 4, 5, 2]]
/-- `Q9_to_T6`, tr.py 297. -/
def pathQ9T6 : List (List Nat) := [[0, 8, 2, 4, 5, 1], [0, 6, 8, 3, 7, 4]]
/-- `H8_to_TET4`, tr.py 325-328; the same table is `HexaHedron.tetmap`, polyhedron.py. -/
def pathH8TET4 : List (List Nat) := [[1, 2, 0, 5], [3, 0, 2, 7], [5, 4, 7, 0], [6, 5, 7, 2], [0, 2, 7, 5]]
/-- `H27_to_TET10`, tr.py 349-358. -/
def pathH27TET10 : List (List Nat) := [[1, 2, 0, 5, 9, 24, 8, 17, 21, 22],
  [3, 0, 2, 7, 11, 24, 10, 19, 20, 23], [5, 4, 7, 0, 12, 15, 25, 22, 16, 20],
  [6, 5, 7, 2, 13, 25, 14, 18, 21, 23], [0, 2, 7, 5, 24, 23, 20, 22, 21, 25]]
/-- `H8_to_Q4`, tr.py 379-389. -/
def pathH8Q4 : List (List Nat) := [[0, 4, 7, 3], [1, 2, 6, 5], [0, 1, 5, 4], [2, 3, 7, 6], [0, 3, 2, 1],
  [4, 5, 6, 7]]
/-- `Q4_to_T3`, tr.py 488; the same table is `Quadrilateral.trimap`, polygon.py 94. -/
def pathQ4T3 : List (List Nat) := [[0, 1, 2], [0, 2, 3]]
/-- `Q4_to_T3(path="grid")`, tr.py 490-491. -/
def pathQ4T3Grid : List (List Nat) := [[0, 2, 3], [0, 3, 1]]
/-- `Q8_to_T3`, tr.py 510-520. -/
def pathQ8T3 : List (List Nat) := [[0, 4, 7], [4, 1, 5], [5, 2, 6], [6, 3, 7], [4, 6, 7], [4, 5, 6]]
/-- `W6_to_TET4`, tr.py 627-630; the same table is `Wedge.tetmap`, polyhedron.py. -/
def pathW6TET4 : List (List Nat) := [[0, 1, 2, 4], [3, 5, 4, 2], [2, 5, 0, 4]]
/-- `W18_to_W6`, tr.py 653-665. -/
def pathW18W6 : List (List Nat) := [[15, 13, 16, 9, 4, 10], [17, 16, 14, 11, 10, 5], [17, 15, 16, 11, 9, 10],
  [12, 15, 17, 3, 9, 11], [6, 1, 7, 15, 13, 16], [8, 6, 7, 17, 15, 16], [8, 7, 2, 17, 16, 14],
  [8, 0, 6, 17, 12, 15]]
/-- `BiQuadraticQuadrilateral.trimap`, polygon.py 109-121. -/
def trimapQ9 : List (List Nat) := [[0, 4, 8], [0, 8, 7], [4, 1, 5], [4, 5, 8], [8, 5, 2], [8, 2, 6],
  [7, 8, 6], [7, 6, 3]]
/-- `TriMesh.to_triobj`, trimesh.py 172-191: path used for 6-noded triangles. -/
def pathTriobj : List (List Nat) := [[0, 5, 4], [5, 1, 3], [3, 2, 4], [5, 3, 4]]

/-! ## edges and faces -/

/-- The effect of a sequence of column assignments `res[:, a, b] = topo[:, q]`, given as `(a, b, q)`, on
`res = np.zeros((nE, A, B))` for one cell: the table whose entry `(a, b)` is the local node `q` assigned last
(`some`) or nothing (`none`, the zero of the initialisation). The outer `none` means that an assignment is
outside of the array: an `IndexError` in Python, a write to foreign memory in compiled code. -/
def colTable (A B : Nat) (ws : List (Nat × Nat × Nat)) : Option (List (List (Option Nat))) :=
  if ws.all fun w => w.1 < A && w.2.1 < B then
    some (toRows A B (runW (ws.map fun w => ((w.1, w.2.1), some w.2.2)) fun _ => none))
  else none

/-- `edges_Q4`, topodata.py 8-20. -/
def edgesQ4W : List (Nat × Nat × Nat) := [(0, 0, 0), (0, 1, 1), (1, 0, 1), (1, 1, 2), (2, 0, 2), (2, 1, 3),
  (3, 0, 3), (3, 1, 0)]
/-- `edges_TET4`, topodata.py 31-47. -/
def edgesTET4W : List (Nat × Nat × Nat) := [(0, 0, 0), (0, 1, 1), (1, 0, 1), (1, 1, 2), (2, 0, 2), (2, 1, 0),
  (3, 0, 0), (3, 1, 3), (4, 0, 1), (4, 1, 3), (5, 0, 2), (5, 1, 3)]
/-- `faces_TET4`, topodata.py 50-66. -/
def facesTET4W : List (Nat × Nat × Nat) := [(0, 0, 0), (0, 1, 1), (0, 2, 3), (1, 0, 1), (1, 1, 2), (1, 2, 3),
  (2, 0, 2), (2, 1, 0), (2, 2, 3), (3, 0, 0), (3, 1, 2), (3, 2, 1)]
/-- `edges_H8`, topodata.py 89-117. -/
def edgesH8W : List (Nat × Nat × Nat) := [(0, 0, 0), (0, 1, 1), (1, 0, 1), (1, 1, 2), (2, 0, 2), (2, 1, 3),
  (3, 0, 3), (3, 1, 0), (4, 0, 4), (4, 1, 5), (5, 0, 5), (5, 1, 6), (6, 0, 6), (6, 1, 7), (7, 0, 7), (7, 1, 4),
  (8, 0, 0), (8, 1, 4), (9, 0, 1), (9, 1, 5), (10, 0, 2), (10, 1, 6), (11, 0, 3), (11, 1, 7)]
/-- `faces_H8`, topodata.py 120-148. -/
def facesH8W : List (Nat × Nat × Nat) := [(0, 0, 0), (0, 1, 4), (0, 2, 7), (0, 3, 3),
  (1, 0, 1), (1, 1, 2), (1, 2, 6), (1, 3, 5), (2, 0, 0), (2, 1, 1), (2, 2, 5), (2, 3, 4),
  (3, 0, 2), (3, 1, 3), (3, 2, 7), (3, 3, 6), (4, 0, 0), (4, 1, 3), (4, 2, 2), (4, 3, 1),
  (5, 0, 4), (5, 1, 5), (5, 2, 6), (5, 3, 7)]
/-- `edges_W6`, topodata.py 151-173. -/
def edgesW6W : List (Nat × Nat × Nat) := [(0, 0, 0), (0, 1, 1), (1, 0, 1), (1, 1, 2), (2, 0, 2), (2, 1, 0),
  (3, 0, 3), (3, 1, 4), (4, 0, 4), (4, 1, 5), (5, 0, 5), (5, 1, 3), (6, 0, 0), (6, 1, 3), (7, 0, 1), (7, 1, 4),
  (8, 0, 2), (8, 1, 5)]
/-- `faces_W6`, triangles, topodata.py 180-186. -/
def faces2W6W : List (Nat × Nat × Nat) := [(0, 0, 0), (0, 1, 2), (0, 2, 1), (1, 3, 3), (1, 0, 4), (1, 1, 5)]
/-- `faces_W6`, quadrilaterals, topodata.py 188-200. -/
def faces4W6W : List (Nat × Nat × Nat) := [(0, 2, 0), (0, 3, 1), (0, 0, 4), (0, 1, 3), (1, 2, 1), (1, 3, 2),
  (1, 0, 5), (1, 1, 4), (2, 2, 2), (2, 3, 0), (2, 0, 3), (2, 1, 5)]
/-- `edgeIds_T3`, topodata.py 23-24, and `edges_tri`, tri.py 485-514. -/
def edgeIdsT3 : List (List Nat) := [[0, 1], [1, 2], [2, 0]]
/-- The edges of a quadrilateral as a table (see `edgesQ4W`). -/
def edgeIdsQ4 : List (List Nat) := [[0, 1], [1, 2], [2, 3], [3, 0]]
/-- `edgeIds_TET4`, topodata.py 27-28. -/
def edgeIdsTET4 : List (List Nat) := [[0, 1], [1, 2], [2, 0], [0, 3], [1, 3], [2, 3]]
/-- `edgeIds_H8`, topodata.py 69-86. -/
def edgeIdsH8 : List (List Nat) := [[0, 1], [1, 2], [2, 3], [3, 0], [4, 5], [5, 6], [6, 7], [7, 4], [0, 4],
  [1, 5], [2, 6], [3, 7]]
/-- The edges of a wedge as a table (see `edgesW6W`). -/
def edgeIdsW6 : List (List Nat) := [[0, 1], [1, 2], [2, 0], [3, 4], [4, 5], [5, 3], [0, 3], [1, 4], [2, 5]]
/-- The faces of a tetrahedron as a table (see `facesTET4W`). -/
def faceIdsTET4 : List (List Nat) := [[0, 1, 3], [1, 2, 3], [2, 0, 3], [0, 2, 1]]
/-- The faces of a hexahedron as a table (see `facesH8W`). -/
def faceIdsH8 : List (List Nat) := [[0, 4, 7, 3], [1, 2, 6, 5], [0, 1, 5, 4], [2, 3, 7, 6], [0, 3, 2, 1],
  [4, 5, 6, 7]]
/-- The quadrilateral faces of a wedge as a table (see `faces4W6W`). -/
def faceIdsW6 : List (List Nat) := [[4, 3, 0, 1], [5, 4, 1, 2], [3, 5, 2, 0]]

/-- A literal table as the result of assignments. -/
def asTable (t : List (List Nat)) : Option (List (List (Option Nat))) := some (t.map (List.map some))

theorem edgesQ4_table : colTable 4 2 edgesQ4W = asTable edgeIdsQ4 := by decide
theorem edgesTET4_table : colTable 6 2 edgesTET4W = asTable edgeIdsTET4 := by decide
theorem facesTET4_table : colTable 4 3 facesTET4W = asTable faceIdsTET4 := by decide
theorem edgesH8_table : colTable 12 2 edgesH8W = asTable edgeIdsH8 := by decide
theorem facesH8_table : colTable 6 4 facesH8W = asTable faceIdsH8 := by decide
theorem edgesW6_table : colTable 9 2 edgesW6W = asTable edgeIdsW6 := by decide
theorem faces4W6_table : colTable 3 4 faces4W6W = asTable faceIdsW6 := by decide

/-! ## geometry of pieces (specification) -/

section
variable {K : Type} [Field K]

/-- Master coordinates from doubled integers. -/
def half (v : V3 Int) : V3 K := ⟨(v.x : K) / 2, (v.y : K) / 2, (v.z : K) / 2⟩

/-- The points of the listed nodes of the cell that is the image of the master cell `lc` under `A`. -/
def cellPts (A : Aff K) (lc : List (V3 Int)) (ids : List Nat) : List (V3 K) :=
  ids.map fun i => A.app (half (lc.getD i 0))

/-- The same in the master cell. -/
def masterPts (K : Type) [Field K] (lc : List (V3 Int)) (ids : List Nat) : List (V3 K) :=
  ids.map fun i => half (lc.getD i 0)

theorem cellPts_eq (A : Aff K) (lc : List (V3 Int)) (ids : List Nat) :
    cellPts A lc ids = (masterPts K lc ids).map A.app := by simp [cellPts, masterPts]

end

section
set_option linter.unusedSectionVars false
variable {K : Type} [Field K] [LinearOrder K] [IsStrictOrderedRing K]

/-- The pieces `path` (their first `pc` nodes are their corners) of the cell with corners `corners` cover it, and
have disjoint interiors, for every regular affine image of the master cell. -/
structure Tiles (K : Type) [Field K] [LinearOrder K] [IsStrictOrderedRing K] (lc : List (V3 Int))
    (corners : List Nat) (path : List (List Nat)) (pc : Nat) : Prop where
  cover : ∀ A : Aff K, A.det ≠ 0 → ∀ p, Hull (cellPts A lc corners) p →
    ∃ t ∈ path, Hull (cellPts A lc (t.take pc)) p
  disj : ∀ A : Aff K, A.det ≠ 0 → ∀ (i j : Nat) (s t : List Nat), path[i]? = some s → path[j]? = some t → i ≠ j →
    ∀ p, ¬ (OpenHull (cellPts A lc (s.take pc)) p ∧ OpenHull (cellPts A lc (t.take pc)) p)

/-- Value of an integer functional at doubled coordinates. -/
def evalD (f : V3 Int × Int) (v : V3 Int) : Int := f.1.x * v.x + f.1.y * v.y + f.1.z * v.z + f.2

def sepCheck (lc : List (V3 Int)) (P Q : List Nat) (f : V3 Int × Int) : Bool :=
  P.all (fun i => decide (evalD f (lc.getD i 0) ≤ 0)) && P.any (fun i => decide (evalD f (lc.getD i 0) < 0)) &&
    Q.all (fun i => decide (0 ≤ evalD f (lc.getD i 0)))

/-- Candidate functionals: small normals and offsets. -/
def cands : List (V3 Int × Int) :=
  ([-1, 0, 1].flatMap fun a => [-1, 0, 1].flatMap fun b => [-1, 0, 1].flatMap fun c =>
    [-2, -1, 0, 1, 2].map fun d => (⟨a, b, c⟩, d)) ++
  [(⟨0, -2, 1⟩, 2), (⟨0, 2, -1⟩, -2), (⟨-2, -2, 1⟩, 2), (⟨2, 2, -1⟩, -2)]

def sepAll (lc : List (V3 Int)) (path : List (List Nat)) (pc : Nat) : Bool :=
  path.zipIdx.all fun s => path.zipIdx.all fun t =>
    decide (s.2 = t.2) || cands.any (sepCheck lc (s.1.take pc) (t.1.take pc))

omit [LinearOrder K] [IsStrictOrderedRing K] in
theorem evalF_half [CharZero K] (f : V3 Int × Int) (v : V3 Int) :
    evalF (⟨2 * f.1.x, 2 * f.1.y, 2 * f.1.z⟩, f.2) (half v : V3 K) = (evalD f v : K) := by
  simp only [evalF, half, evalD]
  push_cast
  field_simp

theorem disj_of_sepAll {lc : List (V3 Int)} {path : List (List Nat)} {pc : Nat} (h : sepAll lc path pc = true)
    (A : Aff K) (hA : A.det ≠ 0) (i j : Nat) (s t : List Nat) (hs : path[i]? = some s) (ht : path[j]? = some t)
    (hij : i ≠ j) (p : V3 K) : ¬ (OpenHull (cellPts A lc (s.take pc)) p ∧ OpenHull (cellPts A lc (t.take pc)) p) := by
  rintro ⟨h1, h2⟩
  rw [cellPts_eq] at h1 h2
  obtain ⟨ξ, rfl, h1'⟩ := exists_of_openHull_map A h1
  obtain ⟨η, e, h2'⟩ := exists_of_openHull_map A h2
  obtain rfl := A.app_injective hA e
  unfold sepAll at h
  rw [List.all_eq_true] at h
  have h' := h (s, i) (List.mem_zipIdx_iff_getElem?.2 hs)
  rw [List.all_eq_true] at h'
  have h'' := h' (t, j) (List.mem_zipIdx_iff_getElem?.2 ht)
  simp only [Bool.or_eq_true, decide_eq_true_eq, List.any_eq_true] at h''
  rcases h'' with h'' | ⟨f, _, hf⟩
  · exact hij h''
  · simp only [sepCheck, Bool.and_eq_true, List.all_eq_true, List.any_eq_true, decide_eq_true_eq] at hf
    obtain ⟨⟨hf1, k, hk, hf2⟩, hf3⟩ := hf
    refine disjoint_of_functional (f := (⟨2 * f.1.x, 2 * f.1.y, 2 * f.1.z⟩, f.2)) ?_ ?_ ?_ ξ h1' h2'
    · intro q hq
      obtain ⟨n, hn, rfl⟩ := List.mem_map.1 hq
      rw [evalF_half]; exact_mod_cast hf1 n hn
    · refine ⟨_, List.mem_map.2 ⟨k, hk, rfl⟩, ?_⟩
      rw [evalF_half]; exact_mod_cast hf2
    · intro q hq
      obtain ⟨n, hn, rfl⟩ := List.mem_map.1 hq
      rw [evalF_half]; exact_mod_cast hf3 n hn

/-- Covering need only be shown in the master cell. -/
theorem tiles_of_master {lc : List (V3 Int)} {corners : List Nat} {path : List (List Nat)} {pc : Nat}
    (h : sepAll lc path pc = true)
    (hc : ∀ ξ : V3 K, Hull (masterPts K lc corners) ξ → ∃ t ∈ path, Hull (masterPts K lc (t.take pc)) ξ) :
    Tiles K lc corners path pc := by
  refine ⟨?_, fun A hA => disj_of_sepAll h A hA⟩
  intro A _ p hp
  rw [cellPts_eq] at hp
  obtain ⟨ξ, rfl, hξ⟩ := exists_of_hull_map A hp
  obtain ⟨t, ht, h⟩ := hc ξ hξ
  exact ⟨t, ht, by rw [cellPts_eq]; exact hull_map_of A h⟩

/-- Bounds of the hull from the corners. -/
theorem hull_bound {lc : List (V3 Int)} {corners : List Nat} (f : V3 Int × Int)
    (h : corners.all (fun i => decide (0 ≤ evalD f (lc.getD i 0))) = true) {ξ : V3 K}
    (hξ : Hull (masterPts K lc corners) ξ) : 0 ≤ (2 * f.1.x : K) * ξ.x + 2 * f.1.y * ξ.y + 2 * f.1.z * ξ.z + f.2 := by
  have := evalF_nonneg_of_hull (f := (⟨2 * f.1.x, 2 * f.1.y, 2 * f.1.z⟩, f.2)) hξ (by
    intro q hq
    obtain ⟨n, hn, rfl⟩ := List.mem_map.1 hq
    rw [evalF_half]
    simp only [List.all_eq_true, decide_eq_true_eq] at h
    exact_mod_cast h n hn)
  simpa [evalF] using this

theorem hull_nil3 (p q r : V3 K) (a b c : K) (ha : 0 ≤ a) (hb : 0 ≤ b) (hc : 0 ≤ c) (hs : a + b + c = 1)
    (ξ : V3 K) (hx : a * p.x + b * q.x + c * r.x = ξ.x) (hy : a * p.y + b * q.y + c * r.y = ξ.y)
    (hz : a * p.z + b * q.z + c * r.z = ξ.z) : Hull [p, q, r] ξ := by
  refine ⟨[a, b, c], rfl, by simp [ha, hb, hc], by simp [← hs]; ring, ?_⟩
  ext
  · simp [lincomb, ← hx]; ring
  · simp [lincomb, ← hy]; ring
  · simp [lincomb, ← hz]; ring

theorem hull_nil4 (p q r s : V3 K) (a b c d : K) (ha : 0 ≤ a) (hb : 0 ≤ b) (hc : 0 ≤ c) (hd : 0 ≤ d)
    (hs : a + b + c + d = 1) (ξ : V3 K) (hx : a * p.x + b * q.x + c * r.x + d * s.x = ξ.x)
    (hy : a * p.y + b * q.y + c * r.y + d * s.y = ξ.y) (hz : a * p.z + b * q.z + c * r.z + d * s.z = ξ.z) :
    Hull [p, q, r, s] ξ := by
  refine ⟨[a, b, c, d], rfl, by simp [ha, hb, hc, hd], by simp [← hs]; ring, ?_⟩
  ext
  · simp [lincomb, ← hx]; ring
  · simp [lincomb, ← hy]; ring
  · simp [lincomb, ← hz]; ring

/-- Hull of a sweep: between two lists of points shifted against each other. -/
theorem hull_sweep {P : List (V3 K)} {u ξ : V3 K} {l : K} (h0 : 0 ≤ l) (h1 : l ≤ 1)
    (h : Hull P (ξ - l • u)) : Hull (P ++ P.map (· + u)) ξ := by
  obtain ⟨w, hl, hw, hs, e⟩ := h
  refine ⟨w.map ((1 - l) * ·) ++ w.map (l * ·), by simp [hl], ?_, ?_, ?_⟩
  · intro a ha
    rcases List.mem_append.1 ha with ha | ha <;> obtain ⟨b, hb, rfl⟩ := List.mem_map.1 ha
    · exact mul_nonneg (by linarith) (hw b hb)
    · exact mul_nonneg h0 (hw b hb)
  · have : ∀ (k : K) (w : List K), (w.map (k * ·)).sum = k * w.sum := by
      intro k w
      induction w with
      | nil => simp
      | cons a w ih => simp [ih]; ring
    rw [List.sum_append, this, this, hs]
    ring
  · have key : ∀ (w : List K) (P : List (V3 K)), w.length = P.length → ∀ (w' : List K) (P' : List (V3 K)),
        lincomb (w ++ w') (P ++ P') = lincomb w P + lincomb w' P' := by
      intro w
      induction w with
      | nil => intro P hP w' P'; cases P with
        | nil => ext <;> simp [lincomb]
        | cons _ _ => simp at hP
      | cons a w ih => intro P hP w' P'; cases P with
        | nil => simp at hP
        | cons p P =>
          have := ih P (by simpa using hP) w' P'
          simp only [List.cons_append, lincomb, this]
          ext <;> simp <;> ring
    have ksc : ∀ (k : K) (w : List K) (P : List (V3 K)), lincomb (w.map (k * ·)) P = k • lincomb w P := by
      intro k w
      induction w with
      | nil => intro P; cases P <;> (ext <;> simp [lincomb])
      | cons a w ih => intro P; cases P with
        | nil => ext <;> simp [lincomb]
        | cons p P => simp only [List.map_cons, lincomb, ih]; ext <;> simp <;> ring
    have ktr : ∀ (w : List K) (P : List (V3 K)), w.length = P.length →
        lincomb w (P.map (· + u)) = lincomb w P + w.sum • u := by
      intro w
      induction w with
      | nil => intro P hP; cases P with
        | nil => ext <;> simp [lincomb]
        | cons _ _ => simp at hP
      | cons a w ih => intro P hP; cases P with
        | nil => simp at hP
        | cons p P =>
          simp only [List.map_cons, lincomb, ih P (by simpa using hP), List.sum_cons]
          ext <;> simp <;> ring
    rw [key _ _ (by simp [hl]), ksc, ksc, ktr w P hl, hs, e]
    ext <;> simp <;> ring

end
end PM
