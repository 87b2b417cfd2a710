import Verif.Walk
import Verif.CsrTopo
import Verif.Around
import Verif.Knn

/-!
# Model: neighbours in whole meshes

`polydata.py` 1437-1454 (`cells_at_nodes`), 1456-1476 (`cells_around_cells`), 1478-1494 (`nodal_adjacency`), 1526-1547 (`center`),
1613-1636 (`k_nearest_cell_neighbours`).
-/

namespace PM

section
variable {P D : Type}

/-- `is_jagged()` of neumann: there are rows of different lengths. -/
def isJagged (t : Topo) : Bool := t.any fun row => row.length ≠ (t.headD []).length

/-- `cells_at_nodes(frmt="dicts", cellIDs=)` of a mesh, polydata.py 1450-1456. Meshes with cells of different sizes are handed over as a csr
matrix; `toCsr` is `to_csr` of neumann. -/
def meshCellsAtNodes (toCsr : Topo → Csr) (m : List (MBlock P D)) (p : List Nat) (cellIDs : Option (List Nat)) :
    Option (PyDict Nat (List Nat) × PyDict Nat (List Nat)) :=
  (topologyOf m p).bind fun T =>
    if isJagged T then (cellsAtNodesDictsCsr (toCsr T) cellIDs).map Prod.fst else cellsAtNodesDicts T cellIDs

/-- `cells_at_nodes()` without a format, topo.py 509-524: an assertion for node numbers with gaps, otherwise the padded arrays. -/
def meshCellsAtNodesRaw (toCsr : Topo → Csr) (m : List (MBlock P D)) (p : List Nat) : Option Slots :=
  (topologyOf m p).bind fun T =>
    if isJagged T then (isRegularCsr (toCsr T)).bind fun r => if r then cellsAtNodesRegCsr (toCsr T) else none
    else (isRegular T).bind fun r => if r then cellsAtNodesReg T else none

/-- `nodal_adjacency()` of a mesh, polydata.py 1489-1495: an awkward array if there are cells of different sizes. -/
def meshAdjacency (sched : List (Nat × Nat) → List (Nat × Nat)) (m : List (MBlock P D)) (p : List Nat) : Option (PyDict Nat (List Nat)) :=
  (topologyOf m p).bind fun T => nodalAdjacencyOf sched (if isJagged T then .jagged T else .dense T)

end

section
variable {K D : Type} [Field K]

/-- `center()` of a mesh, polydata.py 1541-1547, in the frame of the mesh. -/
def meshCentre (m : List (MBlock (V3 K) D)) (p : List Nat) : Option (V3 K) := (movedPoints m p).map fun x => meshCenter x.2

/-- `k_nearest_cell_neighbours(k)`, polydata.py 1634-1636; `query X` are the rows found by the tree of the points `X`. -/
def nearestCells (m : List (MBlock (V3 K) D)) (p : List Nat) (k : Nat) (maxd : Option K) (query : List (V3 K) → Nat → List (List Nat)) :
    Option KnnAns :=
  (centersOf m p).bind fun C => kNearestNeighbours .scipy k maxd (query C)

end

/-- `cells_around_cells(radius)`, polydata.py 1474: `n_max` is 10. -/
noncomputable def cellsAroundCells {D : Type} (m : List (MBlock (V3 ℝ) D)) (p : List Nat) (r : ℝ) : Option (PyDict Nat (List Nat)) :=
  (centersOf m p).map fun C => pointsAroundDict C r 10

end PM
