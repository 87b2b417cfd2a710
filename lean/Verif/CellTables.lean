import Verif.Cells

/-!
# Model: arrays of the edges and faces of the cells of a mesh

`edges_Q4`, `edges_TET4`, `faces_TET4`, `edges_H8`, `faces_H8`, `edges_W6` and `faces_W6` (utils/topodata.py 8-20, 31-66,
89-203) fill an array of shape `(nE, A, B)`, column by column, with columns of the topology.
-/

namespace PM

/-- The part of the array that belongs to one cell: the assignments `res[:, a, b] = topo[:, q]`, in the order they are
written, on zeros. `none`: the topology has no such column. -/
def cellCols1 (A B : Nat) (ws : List (Nat × Nat × Nat)) (row : List Nat) : Option (List (List Nat)) := do
  let vs ← ws.mapM fun w => row[w.2.2]?.map fun v => ((w.1, w.2.1), v)
  some (toRows A B (runW vs fun _ => 0))

/-- The functions of topodata.py 8-203 that fill arrays of shape `(nE, A, B)`. `none`: an assignment outside of the array
or a column the topology does not have (`IndexError`, or foreign memory in compiled code). -/
def cellCols (A B : Nat) (ws : List (Nat × Nat × Nat)) (topo : Topo) : Option (List (List (List Nat))) :=
  if ws.all fun w => w.1 < A && w.2.1 < B then topo.mapM (cellCols1 A B ws) else none

/-- `edges_Q4`, topodata.py 8-20. -/
def edgesQ4 (topo : Topo) := cellCols 4 2 edgesQ4W topo
/-- `edges_TET4`, topodata.py 31-47. -/
def edgesTET4 (topo : Topo) := cellCols 6 2 edgesTET4W topo
/-- `faces_TET4`, topodata.py 50-66. -/
def facesTET4 (topo : Topo) := cellCols 4 3 facesTET4W topo
/-- `edges_H8`, topodata.py 89-117. -/
def edgesH8 (topo : Topo) := cellCols 12 2 edgesH8W topo
/-- `faces_H8`, topodata.py 120-148. -/
def facesH8 (topo : Topo) := cellCols 6 4 facesH8W topo
/-- `edges_W6`, topodata.py 151-173. -/
def edgesW6 (topo : Topo) := cellCols 9 2 edgesW6W topo
/-- `faces_W6`, topodata.py 176-203; the quadrilaterals and the triangles. -/
def facesW6 (topo : Topo) : Option (List (List (List Nat)) × List (List (List Nat))) := do
  let f2 ← cellCols 2 3 faces2W6W topo
  let f4 ← cellCols 3 4 faces4W6W topo
  some (f4, f2)

end PM
