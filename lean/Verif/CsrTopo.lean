import Verif.Topo
import Verif.CellData

/-!
# Topologies in other containers

The functions of topo.py for topologies stored as csr matrices (`data`, `indptr`; one row of nodes per cell) and as awkward arrays
(rows of different lengths), and the conversion of jagged arrays to csr matrices (utils.py).
-/

namespace PM

/-- `csr_matrix` as a topology: `data` holds the nodes, `indptr` the row pointers. -/
structure Csr where
  data : List Nat
  indptr : List Nat
deriving DecidableEq

/-- The loops over the cells and over `data[_i + j]`, topo.py 249-256, 271-278, 374-383. -/
def csrEntries (c : Csr) : Option (List Entry) :=
  ((List.range (c.indptr.length - 1)).mapM fun iE =>
    (List.range (c.indptr.getD (iE + 1) 0 - c.indptr.getD iE 0)).mapM fun j =>
      (c.data[c.indptr.getD iE 0 + j]?).map fun n => (⟨iE, j, n⟩ : Entry)).map List.flatten

/-- `_count_cells_at_nodes_reg_csr_`, topo.py 240-257. -/
def countRegCsr (c : Csr) : Option (List Nat) := do
  let mx ← maxNode? c.data
  let es ← csrEntries c
  es.foldlM (fun ct e => incr? ct e.node) (List.replicate (mx + 1) 0)

/-- `regularize` of a csr matrix, topo.py 165-169: the data of the argument are overwritten. Returns the matrix (now that of the
caller, too) and the unique nodes. -/
def regularizeCsr (c : Csr) : Csr × List Nat :=
  (⟨c.data.map (npUnique c.data).idxOf, c.indptr⟩, npUnique c.data)

/-- `is_regular` of a csr matrix, topo.py 133-135. -/
def isRegularCsr (c : Csr) : Option Bool := do
  let mn ← minNode? c.data
  let mx ← maxNode? c.data
  return mn = 0 ∧ (npUnique c.data).length = mx + 1

/-- `count_cells_at_nodes` of a csr matrix with `regular=False`, topo.py 310-312, 260-279: the counts and the matrix of the caller
after the call. -/
def countDictCsr (c : Csr) : Option (PyDict Nat Nat × Csr) := do
  let r := regularizeCsr c
  let es ← csrEntries r.1
  let d ← es.foldlM (fun d e => countDictStep r.2 d e.node) (r.2.foldl (fun d k => d.set k 0) [])
  return (d, r.1)

/-- `_cells_at_nodes_reg_csr_`, topo.py 363-384. -/
def cellsAtNodesRegCsr (c : Csr) : Option Slots := do
  let count ← countRegCsr c
  let mx ← maxNode? c.data
  let cmax ← maxNode? count
  let z := List.replicate (mx + 1) (List.replicate cmax 0)
  let es ← csrEntries c
  es.foldlM slotStep ⟨List.replicate (mx + 1) 0, z, z⟩

/-- `cells_at_nodes(..., frmt='dicts')` of a csr matrix, topo.py 509-515, 527-528, 542-553; with the matrix after the call. -/
def cellsAtNodesDictsCsr (c : Csr) (cellIDs : Option (List Nat)) :
    Option ((PyDict Nat (List Nat) × PyDict Nat (List Nat)) × Csr) := do
  let reg ← isRegularCsr c
  let t := if reg then c else (regularizeCsr c).1
  let s ← cellsAtNodesRegCsr t
  let nodeIDs := if reg then List.range s.count.length else (regularizeCsr c).2
  let cIDs := cellIDs.getD (List.range (t.indptr.length - 1))
  let r ← nodalCellDataToDicts s cIDs nodeIDs
  return (r, t)

/-- The writes of the parallel loop of `_subtopo_1d_`, topo.py 582-585. -/
def subtopoW (topo1d : List Nat) (widths : List Nat) (inds : List Nat) (indptr : List Nat) : List (Nat × Nat) :=
  ((indptrOf widths).zip inds).flatMap fun x => sliceWrites x.1 (slice topo1d (indptr.getD x.2 0) (indptr.getD (x.2 + 1) 0))

/-- `_subtopo_1d_`, topo.py 574-586, for a given order of the writes; `none`: an index out of range. -/
def subtopo1d (sched : List (Nat × Nat) → List (Nat × Nat)) (topo1d cuts inds indptr : List Nat) : Option (List Nat) :=
  (gather? cuts inds).map fun widths => toArr widths.sum (runW (sched (subtopoW topo1d widths inds indptr)) fun _ => 0)

/-- `_nodal_adjacency_as_dol_ak_`, topo.py 589-599. -/
def adjacencyAk (sched : List (Nat × Nat) → List (Nat × Nat)) (topo1d cuts : List Nat) (ereg : PyDict Nat (List Nat)) :
    Option (PyDict Nat (List Nat)) :=
  ereg.mapM fun x => (subtopo1d sched topo1d cuts x.2 (indptrOf cuts)).map fun l => (x.1, npUnique l)

/-- Containers of topologies. -/
inductive TopoStore where
  | dense (t : Topo)
  | jagged (t : Topo)
  | csr (c : Csr)

/-- `nodal_adjacency` with `frmt=None`, topo.py 826-845: nothing is assigned to `dol` for csr matrices (`UnboundLocalError`). -/
def nodalAdjacencyOf (sched : List (Nat × Nat) → List (Nat × Nat)) : TopoStore → Option (PyDict Nat (List Nat))
  | .dense t => nodalAdjacency t
  | .jagged t => do
    let er ← cellsAtNodesDicts t none
    adjacencyAk sched t.flatten (t.map List.length) er.1
  | .csr c => do
    let _ ← cellsAtNodesDictsCsr c none
    none

/-- State of the loop of `_jagged_to_spdata`. -/
structure SpState where
  c : Nat
  wmax : Nat
  data : Nat → Nat
  inds : Nat → Nat
  indptr : Nat → Nat

/-- The loop body, utils.py 107-115; `x` is a row and its number. -/
def spStep (s : SpState) (x : List Nat × Nat) : SpState :=
  let w := x.1.length
  ⟨s.c + w, if s.wmax < w then w else s.wmax, runW (sliceWrites s.c x.1) s.data, runW (sliceWrites s.c (List.range w)) s.inds,
    Function.update s.indptr (x.2 + 1) (s.c + w)⟩

/-- `_jagged_to_spdata`, utils.py 98-116: data, indices, row pointers, shape. -/
def jaggedToSpdata (rows : List (List Nat)) : List Nat × List Nat × List Nat × (Nat × Nat) :=
  let N := (rows.map List.length).sum
  let s := rows.zipIdx.foldl spStep ⟨0, 0, fun _ => 0, fun _ => 0, fun _ => 0⟩
  (toArr N s.data, toArr N s.inds, toArr (rows.length + 1) s.indptr, (rows.length, s.wmax))

end PM
