import Verif.Basic
import Mathlib.Data.List.Sort

/-!
# Model of `src/polymesh/utils/topology/topo.py`

The numpy, awkward and csr copies of a function do the same row by row; they are modelled once, on rows.
Differences are noted at the definitions. Node numbers are naturals (numpy's negative wrap-around indices are
not modelled).
-/

namespace PM

/-- `JaggedArray(data, cuts=cuts)`: cut flat data into rows. Also models `reshape` when all cuts are equal. -/
def splitCuts {α : Type} : List α → List Nat → List (List α)
  | _, [] => []
  | l, n :: ns => l.take n :: splitCuts (l.drop n) ns

/-- `regularize`, topo.py 142-172 (ndarray 158-161, awkward 162-164).
The csr branch (165-169) computes the same but overwrites its argument's data; that side effect is not
modelled here. -/
def regularize (topo : Topo) : Topo × List Nat :=
  (splitCuts (npUniqueInv topo.flatten) (topo.map List.length), npUnique topo.flatten)

/-- `is_regular`, topo.py 123-139: `min == 0 and len(unique) == max + 1`; `none` = numpy's `ValueError` on an
empty array. (The `csr_scipy` branch at 136-137 refers to an unbound variable and always raises; not
modelled.) -/
def isRegular (topo : Topo) : Option Bool :=
  match minNode? topo.flatten, maxNode? topo.flatten with
  | some mn, some mx => some (mn == 0 && (npUnique topo.flatten).length == mx + 1)
  | _, _ => none

/-- The argument `imap` of `rewire`: an index array or a dictionary. -/
inductive IMap where
  | arr (a : List Nat)
  | dict (d : PyDict Nat Nat)

/-- `imap[i]`; `none` is an `IndexError`/`KeyError`. -/
def IMap.get? : IMap → Nat → Option Nat
  | .arr a, i => a[i]?
  | .dict d, i => d.get? i

/-- `arrays_to_imap_as_dict`, topo.py 741-761: `for i: res[source[i]] = target[i]`
(`zip`: the arrays have equal length in all uses). -/
def arraysToImapAsDict (source target : List Nat) : PyDict Nat Nat :=
  (source.zip target).foldl (fun d x => d.set x.1 x.2) []

/-- `inds_to_invmap_as_dict`, topo.py 720-738: `for i: res[inds[i]] = i`. -/
def indsToInvmapAsDict (inds : List Nat) : PyDict Nat Nat :=
  inds.zipIdx.foldl (fun d x => d.set x.1 x.2) []

/-- `inds_to_invmap_as_array`, topo.py 764-783: `res = zeros(max+1); for i: res[inds[i]] = i`
(sequential order; `none` on an empty array). -/
def indsToInvmapAsArray (inds : List Nat) : Option (List Nat) :=
  (maxNode? inds).map fun mx => toArr (mx + 1) (runW inds.zipIdx fun _ => 0)

/-- `remap_topo_1d`, topo.py 109-120. -/
def remapTopo1d (row : List Nat) (imap : IMap) : Option (List Nat) := row.mapM imap.get?

/-- `remap_topo`, topo.py 94-106. -/
def remapTopo (topo : Topo) (imap : IMap) : Option Topo := topo.mapM fun row => remapTopo1d row imap

/-- `rewire`, topo.py 51-91, for 2d arrays (78-79). `invert` requires an array (assert at 74). -/
def rewire (topo : Topo) (imap : IMap) (invert : Bool) : Option Topo :=
  if invert then
    match imap with
    | .arr a => remapTopo topo (.dict (indsToInvmapAsDict a))
    | .dict _ => none
  else remapTopo topo imap

/-- `rewire` for `TopologyArray`/awkward arguments, topo.py 82-89: flatten, remap, cut again. -/
def rewireJagged (topo : Topo) (imap : IMap) : Option Topo :=
  (remapTopo1d topo.flatten imap).map fun r => splitCuts r (topo.map List.length)

/-- `detach_mesh_bulk`, topo.py 694-703. -/
def detachMeshBulk {α : Type} (coords : List α) (topo : Topo) : Option (List α × Topo) := do
  let inds := npUnique topo.flatten
  let c ← gather? coords inds
  let t ← remapTopo topo (.dict (indsToInvmapAsDict inds))
  return (c, t)

/-- `detach_mesh_data_bulk`, topo.py 706-717. -/
def detachMeshDataBulk {α β : Type} (coords : List α) (topo : Topo) (data : List β) :
    Option (List α × List β × Topo) := do
  let inds := npUnique topo.flatten
  let c ← gather? coords inds
  let d ← gather? data inds
  let t ← remapTopo topo (.dict (indsToInvmapAsDict inds))
  return (c, d, t)

/-- `detach_mesh_jagged`, topo.py 679-691. -/
def detachMeshJagged {α : Type} (coords : List α) (topo : Topo) : Option (List α × Topo) := do
  let inds := npUnique topo.flatten
  let t ← remapTopo1d topo.flatten (.dict (indsToInvmapAsDict inds))
  let c ← gather? coords inds
  return (c, splitCuts t (topo.map List.length))

/-- `detach`, topo.py 629-676: `inds` are the global ids of the rows of `coords` (given explicitly or carried
by a `PointCloud`). -/
def detach {α : Type} (coords : List α) (topo : Topo) (inds : Option (List Nat)) :
    Option (List α × Topo) :=
  match inds with
  | some ids => do
    let t ← rewire topo (.arr ids) true
    detachMeshBulk coords t
  | none => detachMeshBulk coords topo

/-! ### Incidence -/

/-- `count[v] += 1`. -/
def incr? (count : List Nat) (v : Nat) : Option (List Nat) :=
  match count[v]? with
  | some c => some (count.set v (c + 1))
  | none => none

/-- `_count_cells_at_nodes_reg_np_`, topo.py 175-186 (awkward 207-219, csr 240-257 alike). -/
def countCellsAtNodesReg (topo : Topo) : Option (List Nat) := do
  let mx ← maxNode? topo.flatten
  topo.flatten.foldlM incr? (List.replicate (mx + 1) 0)

/-- `_count_cells_at_nodes_np_`, topo.py 189-204: `count[nodeIDs[topo[iE, jNE]]] += 1` on a dictionary. -/
def countDictStep (nodeIDs : List Nat) (d : PyDict Nat Nat) (v : Nat) : Option (PyDict Nat Nat) := do
  let k ← nodeIDs[v]?
  let c ← d.get? k
  return d.set k (c + 1)

/-- `count_cells_at_nodes` with `regular=False`, topo.py 304-307 and 189-204. -/
def countCellsAtNodesDict (topo : Topo) : Option (PyDict Nat Nat) :=
  let r := regularize topo
  r.1.flatten.foldlM (countDictStep r.2) (r.2.foldl (fun d k => d.set k 0) [])

/-- One entry of a topology array: cell, position within the cell, node. -/
structure Entry where
  cell : Nat
  pos : Nat
  node : Nat
deriving DecidableEq, Repr

/-- The row-major loop `for iE ...: for jNE ...` over a topology. -/
def entriesOf (topo : Topo) : List Entry :=
  topo.zipIdx.flatMap fun x => x.1.zipIdx.map fun y => ⟨x.2, y.2, y.1⟩

/-- State of the slot-filling loop of `_cells_at_nodes_reg_np_`. -/
structure Slots where
  count : List Nat
  ereg : List (List Nat)
  nreg : List (List Nat)
deriving Repr

/-- `a[i, j] = v`; `none` if out of range. -/
def set2? (a : List (List Nat)) (i j v : Nat) : Option (List (List Nat)) :=
  match a[i]? with
  | some row => if j < row.length then some (a.set i (row.set j v)) else none
  | none => none

/-- Loop body, topo.py 337-341. -/
def slotStep (s : Slots) (e : Entry) : Option Slots := do
  let c ← s.count[e.node]?
  let er ← set2? s.ereg e.node c e.cell
  let nr ← set2? s.nreg e.node c e.pos
  let ct ← incr? s.count e.node
  return ⟨ct, er, nr⟩

/-- `_cells_at_nodes_reg_np_`, topo.py 327-342 (awkward 345-360, csr 363-384 alike). -/
def cellsAtNodesReg (topo : Topo) : Option Slots := do
  let mx ← maxNode? topo.flatten
  let count ← countCellsAtNodesReg topo
  let cmax ← maxNode? count
  let z := List.replicate (mx + 1) (List.replicate cmax 0)
  (entriesOf topo).foldlM slotStep ⟨List.replicate (mx + 1) 0, z, z⟩

/-- `reg[i, : count[i]]` for all `i`. -/
def trimRows (count : List Nat) (reg : List (List Nat)) : List (List Nat) :=
  (count.zip reg).map fun x => x.2.take x.1

/-- `_nodal_cell_data_to_dicts_`, topo.py 387-396. -/
def nodalCellDataToDicts (s : Slots) (cellIDs nodeIDs : List Nat) :
    Option (PyDict Nat (List Nat) × PyDict Nat (List Nat)) :=
  (List.range s.count.length).foldlM
    (fun d i => do
      let n ← nodeIDs[i]?
      let c ← s.count[i]?
      let er ← s.ereg[i]?
      let nr ← s.nreg[i]?
      let cells ← gather? cellIDs (er.take c)
      return (PyDict.set d.1 n cells, PyDict.set d.2 n (nr.take c)))
    ([], [])

/-- `k`, `k + c₀`, `k + c₀ + c₁`, ... -/
def cumsumFrom (k : Nat) : List Nat → List Nat
  | [] => [k]
  | c :: cs => k :: cumsumFrom (k + c) cs

/-- `indptr = zeros(n + 1); indptr[1:] = np.cumsum(count)`. -/
def indptrOf (count : List Nat) : List Nat := cumsumFrom 0 count

/-- `a[s : s + len(vals)] = vals` as single writes. -/
def sliceWrites {α : Type} (s : Nat) (vals : List α) : List (Nat × α) :=
  vals.zipIdx.map fun x => (s + x.2, x.1)

/-- The writes of the `prange` loop of `_nodal_cell_data_to_spdata_`, topo.py 410-412, for one of the two
arrays; `rows` are the trimmed rows `reg[i, :count[i]]`. -/
def spdataWrites (count : List Nat) (reg : List (List Nat)) : List (Nat × Nat) :=
  ((indptrOf count).zip (trimRows count reg)).flatMap fun x => sliceWrites x.1 x.2

/-- `_nodal_cell_data_to_spdata_`, topo.py 399-414: `indices`/`data` array (sequential order). -/
def spdata (count : List Nat) (reg : List (List Nat)) : List Nat :=
  toArr count.sum (runW (spdataWrites count reg) fun _ => 0)

/-- `cells_at_nodes(..., frmt='jagged')`, topo.py 554-560: rows of cells and of positions per node. -/
def cellsAtNodesJagged (topo : Topo) : Option (List (List Nat) × List (List Nat)) := do
  let s ← cellsAtNodesReg topo
  return (splitCuts (spdata s.count s.ereg) s.count, splitCuts (spdata s.count s.nreg) s.count)

/-- `cells_at_nodes(..., frmt='dicts')`, topo.py 509-515, 542-553: irregular topologies are regularized first. -/
def cellsAtNodesDicts (topo : Topo) (cellIDs : Option (List Nat)) :
    Option (PyDict Nat (List Nat) × PyDict Nat (List Nat)) := do
  let reg ← isRegular topo
  let t := if reg then topo else (regularize topo).1
  let s ← cellsAtNodesReg t
  let nodeIDs := if reg then List.range s.count.length else (regularize topo).2
  let cIDs := cellIDs.getD (List.range topo.length)
  nodalCellDataToDicts s cIDs nodeIDs

/-- `_nodal_adjacency_as_dol_np_`, topo.py 565-571 (awkward 574-599 alike). -/
def adjacencyStep (topo : Topo) (x : Nat × List Nat) : Option (Nat × List Nat) := do
  let rows ← gather? topo x.2
  return (x.1, npUnique rows.flatten)

/-- `nodal_adjacency`, topo.py 786-845, `frmt=None`: a dictionary of lists. -/
def nodalAdjacency (topo : Topo) : Option (PyDict Nat (List Nat)) := do
  let er ← cellsAtNodesDicts topo none
  er.1.mapM (adjacencyStep topo)

/-- `dol_to_jagged_data`, topo.py 613-626, followed by `JaggedArray(data1d, cuts=cuts)` (842-844):
`frmt='jagged'`. -/
def dolToJagged (dol : PyDict Nat (List Nat)) : List (List Nat) :=
  let vals := dol.map fun x => x.2
  let widths := vals.map List.length
  splitCuts (spdata widths vals) widths

/-! ### Unique entities -/

/-- `np.sort` of a row. -/
def sortRow (row : List Nat) : List Nat := row.insertionSort (· ≤ ·)

/-- `unique_topo_data`, topo.py 848-906 (ndarray branch 897-903): input is cells × entities × nodes. -/
def uniqueTopoData (topo3d : List (List (List Nat))) : List (List Nat) × List (List Nat) :=
  let rows := topo3d.flatten.map sortRow
  (npUnique rows, splitCuts (npUniqueInv rows) (topo3d.map List.length))

end PM
