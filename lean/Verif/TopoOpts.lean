import Verif.CsrTopo
import Verif.Around

/-!
# Model: the options of `cells_at_nodes` and `nodal_adjacency`

`src/polymesh/utils/topology/topo.py` 417-562 and 786-845: the formats, `assume_regular`, `cellIDs` and `return_counts`, for topologies stored
as arrays, as awkward arrays and as csr matrices. The conversions of networkx are external: an answer in one of its formats carries the
dictionary that it is made of.
-/

namespace PM

/-- Why a call fails: the assertions at 504-507 and 517-518, a topology without nodes (numpy's `ValueError` for the maximum of nothing) or a
number of `cellIDs` that is missing, `networkx` that is not installed (836-838), a local variable without a value (830-834). -/
inductive TopoErr where
  | cellIdsFormat
  | irregularFormat
  | value
  | networkx
  | unbound
deriving DecidableEq

/-- The answers of `cells_at_nodes`; `counts` is there if `return_counts` was given. -/
inductive CanAns where
  | raw (s : Slots)
  | csr (scipy : Bool) (counts : Option (List Nat)) (m : CsrN)
  | dicts (counts : Option (List Nat)) (cells places : PyDict Nat (List Nat))
  | jagged (counts : Option (List Nat)) (cells places : List (List Nat))

/-- `is_regular`, topo.py 123-139. -/
def TopoStore.regular? : TopoStore → Option Bool
  | .dense t => isRegular t
  | .jagged t => isRegular t
  | .csr c => isRegularCsr c

/-- `regularize`, topo.py 142-172. -/
def TopoStore.regularized : TopoStore → TopoStore × List Nat
  | .dense t => (.dense (regularize t).1, (regularize t).2)
  | .jagged t => (.jagged (regularize t).1, (regularize t).2)
  | .csr c => (.csr (regularizeCsr c).1, (regularizeCsr c).2)

/-- The dispatch at topo.py 520-528. -/
def TopoStore.slots : TopoStore → Option Slots
  | .dense t => cellsAtNodesReg t
  | .jagged t => cellsAtNodesReg t
  | .csr c => cellsAtNodesRegCsr c

/-- The number of cells, `len(topo)` or `len(topo.indptr) - 1`, topo.py 543-546. -/
def TopoStore.cells : TopoStore → Nat
  | .dense t => t.length
  | .jagged t => t.length
  | .csr c => c.indptr.length - 1

/-- `_nodal_cell_data_to_spdata_`, topo.py 399-414: `data`, `indices`, `indptr` and `shape`. -/
def spdataOf (s : Slots) : Option CsrN :=
  (maxNode? s.ereg.flatten).map fun m => ⟨spdata s.count s.nreg, spdata s.count s.ereg, indptrOf s.count, (s.count.length, m + 1)⟩

/-- `cells_at_nodes`, topo.py 504-518: the topology that is used and the numbers of its nodes, if they had to be changed. -/
def canPrepare (dicts assumeRegular : Bool) (t : TopoStore) : Except TopoErr (TopoStore × Option (List Nat)) :=
  if assumeRegular then .ok (t, none)
  else match t.regular? with
    | none => .error .value
    | some true => .ok (t, none)
    | some false => if dicts then .ok (t.regularized.1, some t.regularized.2) else .error .irregularFormat

/-- `cells_at_nodes`, topo.py 530-562: the answer in the format that was asked for. -/
def canFormat (frmt : Option String) (returnCounts : Bool) (cellIDs : Option (List Nat)) (cells : Nat) (nodeIDs : Option (List Nat))
    (s : Slots) : Option CanAns :=
  let counts := if returnCounts then some s.count else none
  match frmt.getD "" with
  | "csr" => (spdataOf s).map fun m => .csr false counts m
  | "csr-scipy" => (spdataOf s).map fun m => .csr true counts m
  | "scipy-csr" => (spdataOf s).map fun m => .csr true counts m
  | "dicts" =>
    (nodalCellDataToDicts s (cellIDs.getD (List.range cells)) (nodeIDs.getD (List.range s.count.length))).map fun r => .dicts counts r.1 r.2
  | "jagged" => (spdataOf s).map fun m => .jagged counts (splitCuts m.indices s.count) (splitCuts m.data s.count)
  | _ => some (.raw s)

/-- `cells_at_nodes(topo, frmt=, assume_regular=, cellIDs=, return_counts=)`, topo.py 417-562. -/
def cellsAtNodesCall (frmt : Option String) (assumeRegular returnCounts : Bool) (cellIDs : Option (List Nat)) (t : TopoStore) :
    Except TopoErr CanAns :=
  if cellIDs.isSome && frmt != some "dicts" then .error .cellIdsFormat
  else (canPrepare (frmt == some "dicts") assumeRegular t).bind fun p =>
    match p.1.slots.bind (canFormat frmt returnCounts cellIDs p.1.cells p.2) with
    | some a => .ok a
    | none => .error .value

/-- The answers of `nodal_adjacency`: a dictionary, what networkx makes of a dictionary, or rows. -/
inductive AdjAns where
  | dol (d : PyDict Nat (List Nat))
  | graph (d : PyDict Nat (List Nat))
  | scipy (d : PyDict Nat (List Nat))
  | csr (d : PyDict Nat (List Nat))
  | jagged (rows : List (List Nat))

/-- The dictionary made by `nodal_adjacency`, topo.py 826-834. -/
def adjacencyDol (sched : List (Nat × Nat) → List (Nat × Nat)) (t : TopoStore) (ereg : PyDict Nat (List Nat)) :
    Except TopoErr (PyDict Nat (List Nat)) :=
  let r := match t with
    | .dense t => some (ereg.mapM (adjacencyStep t))
    | .jagged t => some (adjacencyAk sched t.flatten (t.map List.length) ereg)
    | .csr _ => none
  match r with
  | none => .error .unbound
  | some none => .error .value
  | some (some d) => .ok d

/-- The conversion at the end, topo.py 835-845. Without a csr matrix `dol` always has a value there. -/
def adjFormat (hasNx : Bool) (frmt : Option String) (d : PyDict Nat (List Nat)) : Except TopoErr AdjAns :=
  if !hasNx && frmt != some "jagged" then .error .networkx
  else match frmt.getD "" with
    | "nx" => .ok (.graph d)
    | "scipy-csr" => .ok (.scipy d)
    | "csr" => .ok (.csr d)
    | "jagged" => .ok (.jagged (dolToJagged d))
    | _ => .ok (.dol d)

/-- `nodal_adjacency(topo, frmt=, assume_regular=)`, topo.py 786-845. For a csr matrix the missing value is noticed after the test for
networkx. -/
def nodalAdjacencyCall (sched : List (Nat × Nat) → List (Nat × Nat)) (hasNx : Bool) (frmt : Option String) (assumeRegular : Bool)
    (t : TopoStore) : Except TopoErr AdjAns :=
  (cellsAtNodesCall (some "dicts") assumeRegular false none t).bind fun a =>
    match a with
    | .dicts _ E _ => match adjacencyDol sched t E with
      | .ok d => adjFormat hasNx frmt d
      | .error .unbound => (adjFormat hasNx frmt []).bind fun _ => .error .unbound
      | .error e => .error e
    | _ => .error .value

end PM
