import Verif.PolyData
import Verif.CellData
import Verif.Frames

/-!
# Model: quantities of meshes with several blocks, and detaching them

`polydata.py` 1231-1305 (`topology`, `cell_indices`, `detach`), 1511-1520 (`number_of_cells`), 1549-1576 (`centers`),
1640-1664 (`areas`, `volumes`), 1666-1684 (closest and furthest cells), 1742-1780 (`_detach_block_data_`).

All frames are the ambient one. Areas and volumes of the cells of one block are parameters (they are the subject of C13, C38
and C71), and so is the dimension of the cells of a block.
-/

namespace PM

section
variable {P D : Type}

/-- `cellblocks(inclusive=True)` of the block with path `p`, polydata.py 909-926. -/
def cellsUnder (m : List (MBlock P D)) (p : List Nat) : List (MBlock P D × CData D) :=
  (m.filter fun b => p <:+ b.path).filterMap fun b => b.cells.map fun c => (b, c)

/-- `np.vstack`, `np.concatenate` of a list of arrays: an empty list is an error. -/
def stackAll {α : Type} (l : List (List α)) : Option (List α) := if l.isEmpty then none else some l.flatten

/-- `number_of_cells`, polydata.py 1511-1514. -/
def numberOfCells (m : List (MBlock P D)) (p : List Nat) : Nat := ((cellsUnder m p).map fun c => c.2.topo.length).sum

/-- `topology`, polydata.py 1231-1268 (arrays of different widths are stacked as jagged arrays, see C46). -/
def topologyOf (m : List (MBlock P D)) (p : List Nat) : Option Topo := stackAll ((cellsUnder m p).map fun c => c.2.topo)

/-- `cell_indices`, polydata.py 1270-1276; also the indices of `topology(return_inds=True)`. -/
def cellIndices (m : List (MBlock P D)) (p : List Nat) : Option (List Nat) :=
  stackAll ((cellsUnder m p).map fun c => c.2.id)

/-- `volumes`, polydata.py 1651-1655: the values of the blocks one after the other. -/
def volumesOf {K : Type} (vol : MBlock P D → CData D → List K) (m : List (MBlock P D)) (p : List Nat) : Option (List K) :=
  stackAll ((cellsUnder m p).map fun c => vol c.1 c.2)

/-- `areas`, polydata.py 1640-1645: blocks of solids are left out. -/
def areasOf {K : Type} (ndim : MBlock P D → Nat) (area : MBlock P D → CData D → List K) (m : List (MBlock P D)) (p : List Nat) :
    Option (List K) :=
  stackAll (((cellsUnder m p).filter fun c => ndim c.1 < 3).map fun c => area c.1 c.2)

/-- The argument `data` of `_detach_block_data_`. -/
inductive DataArg (D : Type) where
  | nothing
  | array (d : List D)
  | field (f : Nat)

/-- One block of `_detach_block_data_`, polydata.py 1744-1780: `block.topology()` is that of the block and of all blocks beneath
it. -/
def detachBlock (data : DataArg D) (m : List (MBlock P D)) (b : MBlock P D) (c : CData D) :
    Option (List P × Topo × Option (List D)) :=
  (sourcePath m b.path).bind fun s => (ptsAt m s).bind fun q => (topologyOf m b.path).bind fun topo =>
    match data with
    | .nothing => (detachMeshBulk (pointsBeneath m s) topo).map fun r => (r.1, r.2, none)
    | .array d => if d.length = q.x.length then
        (detachMeshDataBulk (pointsBeneath m s) topo d).map fun r => (r.1, r.2.2, some r.2.1) else none
    | .field f => match q.fields f with
      | some d => (detachMeshDataBulk (pointsBeneath m s) topo d).map fun r => (r.1, r.2.2, some r.2.1)
      | none => (detachMeshBulk (pointsBeneath m s) topo).map fun r => (r.1, r.2, c.fields f)

/-- `_detach_block_data_`, polydata.py 1742-1780: what is shown of the blocks. -/
def detachBlocks (data : DataArg D) (m : List (MBlock P D)) (p : List Nat) :
    Option (List (List P × Topo × Option (List D))) := (cellsUnder m p).mapM fun c => detachBlock data m c.1 c.2

end

section
variable {K D : Type} [Field K]

/-- `centers`, polydata.py 1564-1572 with `target=None`: the means of the points (`cell_centers_bulk`, utils.py 367-383) of the
cells of every block, all taken from the coordinates of the source of the block the call is made on. -/
def centersOf (m : List (MBlock (V3 K) D)) (p : List Nat) : Option (List (V3 K)) :=
  (sourcePath m p).bind fun s =>
    ((cellsUnder m p).mapM fun (c : MBlock (V3 K) D × CData D) => c.2.topo.mapM fun (row : List Nat) => (gather? (pointsBeneath m s) row).map meshCenter).bind stackAll

/-- `nodal_distribution_factors(weights="volume")`, polydata.py 1680-1728, called on the block with path `p`. -/
def meshFactors (vol : MBlock (V3 K) D → CData D → List K) (m : List (MBlock (V3 K) D)) (p : List Nat) : Option (List (List K)) :=
  if (ptsAt m p).isSome then (topologyOf m p).bind fun T => (volumesOf vol m p).bind fun V =>
    if V.length = T.length then ndf T V else none
  else none

end

/-- `index_of_closest_cell` for one target, polydata.py 1670-1672. -/
noncomputable def closestCell {D : Type} (m : List (MBlock (V3 ℝ) D)) (p : List Nat) (target : V3 ℝ) : Option Nat :=
  (centersOf m p).bind fun C => closestPoint C target

/-- `index_of_furthest_cell` for one target, polydata.py 1674-1678. -/
noncomputable def furthestCell {D : Type} (m : List (MBlock (V3 ℝ) D)) (p : List Nat) (target : V3 ℝ) : Option Nat :=
  (centersOf m p).bind fun C => furthestPoint C target

/-! ## detached meshes -/

/-- What the attribute `pointdata` of a block of cells refers to: nothing, points (by their place in the store) or a mesh. -/
inductive PRef where
  | nothing
  | points (h : Nat)
  | mesh
deriving DecidableEq

/-- A block of a mesh whose points are kept in a store, because several meshes may refer to the same `PointData`. -/
structure HBlock (D : Type) where
  path : List Nat
  pts : Option Nat
  cells : Option (CData D)
  ref : PRef

section
variable {P D : Type}

/-- A mesh as it is seen with the present content of the store. -/
def deref (st : List (PData P D)) (m : List (HBlock D)) : List (MBlock P D) :=
  m.map fun b => ⟨b.path, Fr.ambient, b.pts.bind fun h => st[h]?, b.cells⟩

/-- The points a block refers to, as a place in the store: `source`, polydata.py 846-864. -/
def sourceRef (m : List (HBlock D)) : List Nat → Option Nat
  | [] => (m.find? fun b => b.path = []).bind HBlock.pts
  | k :: p => match (m.find? fun b => b.path = k :: p).bind HBlock.pts with
    | some h => some h
    | none => sourceRef m p

/-- `source_coords` of the cells of a block, cell.py 371-379. A mesh has no attribute `x`: an exception. -/
def sourceCoords (st : List (PData P D)) (m : List (HBlock D)) (b : HBlock D) : Option (List P) :=
  match b.ref with
  | .points h => (st[h]?).map PData.x
  | .mesh => none
  | .nothing => (sourcePath (deref st m) b.path).map fun s => pointsBeneath (deref st m) s

/-- The path of a block beneath `p`, seen from `p`: `addr[l0:]`, polydata.py 1299-1301. -/
def relPath (p path : List Nat) : List Nat := path.take (path.length - p.length)

/-- The blocks with cells strictly beneath `p`, polydata.py 1294-1302. They get new ids from the root of the new mesh
(`__join_parent__`, 2263-2270) and refer to the points of the new root. -/
def detachBeneath (h : Nat) (p : List Nat) : Nat → List (HBlock D) → List (HBlock D)
  | _, [] => []
  | next, b :: bs => match b.cells with
    | none => detachBeneath h p next bs
    | some c => if p <:+ b.path ∧ b.path ≠ p then
        ⟨relPath p b.path, none, some { c with id := List.range' next c.topo.length }, .points h⟩ ::
          detachBeneath h p (next + c.topo.length) bs
      else detachBeneath h p next bs

/-- `detach` without `nummrg`, polydata.py 1278-1305, called on the block with path `p`: the new mesh and the store. The points of
the source are used as they are; the constructor (172-190) gives them new ids. The cells of the block itself keep their ids,
and their `pointdata` is the new mesh. -/
def detachMesh (st : List (PData P D)) (m : List (HBlock D)) (p : List Nat) : Option (List (PData P D) × List (HBlock D)) :=
  (sourceRef m p).bind fun h => (st[h]?).map fun q =>
    (st.set h { q with id := List.range q.x.length },
      ⟨[], some h, (m.find? fun b => b.path = p).bind HBlock.cells, .mesh⟩ :: detachBeneath h p 0 m)

/-- `pointdata.x = value` on the points at place `h` of the store. -/
def storeX (st : List (PData P D)) (h : Nat) (x : List P) : List (PData P D) :=
  st.modify h fun q => { q with x := x }

end

end PM
