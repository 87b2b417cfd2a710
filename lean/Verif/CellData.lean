import Verif.Extrude
import Mathlib.Algebra.Module.Defs
import Mathlib.Algebra.BigOperators.Group.List.Basic

/-!
# Model of the gathering, exploding, distributing and averaging functions of `src/polymesh/utils/utils.py`
-/

namespace PM

/-! ## gathering and exploding -/

section
variable {α : Type}

/-- `coords[topo[i, j]]`; `none` if an index is out of range (not checked by the compiled code). -/
def coordAt (coords : List α) (topo : Topo) (i j : Nat) : Option α := nodeAt topo i j >>= fun n => coords[n]?

/-- The assignments of `cells_coords`, utils.py 282-286; `nNE` is `topo.shape[1]`. -/
def cellsCoordsW (coords : List α) (topo : Topo) (nNE : Nat) : List ((Nat × Nat) × Option α) :=
  (List.range topo.length).flatMap fun i => (List.range nNE).map fun j => ((i, j), coordAt coords topo i j)

/-- `cells_coords` (utils.py 253-287) for a given schedule; `zero` is a row of zeros. -/
def cellsCoordsWith (zero : α) (nE nNE : Nat) (w : List ((Nat × Nat) × Option α)) : Option (List (List α)) :=
  (toRows nE nNE (runW w fun _ => some zero)).mapM fun r => r.mapM id

/-- `cells_coords`, utils.py 253-287. -/
def cellsCoords (zero : α) (coords : List α) (topo : Topo) (nNE : Nat) : Option (List (List α)) :=
  cellsCoordsWith zero topo.length nNE (cellsCoordsW coords topo nNE)

/-- `coords_[ii + j] = coords[topo[i, j]]`, utils.py 620-625 (and 666-669). -/
def explodeCoordW (coords : List α) (topo : Topo) (nNE : Nat) : List (Nat × Option α) :=
  (List.range topo.length).flatMap fun i => (List.range nNE).map fun j => (i * nNE + j, coordAt coords topo i j)

/-- `data_[ii + j] = data[i, j]`, utils.py 670. -/
def explodeDataW (nE : Nat) (data : List (List α)) (nNE : Nat) : List (Nat × Option α) :=
  (List.range nE).flatMap fun i => (List.range nNE).map fun j => (i * nNE + j, nodeAt data i j)

/-- `topo_[i, j] = ii + j`, utils.py 626 (and 671). -/
def explodeTopoW (nE nNE : Nat) : List ((Nat × Nat) × Nat) :=
  (List.range nE).flatMap fun i => (List.range nNE).map fun j => ((i, j), i * nNE + j)

/-- The array of `n` entries left by the assignments `w` on zeros. -/
def arrayOf (zero : α) (n : Nat) (w : List (Nat × Option α)) : Option (List α) :=
  (toArr n (runW w fun _ => some zero)).mapM id

/-- `explode_mesh_data_bulk`, utils.py 630-672, for given schedules of its three assignments. `β` is the type of
the data. -/
def explodeDataWith {β : Type} (zero : α) (zero' : β) (nE nNE : Nat) (wc : List (Nat × Option α))
    (wt : List ((Nat × Nat) × Nat)) (wd : List (Nat × Option β)) : Option (List α × Topo × List β) :=
  match arrayOf zero (nE * nNE) wc, arrayOf zero' (nE * nNE) wd with
  | some c, some d => some (c, toRows nE nNE (runW wt fun _ => 0), d)
  | _, _ => none

/-- `explode_mesh_data_bulk`, utils.py 630-672. -/
def explodeData {β : Type} (zero : α) (zero' : β) (coords : List α) (topo : Topo) (data : List (List β)) (nNE : Nat) :
    Option (List α × Topo × List β) :=
  explodeDataWith zero zero' topo.length nNE (explodeCoordW coords topo nNE) (explodeTopoW topo.length nNE)
    (explodeDataW topo.length data nNE)

/-- `explode_mesh_bulk`, utils.py 595-627, for given schedules. -/
def explodeWith (zero : α) (nE nNE : Nat) (wc : List (Nat × Option α)) (wt : List ((Nat × Nat) × Nat)) :
    Option (List α × Topo) :=
  match arrayOf zero (nE * nNE) wc with
  | some c => some (c, toRows nE nNE (runW wt fun _ => 0))
  | none => none

/-- `explode_mesh_bulk`, utils.py 595-627. -/
def explode (zero : α) (coords : List α) (topo : Topo) (nNE : Nat) : Option (List α × Topo) :=
  explodeWith zero topo.length nNE (explodeCoordW coords topo nNE) (explodeTopoW topo.length nNE)

/-- The assignments of `decompose`, utils.py 684-692: `coords_out[topo[iE][jNE]] = ecoords[iE][jNE]`; `none` if
`ecoords` has no such entry. Works for ragged topologies. -/
def decomposeW (ecoords : List (List α)) (topo : Topo) : Option (List (Nat × α)) :=
  (entriesOf topo).mapM fun e => (nodeAt ecoords e.cell e.pos).map fun v => (e.node, v)

/-- Running assignments on an array; an index out of range (not checked by the compiled code) is `none`. -/
def writeAll (w : List (Nat × α)) (out : List α) : Option (List α) :=
  if ∀ x ∈ w, x.1 < out.length then some (w.foldl (fun a x => a.set x.1 x.2) out) else none

/-- `decompose`, utils.py 684-692 (sequential schedule). -/
def decompose (ecoords : List (List α)) (topo : Topo) (out : List α) : Option (List α) :=
  decomposeW ecoords topo >>= fun w => writeAll w out

end

/-! ## nodal distribution factors -/

section
variable {K : Type} [Field K]

/-- `nodal_w`, utils.py 448-450 (csr: 421-423). The statement `nodal_w[topo[iE]] += w[iE]` adds the weight once to
every node of the row, even if the row repeats a node. -/
def nodalW (topo : Topo) (w : List K) : Nat → K :=
  (topo.zip w).foldl (fun m x n => if n ∈ x.1 then m n + x.2 else m n) fun _ => 0

/-- `_nodal_distribution_factors_dense_`, utils.py 433-453; rows may have different lengths. `topo.max()` raises for
an empty topology. -/
def ndf (topo : Topo) (w : List K) : Option (List (List K)) :=
  if topo.flatten = [] ∨ w.length < topo.length then none
  else some (List.zipWith (fun row wi => row.map fun n => wi / nodalW topo w n) topo w)

/-- `data[a:b]`. -/
def slice {α : Type} (data : List α) (a b : Nat) : List α := (data.drop a).take (b - a)

/-- The rows stored in a csr matrix. -/
def csrRows {α : Type} (data : List α) (indptr : List Nat) : List (List α) :=
  (List.range (indptr.length - 1)).map fun i => slice data (indptr.getD i 0) (indptr.getD (i + 1) 0)

/-- The assignments `factors[i] = w[iE] / nodal_w[data[i]]`, utils.py 424-430. -/
def ndfCsrW (data : List Nat) (indptr : List Nat) (w : List K) : List (Nat × K) :=
  (List.range (indptr.length - 1)).flatMap fun iE =>
    (List.range (indptr.getD (iE + 1) 0 - indptr.getD iE 0)).map fun j =>
      (indptr.getD iE 0 + j, w.getD iE 0 / nodalW (csrRows data indptr) w (data.getD (indptr.getD iE 0 + j) 0))

/-- `_nodal_distribution_factors_csr_`, utils.py 403-430, for a given schedule of its second loop. -/
def ndfCsrWith (data : List Nat) (indptr : List Nat) (w : List K) (sched : List (Nat × K)) : Option (List K) :=
  if data = [] ∨ w.length < indptr.length - 1 then none else some (toArr data.length (runW sched fun _ => 0))

/-- The row pointers of a csr matrix with the given rows. -/
def rowPtr {α : Type} (rows : List (List α)) : List Nat :=
  (List.range (rows.length + 1)).map fun i => (rows.take i).flatten.length

end

/-! ## distributing and collecting -/

section
variable {K M : Type} [Field K] [AddCommGroup M] [Module K M]

/-- `distribute_nodal_data_bulk`, utils.py 492-519: `data[topo[iE, jNE]] * ndf[iE, jNE]`. A row of `data` is an
element of `M` (a scalar, or a vector). -/
def distribute (data : List M) (topo : Topo) (ndf : List (List K)) : Option (List (List M)) :=
  topo.zipIdx.mapM fun x => x.1.zipIdx.mapM fun y =>
    data[y.1]? >>= fun v => (nodeAt ndf x.2 y.2).map fun f => f • v

/-- `CellData.pull` without factors, celldata.py 340-350: factors of one. -/
def pullCells (data : List M) (topo : Topo) : Option (List (List M)) :=
  distribute data topo (topo.map (List.map fun _ => (1 : K)))

/-- A run of `res[n] += v`. -/
def addW (w : List (Nat × M)) (m : Nat → M) : Nat → M :=
  w.foldl (fun m x => Function.update m x.1 (m x.1 + x.2)) m

/-- The additions of `collect_nodal_data`, utils.py 558-592: `celldata[iE, jNE] * ndf_e[jNE]` to node
`topo[iE, jNE]`, where `ndf_e` is row `cids[iE]` of the factors. -/
def collectW (celldata : List (List M)) (topo : Topo) (cids : List Nat) (ndf : List (List K)) :
    Option (List (Nat × M)) :=
  (entriesOf topo).mapM fun e => cids[e.cell]? >>= fun c => nodeAt ndf c e.pos >>= fun f =>
    (nodeAt celldata e.cell e.pos).map fun v => (e.node, f • v)

/-- A block of cells: ids, topology, and data on the nodes of the cells. -/
structure CBlock (M : Type) where
  ids : List Nat
  topo : Topo
  data : List (List M)

/-- The additions of all blocks, in the order of the blocks. -/
def pullW (blocks : List (CBlock M)) (ndf : List (List K)) : Option (List (Nat × M)) :=
  (blocks.mapM fun b => collectW b.data b.topo b.ids ndf).map List.flatten

/-- `PointData.pull` with given factors, pointdata.py 240-264, for a mesh of `nP` points and a non-empty list of
blocks. (Scalars per cell are repeated for the nodes first: `cellScalars`.) -/
def pullPoints (nP : Nat) (blocks : List (CBlock M)) (ndf : List (List K)) : Option (List M) :=
  match pullW blocks ndf with
  | none => none
  | some w => if blocks = [] ∨ ¬ (∀ x ∈ w, x.1 < nP) then none else some (toArr nP (addW w fun _ => 0))

/-- `np.repeat(celldata, nNE).reshape(nE, nNE)`, pointdata.py 250-252. -/
def cellScalars (topo : Topo) (d : List M) : List (List M) := List.zipWith (fun r v => r.map fun _ => v) topo d

/-- `PointData.pull` with the factors computed by default, pointdata.py 239-241 and polydata.py 1711-1728: the
rows of the factors are those of `topology()`, the topologies of the blocks stacked in the order of the walk.
`w` are the volumes of the cells in that order. -/
def pullDefault (nP : Nat) (blocks : List (CBlock M)) (w : List K) : Option (List M) :=
  match ndf (blocks.flatMap fun b => b.topo) w with
  | none => none
  | some f => pullPoints nP blocks f

end

/-! ## averages -/

section
variable {K : Type} [Field K]

/-- `np.mean(coords[:, i])`. -/
def colMean (coords : List (List K)) (i : Nat) : K := (coords.map fun r => r.getD i 0).sum / (coords.length : Nat)

/-- `cell_center`, utils.py 345-364, `center_of_points`, utils.py 800-813; `nD` is `coords.shape[1]`. -/
def centerOf (coords : List (List K)) (nD : Nat) : List K := (List.range nD).map (colMean coords)

/-- `_avg_cell_data_1d_bulk_`, utils.py 695-706: sums over the nodes of each cell, divided by `nNE`. -/
def avgCell (data : List (List K)) (nD : Nat) (row : List Nat) : Option (List K) :=
  (row.mapM fun n => data[n]?).map fun rs =>
    (rs.foldl (fun acc r => (List.range nD).map fun k => acc.getD k 0 + r.getD k 0) (List.replicate nD 0)).map
      fun x => x / (row.length : Nat)

/-- `avg_cell_data`, utils.py 709-713: `nR` is the number of dimensions of the data array; anything but 2 leaves the
result unbound. -/
def avgCellData (nR : Nat) (data : List (List K)) (nD : Nat) (topo : Topo) : Option (List (List K)) :=
  if nR = 2 then topo.mapM fun row => avgCell data nD row else none

/-- `centralize`, utils.py 816-832: columns 0 and 1 always (`IndexError` for one column), column 2 if there is one. -/
def centralize (coords : List (List K)) (nD : Nat) : Option (List (List K)) :=
  if nD < 2 then none
  else some (coords.map fun r => r.zipIdx.map fun x => if x.2 < 3 then x.1 - colMean coords x.2 else x.1)

/-- `_centralize_cells_coords_`, utils.py 242-250, one cell. -/
def centralizeCell (ecoords : List (List K)) (nD : Nat) : List (List K) :=
  ecoords.map fun r => List.zipWith (fun a b => a - b) r (centerOf ecoords nD)

/-- `_centralize_cells_coords_`, utils.py 242-250. -/
def centralizeCells (ecoords : List (List (List K))) (nD : Nat) : List (List (List K)) :=
  ecoords.map fun e => centralizeCell e nD

end

end PM
