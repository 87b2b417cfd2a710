import Verif.CellData

/-!
# Pulling nodal data to cells

`CellData.pull` with factors in each of the accepted containers, and constant values of cells.
-/

namespace PM

section
variable {K M : Type} [Field K] [AddCommGroup M] [Module K M]

/-- The argument `ndf` of `CellData.pull`, celldata.py 314-316: missing, a dense array, or a csr matrix (values and
row pointers). -/
inductive Factors (K : Type) where
  | missing
  | dense (rows : List (List K))
  | csr (data : List K) (indptr : List Nat)

/-- `distribute_nodal_data_sparse`, utils.py 522-555: row `iE` is multiplied by row `cids[iE]` of the factors. Reading
beyond an array (undefined in compiled code) is `none`. -/
def distributeSparse (data : List M) (topo : Topo) (cids : List Nat) (ndfdata : List K) (indptr : List Nat) :
    Option (List (List M)) :=
  topo.zipIdx.mapM fun x => cids[x.2]? >>= fun c => indptr[c]? >>= fun a => indptr[c + 1]? >>= fun b =>
    x.1.zipIdx.mapM fun y => data[y.1]? >>= fun v => (slice ndfdata a b)[y.2]?.map fun f => f • v

/-- `CellData.pull`, celldata.py 314-350, for the values `data` of the points; a row of `data` is an element of `M`
(a scalar becomes a row of one number, line 343). `ids` is `self.id`. -/
def cellPull (data : List M) (topo : Topo) (ids : List Nat) : Factors K → Option (List (List M))
  | .missing => distribute data topo (topo.map (List.map fun _ => (1 : K)))
  | .dense F => distribute data topo F
  | .csr d p => distributeSparse data topo ids d p

/-- `homogenize_nodal_values`, utils.py 969-980: the sum over the nodes of a cell, divided by the measure of the cell.
A division by zero raises in compiled code. -/
def homogenize [DecidableEq K] (data : List (List M)) (measure : List K) : Option (List M) :=
  data.zipIdx.mapM fun x => measure[x.2]? >>= fun m => if m = 0 then none else some (m⁻¹ • x.1.sum)

end

end PM
