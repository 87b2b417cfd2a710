import Verif.Ids
import Mathlib.Data.List.Perm.Basic
import Mathlib.Data.List.Dedup

/-!
# Locked meshes, stored mappers and renumbered cells

`PolyData.lock`, `unlock`, `blocks_of_cells` with stored mappers (polydata.py 420-479) and the numbering of cells by
`to_standard_form` (polydata.py 1114-1120), on the trees of `Verif/Ids.lean`.

That a locked tree refuses to set and to delete items is what the documentation says (polydata.py 422-426); the check is part of
`DeepDict`, another library, and is trusted. The mesh is the root; other objects refuse mappers (polydata.py 462, 487).
Stored blocks are references: they are named by their paths, which cannot change while the mesh is locked.
-/

namespace PM

/-- A mesh with its lock and its mappers. `maps`: the blocks and their cells at the time the mappers were made. -/
structure LMesh where
  tree : CTree := {}
  locked : Bool := false
  maps : Option (List IdBlock) := none

/-- Operations. -/
inductive LockOp
  /-- Setting or deleting a block. -/
  | edit (op : TreeOp)
  /-- `lock(create_mappers=mappers)`. -/
  | lock (mappers : Bool)
  | unlock
  /-- `to_standard_form()`; `walk`: the blocks in the order of `cellblocks`. -/
  | standard (walk : List IdBlock)

/-- `to_standard_form`, polydata.py 1114-1120: the cells get numbers of a new manager, block after block. -/
def renumbered (walk : List IdBlock) : List IdBlock :=
  List.zipWith (fun (b : IdBlock) (ids : List Int) => ⟨b.path, ids⟩) walk (buildIds {} (walk.map fun b => b.ids.length))

/-- One operation; `none` is an exception.
* edit: refused by a locked mesh.
* lock, polydata.py 437-441: existing mappers are kept; `np.concatenate` of no arrays raises (polydata.py 496).
* unlock, polydata.py 453-455.
* standard: polydata.py 1116 raises without cells. Neither the manager of the mesh nor the mappers are touched. A list that is no
  enumeration of the blocks is no walk. -/
def LockOp.step (s : LMesh) : LockOp → Option LMesh
  | .edit op => if s.locked then none else some { s with tree := TreeOp.step s.tree op }
  | .lock false => some { s with locked := true }
  | .lock true =>
    match s.maps with
    | some _ => some { s with locked := true }
    | none => if s.tree.blocks.isEmpty then none else some { s with locked := true, maps := some s.tree.blocks }
  | .unlock => some { s with locked := false, maps := none }
  | .standard walk =>
    if s.tree.blocks.isEmpty || !walk.isPerm s.tree.blocks then none
    else some { s with tree := { s.tree with blocks := renumbered walk } }

/-- A history; an operation that raises changes nothing. -/
def runLock (ops : List LockOp) : LMesh := ops.foldl (fun s op => (op.step s).getD s) {}

/-- `blocks_of_cells(cids)`, polydata.py 463-479: the paths of the blocks. -/
def lookup (s : LMesh) (cids : List Int) : Option (List (Int × List Nat)) :=
  (blocksOfCells (s.maps.getD s.tree.blocks) cids).map fun r => r.map fun q => (q.1, q.2.path)

/-- `blocks_of_cells()`, polydata.py 474-475: all keys of the dictionary (in some order). -/
def lookupAll (s : LMesh) : Option (List (Int × List Nat)) :=
  lookup s ((cidToBid (s.maps.getD s.tree.blocks)).map Prod.fst).dedup

end PM
