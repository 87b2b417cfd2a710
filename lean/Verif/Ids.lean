import Mathlib.Data.List.Nodup
import Mathlib.Data.List.Basic
import Mathlib.Tactic.Linarith

/-!
# Identifiers of cells

`IndexManager` (polydata.py 2283-2326), the ids that blocks get and give back when they join and leave a mesh tree
(polydata.py 172-237, 2263-2277), and the lookup of blocks (polydata.py 458-499).

Ids are integers (`next` may decrease). The tree (`DeepDict` of another library) is represented by the list of its blocks
with their paths; assigning to a key calls `__join_parent__` of the assigned block only, deleting a key calls
`__leave_parent__` of the deleted block only, and everything beneath goes with it.
-/

namespace PM

/-- `IndexManager`, polydata.py 2283-2291. -/
structure IM where
  queue : List Int := []
  next : Int := 0
deriving DecidableEq

/-- `range(a, a + n)`. -/
def rangeI (a : Int) (n : Nat) : List Int := (List.range n).map fun (k : Nat) => a + k

/-- `IndexManager.generate`, polydata.py 2299-2319 (a single id is a list of one here). -/
def IM.generate (m : IM) (n : Nat) : List Int × IM :=
  let nQ := m.queue.length
  if 0 < nQ then
    if n = 1 then ([m.queue.getLastD 0], { m with queue := m.queue.dropLast })
    else if nQ ≥ n then (m.queue.take n, ⟨m.queue.drop n, m.next + ((n : Int) - nQ)⟩)
    else (m.queue ++ rangeI m.next (n - nQ), ⟨[], m.next + ((n : Int) - nQ)⟩)
  else (rangeI m.next n, { m with next := m.next + n })

/-- `IndexManager.recycle`, polydata.py 2321-2326. -/
def IM.recycle (m : IM) (ids : List Int) : IM := { m with queue := m.queue ++ ids }

/-! ## histories of the manager -/

/-- An operation on a manager. -/
inductive IdOp
  | gen (n : Nat)
  | back (ids : List Int)

/-- The manager with the ids in use. -/
structure IdState where
  m : IM := {}
  live : List Int := []

/-- One operation. Recycled ids are no longer in use. -/
def IdOp.step (st : IdState) : IdOp → IdState
  | .gen n => ⟨(st.m.generate n).2, st.live ++ (st.m.generate n).1⟩
  | .back ids => ⟨st.m.recycle ids, st.live.filter fun i => !ids.contains i⟩

/-- A history. -/
def runIds (st : IdState) (ops : List IdOp) : IdState := ops.foldl IdOp.step st

/-! ## blocks of a mesh tree -/

/-- A block of cells in the tree: its path and the ids of its cells. -/
structure IdBlock where
  path : List Nat
  ids : List Int
deriving DecidableEq

/-- A mesh tree: the manager of the root (`root().cim`) and the blocks. -/
structure CTree where
  m : IM := {}
  blocks : List IdBlock := []

/-- Operations on a tree. -/
inductive TreeOp
  /-- Assigns a block with `n` cells and nothing beneath it to a path. -/
  | add (path : List Nat) (n : Nat)
  /-- Deletes the block at a path with everything beneath. -/
  | del (path : List Nat)
  /-- Assigns a mesh that was built before, a root with `n` cells and blocks beneath it with `ns` cells, to a path. -/
  | graft (path : List Nat) (n : Nat) (ns : List Nat)

/-- Ids of the blocks of a mesh built separately: `__init__` (polydata.py 213-220) takes ids for the root of the
mesh, `__join_parent__` for each of the others from the same manager. -/
def buildIds (m : IM) : List Nat → List (List Int)
  | [] => []
  | n :: ns => (m.generate n).1 :: buildIds (m.generate n).2 ns

/-- Blocks beneath a path. -/
def nested (path : List Nat) (l : List (List Int)) : List IdBlock := l.zipIdx.map fun q => ⟨path ++ [q.2], q.1⟩

/-- One operation. `__join_parent__`, polydata.py 2263-2270: only the assigned block itself gets new ids.
`__leave_parent__`, polydata.py 2272-2277: only the deleted block itself recycles its ids. -/
def TreeOp.step (t : CTree) : TreeOp → CTree
  | .add path n => ⟨(t.m.generate n).2, t.blocks ++ [⟨path, (t.m.generate n).1⟩]⟩
  | .del path =>
    ⟨t.m.recycle ((t.blocks.filter fun b => b.path == path).flatMap IdBlock.ids),
      t.blocks.filter fun b => !path.isPrefixOf b.path⟩
  | .graft path n ns =>
    ⟨(t.m.generate n).2, t.blocks ++ ⟨path, (t.m.generate n).1⟩ :: nested path (buildIds {} (n :: ns)).tail⟩

/-- A history of a tree, from an empty root. -/
def runTree (ops : List TreeOp) : CTree := ops.foldl TreeOp.step {}

/-! ## blocks of cells -/

/-- The dictionary from cell ids to block numbers, `_create_mappers_`, polydata.py 481-499, as the list of assignments. -/
def cidToBid (blocks : List IdBlock) : List (Int × Nat) :=
  blocks.zipIdx.flatMap fun q => q.1.ids.map fun c => (c, q.2)

/-- Lookup in a dictionary built by assignments: the last one counts. -/
def dictGet {α β : Type} [BEq α] (d : List (α × β)) (a : α) : Option β := (d.reverse.find? fun q => q.1 == a).map Prod.snd

/-- `blocks_of_cells(i)`, polydata.py 458-479, as the list of answers for the given ids (the result is a dictionary with
these entries). Concatenating no arrays fails, unknown ids fail. The stored mappers (`_cid2bid`) are the same
dictionaries, if the tree did not change since. -/
def blocksOfCells (blocks : List IdBlock) (cids : List Int) : Option (List (Int × IdBlock)) :=
  if blocks.isEmpty then none else
  cids.mapM fun c => (dictGet (cidToBid blocks) c).bind fun bid => (blocks[bid]?).map fun b => (c, b)

end PM
