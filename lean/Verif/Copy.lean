import Verif.Walk
import Verif.Cloud

/-!
# Copies of meshes

`PolyData.__copy__` and `__deepcopy__` (polydata.py 294-359) with `PointData.__copy__` (pointdata.py 117-142) and
`CellData.__copy__` (celldata.py 141-166). Blocks refer to their points by places in a store (`Walk`), because the cells keep a
reference to the points as well. The records of the library `awkward` are values: assigning a field to a copy does not change
the original. A deep copy has a memo, the list of the points that were copied already.
-/

namespace PM

section
variable {P D : Type}

/-- The store of points and the memo of a deep copy. -/
structure CopyState (P D : Type) where
  st : List (PData P D)
  memo : List (Nat × Nat)

/-- `copy(pd)` or `deepcopy(pd, memo)`, pointdata.py 114-142. -/
def copyPts (deep : Bool) (s : CopyState P D) (h : Nat) : Option (CopyState P D × Nat) :=
  match (if deep then s.memo.lookup h else none) with
  | some h' => some (s, h')
  | none => (s.st[h]?).map fun q => (⟨s.st ++ [q], (h, s.st.length) :: s.memo⟩, s.st.length)

/-- The points of a block, polydata.py 317-318 and 335-336. -/
def copyOptPts (deep : Bool) (s : CopyState P D) : Option Nat → Option (CopyState P D × Option Nat)
  | none => some (s, none)
  | some h => (copyPts deep s h).map fun r => (r.1, some r.2)

/-- The points that the copied cells refer to, celldata.py 148-156: those in the memo, otherwise a copy. A shallow copy of cells
that refer to a mesh copies the mesh, which copies the cells, and so on. -/
def copyRef (deep : Bool) (s : CopyState P D) : PRef → Option (CopyState P D × PRef)
  | .nothing => some (s, .nothing)
  | .mesh => if deep then some (s, .mesh) else none
  | .points h => (copyPts deep s h).map fun r => (r.1, .points r.2)

/-- The reference of the cells of a block, if it has cells. -/
def copyCellRef (deep : Bool) (s : CopyState P D) (b : HBlock D) : Option (CopyState P D × PRef) :=
  if b.cells.isSome then copyRef deep s b.ref else some (s, .nothing)

/-- The block the copy is made of, polydata.py 303-327: points and cells are copied and assigned. -/
def copySelf (deep : Bool) (s : CopyState P D) (b : HBlock D) : Option (CopyState P D × HBlock D) :=
  (copyOptPts deep s b.pts).bind fun r => (copyCellRef deep r.1 b).map fun t => (t.1, ⟨[], r.2, b.cells, t.2⟩)

/-- New ids for points: the constructor of the block, polydata.py 218-226. -/
def renumber (st : List (PData P D)) (h : Nat) : List (PData P D) := st.modify h fun q => { q with id := List.range q.x.length }

/-- The topology after the constructor, polydata.py 219-222: a block with points and cells rewires its cells, with the ids of the
points as the map from places to numbers. -/
def ctorTopo (st : List (PData P D)) (pts : Option Nat) (c : CData D) : Option Topo :=
  match pts with
  | none => some c.topo
  | some h => (st[h]?).bind fun q => rewire c.topo (.arr q.id) true

/-- The store after the constructor. -/
def ctorStore (st : List (PData P D)) : Option Nat → List (PData P D)
  | none => st
  | some h => renumber st h

/-- The points of the cells after the constructor (polydata.py 228-237) and `__join_parent__` (2268-2269). -/
def joinRef (acc : List (HBlock D)) (path : List Nat) : Option Nat → Option Nat
  | some h => some h
  | none => sourceRef acc path

/-- A block beneath, polydata.py 329-357: copies of its points and cells are given to the constructor of a new block (204-237),
which rewires the cells, gives new ids to the points, and refers the cells to the points of the block or to nothing. Then the
block is assigned to the copy (`__join_parent__`, 2263-2270): its cells get ids and, if they refer to nothing, the points of the
closest block above; without such a block an exception is raised. `acc` are the blocks of the copy so far. -/
def copyChild (deep : Bool) (s : CopyState P D) (acc : List (HBlock D)) (next : Nat) (b : HBlock D) :
    Option (CopyState P D × HBlock D) :=
  (copyOptPts deep s b.pts).bind fun r => (copyCellRef deep r.1 b).bind fun t =>
    match b.cells with
    | none => some (⟨ctorStore t.1.st r.2, t.1.memo⟩, ⟨b.path, r.2, none, .nothing⟩)
    | some c => (ctorTopo t.1.st r.2 c).bind fun topo => (joinRef acc b.path r.2).map fun h =>
        (⟨ctorStore t.1.st r.2, t.1.memo⟩, ⟨b.path, r.2, some { c with topo := topo, id := List.range' next c.topo.length }, .points h⟩)

/-- The number of cells of a block. -/
def HBlock.ncells (b : HBlock D) : Nat := (b.cells.map fun c => c.topo.length).getD 0

/-- The loop over the blocks beneath, polydata.py 329-357. -/
def copyChildren (deep : Bool) : CopyState P D → List (HBlock D) → Nat → List (HBlock D) → Option (CopyState P D × List (HBlock D))
  | s, acc, _, [] => some (s, acc)
  | s, acc, next, b :: bs => (copyChild deep s acc next b).bind fun r =>
      copyChildren deep r.1 (acc ++ [r.2]) (next + b.ncells) bs

/-- `copy` (`deep` false) and `deepcopy` of the root of a mesh: the store and the copy. -/
def copyTree (deep : Bool) (st : List (PData P D)) (m : List (HBlock D)) : Option (List (PData P D) × List (HBlock D)) :=
  (m.find? fun b => b.path = []).bind fun b => (copySelf deep ⟨st, []⟩ b).bind fun r =>
    (copyChildren deep r.1 [r.2] 0 (m.filter fun b => b.path ≠ [])).map fun t => (t.1.st, t.2)

/-- A block and the blocks beneath it, with their paths as seen from the block (`addr[l0:]`, polydata.py 330-349). -/
def subBlocks (m : List (HBlock D)) (p : List Nat) : List (HBlock D) :=
  (m.filter fun b => p <:+ b.path).map fun b => { b with path := relPath p b.path }

/-- `copy` and `deepcopy` of the block at path `p`. -/
def copyMesh (deep : Bool) (st : List (PData P D)) (m : List (HBlock D)) (p : List Nat) :
    Option (List (PData P D) × List (HBlock D)) := copyTree deep st (subBlocks m p)

end

/-- The frame of a copy, polydata.py 303-311, pointdata.py 122-131: `frame_cls(axes)`, for a frame without a parent. -/
def copyFrame {K : Type} [Field K] (F : CFrame K) : CFrame K := { F with origo := 0 }

end PM
