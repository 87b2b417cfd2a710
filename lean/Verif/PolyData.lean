import Verif.Topo
import Verif.Geom

/-!
# Meshes as trees of blocks

`PolyData` (polydata.py): source of a block, `rewire`, `to_standard_form`, `nummrg`, rigid motions.

The tree (a `DeepDict` of another library) is represented by the list of its blocks in preorder, the order in which
`blocks(inclusive=True)` (866-891) yields them: the root first. The path of a block is written innermost key first, so the
path of the parent is the tail and the root has the empty path. Names of data fields are numbers.
-/

namespace PM

/-- A reference frame of the library `neumann`, seen as a change of coordinates: coordinates in the frame to coordinates in
ambient space and back. -/
structure Fr (P : Type) where
  toAmb : P → P
  toLoc : P → P

/-- The two changes of coordinates are inverse to each other (contract of `neumann`). -/
def Fr.Valid {P : Type} (F : Fr P) : Prop := ∀ x, F.toLoc (F.toAmb x) = x ∧ F.toAmb (F.toLoc x) = x

/-- The ambient frame. -/
def Fr.ambient {P : Type} : Fr P := ⟨id, id⟩

/-- `PointCloud(x, frame=F).show(target)`: pointcloud.py 353-387 (`target` `None`: ambient space). -/
def Fr.shown {P : Type} (F : Fr P) (target : Option (Fr P)) (x : P) : P :=
  match target with
  | some T => T.toLoc (F.toAmb x)
  | none => F.toAmb x

/-- The point related data of a block (`PointData`, pointdata.py 38-115): coordinates, ids, other fields. -/
structure PData (P D : Type) where
  x : List P
  id : List Nat
  fields : Nat → Option (List D)

/-- The cell related data of a block (`CellData`): topology, ids, other fields. -/
structure CData (D : Type) where
  topo : Topo
  id : List Nat
  fields : Nat → Option (List D)

/-- A block of a mesh. `frame` is `PolyData.frame` (956-971), the frame that belongs to its points. -/
structure MBlock (P D : Type) where
  path : List Nat
  frame : Fr P
  pts : Option (PData P D)
  cells : Option (CData D)

section
variable {P D : Type}

/-- The block at a path. -/
def blockAt (m : List (MBlock P D)) (p : List Nat) : Option (MBlock P D) := m.find? fun b => b.path = p

/-- The block at a path if it has points: `is_source`, polydata.py 832-844. -/
def ptsAt (m : List (MBlock P D)) (p : List Nat) : Option (PData P D) := (blockAt m p).bind MBlock.pts

/-- The points a block refers to: `self.source().pd`, polydata.py 846-864. -/
def sourceOf (m : List (MBlock P D)) : List Nat → Option (PData P D)
  | [] => ptsAt m []
  | k :: p => match ptsAt m (k :: p) with
    | some q => some q
    | none => sourceOf m p

/-! ## standard form -/

/-- `IndexManager.generate_np(n)` of a manager without recycled ids, as an array (2294-2298 and 2310-2318). A single id is
not an array: the setter of `PointData.id` rejects it (pointdata.py 216-219). -/
def freshIds (next n : Nat) : Option (List Nat) := if n = 1 then none else some (List.range' next n)

/-- New ids and root coordinates of the points of one block, polydata.py 1093-1095. -/
def stdPoints (root : Option (Fr P)) (next : Nat) (b : MBlock P D) (q : PData P D) : Option (MBlock P D) :=
  (freshIds next q.x.length).map fun id => { b with pts := some { q with id := id, x := q.x.map (b.frame.shown root) } }

/-- The loop over the point blocks, polydata.py 1092-1095. -/
def stdNumber (root : Option (Fr P)) : Nat → List (MBlock P D) → Option (List (MBlock P D))
  | _, [] => some []
  | next, b :: bs => match b.pts with
    | none => (stdNumber root next bs).map (b :: ·)
    | some q => (stdPoints root next b q).bind fun b' => (stdNumber root (next + q.x.length) bs).map (b' :: ·)

/-- The field `f` of a block with default values, polydata.py 1096-1100. -/
def fieldOr (dflt : D) (f : Nat) (q : PData P D) : List D := (q.fields f).getD (List.replicate q.x.length dflt)

/-- All point data of a mesh. -/
def allPts (m : List (MBlock P D)) : List (PData P D) := m.filterMap MBlock.pts

/-- The merged point data, polydata.py 1101-1107. The constructor of `PointData` stores the coordinates as seen from ambient
space (pointdata.py 77-88). -/
def stdMerged (root : Option (Fr P)) (dflt : Nat → D) (m : List (MBlock P D)) : PData P D where
  x := ((allPts m).flatMap PData.x).map fun p => match root with
    | some F => F.toAmb p
    | none => p
  id := (allPts m).flatMap PData.id
  fields f := if (allPts m).any fun q => (q.fields f).isSome then some ((allPts m).flatMap (fieldOr (dflt f) f)) else none

/-- `self.pointdata = ...` at the root, polydata.py 1105-1107. -/
def setRoot (q : PData P D) (m : List (MBlock P D)) : List (MBlock P D) :=
  m.map fun b => if b.path = [] then { b with pts := some q } else b

/-- All cell data of a mesh. -/
def allCells (m : List (MBlock P D)) : List (CData D) := m.filterMap MBlock.cells

/-- The loop over the cell blocks, polydata.py 1117-1124: `m` is the mesh the sources are looked up in, `known` tells which
fields occur in some block. -/
def stdCells (m : List (MBlock P D)) (dflt : Nat → D) (known : Nat → Bool) :
    Nat → List (MBlock P D) → Option (List (MBlock P D))
  | _, [] => some []
  | next, b :: bs => match b.cells with
    | none => (stdCells m dflt known next bs).map (b :: ·)
    | some c => (sourceOf m b.path).bind fun q => (rewire c.topo (.arr q.id) false).bind fun topo =>
      (stdCells m dflt known (next + c.topo.length) bs).map
        ({ b with cells := some ⟨topo, List.range' next c.topo.length, fun f =>
            if known f then some ((c.fields f).getD (List.replicate c.topo.length (dflt f))) else none⟩ } :: ·)

/-- Nested point data are released, polydata.py 1127-1128. -/
def stdFree (m : List (MBlock P D)) : List (MBlock P D) :=
  m.map fun b => if b.path = [] then b else { b with pts := none }

/-- `to_standard_form(inplace=True)`, polydata.py 1047-1129; `root` is `self._frame`. -/
def toStandardForm (root : Option (Fr P)) (dpf dcf : Nat → D) (m : List (MBlock P D)) : Option (List (MBlock P D)) :=
  (stdNumber root 0 m).bind fun m1 =>
    let m2 := setRoot (stdMerged root dpf m1) m1
    (stdCells m2 dcf (fun f => (allCells m).any fun c => (c.fields f).isSome) 0 m2).map stdFree

/-! ## rewiring and merging node numbers -/

/-- `b.rewire(imap=imap, deep=False)`, polydata.py 1026-1029 and cell.py 485-490. -/
def rewireBlock (imap : IMap) (b : MBlock P D) : Option (MBlock P D) :=
  match b.cells with
  | none => some b
  | some c => (rewire c.topo imap false).map fun t => { b with cells := some { c with topo := t } }

/-- `rewire(imap=imap)` called on the block with path `p` (`deep` is true by default): every cell block beneath it (and
itself) is rewired, polydata.py 1033-1038. -/
def rewireDeep (imap : IMap) (p : List Nat) (m : List (MBlock P D)) : Option (List (MBlock P D)) :=
  m.mapM fun b => if p <:+ b.path then rewireBlock imap b else some b

/-- `PolyData.topology()`: the cells of all blocks. -/
def meshTopo (m : List (MBlock P D)) : Topo := (allCells m).flatMap CData.topo

/-- The paths of `cellblocks(inclusive=True)` of the root. -/
def cellPaths (m : List (MBlock P D)) : List (List Nat) := (m.filter fun b => b.cells.isSome).map MBlock.path

/-- Rows of point data, `self.pd[inds]`. -/
def PData.rows (q : PData P D) (inds : List Nat) : Option (PData P D) :=
  (gather? q.x inds).bind fun x => (gather? q.id inds).map fun id =>
    ⟨x, id, fun f => (q.fields f).bind fun d => gather? d inds⟩

/-- `nummrg`, polydata.py 1307-1319. -/
def nummrg (m : List (MBlock P D)) : Option (List (MBlock P D)) :=
  (ptsAt m []).bind fun q => (q.rows (npUnique (meshTopo m).flatten)).bind fun q' =>
    let imap := IMap.dict (indsToInvmapAsDict q'.id)
    ((cellPaths m).foldlM (fun m p => rewireDeep imap p m) m).map
      (setRoot { q' with id := List.range q'.x.length })

/-! ## rigid motions -/

/-- Assignment of a coordinate array to the point data: `pointdata.x = value`, pointdata.py 207-210. Whether the library
`awkward` accepts an array of another length is left open (`strict`). -/
def assignX (strict : Bool) (q : PData P D) (x : List P) : Option (PData P D) :=
  if strict && x.length != q.x.length then none else some { q with x := x }

/-- The coordinates of all point blocks beneath a block: `points()`, polydata.py 1155-1165 (all in one frame). -/
def pointsBeneath (m : List (MBlock P D)) (p : List Nat) : List P :=
  (allPts (m.filter fun b => p <:+ b.path)).flatMap PData.x

/-- The cells beneath a block: `topology()`. -/
def topoBeneath (m : List (MBlock P D)) (p : List Nat) : Topo := meshTopo (m.filter fun b => p <:+ b.path)

/-- The path of the source of a block, polydata.py 846-864. -/
def sourcePath (m : List (MBlock P D)) : List Nat → Option (List Nat)
  | [] => if (ptsAt m []).isSome then some [] else none
  | k :: p => if (ptsAt m (k :: p)).isSome then some (k :: p) else sourcePath m p

/-- Replacement of the coordinates of the block at path `p`. -/
def setX (strict : Bool) (p : List Nat) (x : List P) (m : List (MBlock P D)) : Option (List (MBlock P D)) :=
  m.mapM fun b => if b.path = p then
    (match b.pts with
      | some q => (assignX strict q x).map fun q' => { b with pts := some q' }
      | none => none)
    else some b

/-- The points `move`, `rotate` and `spin` act on, polydata.py 1345-1353, 1383-1388, 1422-1427: those of the block if it is a
source, otherwise the used points of its source. -/
def movedPoints (m : List (MBlock P D)) (p : List Nat) : Option (List Nat × List P) :=
  (sourcePath m p).bind fun s =>
    if s = p then some (s, pointsBeneath m p)
    else (gather? (pointsBeneath m s) (npUnique (topoBeneath m p).flatten)).map fun x => (s, x)

/-- `move`, `rotate`: a motion `g` applied to these points and assigned to the source (1354, 1348, 1393). -/
def applyMotion (strict : Bool) (g : P → P) (p : List Nat) (m : List (MBlock P D)) : Option (List (MBlock P D)) :=
  (movedPoints m p).bind fun x => setX strict x.1 (x.2.map g) m

end

section
variable {K D : Type} [Field K]

/-- The mean of points: `PointCloud.center`, pointcloud.py 226-246. -/
def meshCenter (x : List (V3 K)) : V3 K :=
  ⟨(x.map V3.x).sum / x.length, (x.map V3.y).sum / x.length, (x.map V3.z).sum / x.length⟩

/-- `move(v)` with all frames ambient. -/
def moveMesh (strict : Bool) (v : V3 K) (p : List Nat) (m : List (MBlock (V3 K) D)) : Option (List (MBlock (V3 K) D)) :=
  applyMotion strict (fun x => x + v) p m

/-- `spin`, polydata.py 1428-1433: centring, rotation, moving back. -/
def spinMesh (strict : Bool) (R : V3 K → V3 K) (p : List Nat) (m : List (MBlock (V3 K) D)) :
    Option (List (MBlock (V3 K) D)) :=
  (movedPoints m p).bind fun x => setX strict x.1 (x.2.map fun y => R (y + -(meshCenter x.2)) + meshCenter x.2) m

/-- `centralize`, polydata.py 1604-1611 (the argument `axes` is not used by the code). -/
def centralizeMesh (_axes : Option (List Nat)) (p : List Nat) (m : List (MBlock (V3 K) D)) :
    Option (List (MBlock (V3 K) D)) :=
  (movedPoints m p).map fun x => m.map fun b => if x.1 <:+ b.path then
    { b with pts := b.pts.map fun q => { q with x := q.x.map fun y => y - meshCenter x.2 } } else b

end

end PM
