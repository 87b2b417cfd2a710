import Verif.Exchange
import Verif.Elevate
import Verif.Grid

/-!
# Model: the constructors of meshes

`PolyData.__init__` (polydata.py 157-167 and 239-292), `TriMesh.__init__` (trimesh.py 62-88), `TetMesh.__init__` (tetmesh.py 21-30),
`LineData.__init__` (linedata.py 20-36), `Grid.__init__` (grid.py 625-630), as far as the points, the cells and their class are concerned, and the
empty mesh that `__copy__` (polydata.py 294-314) begins with. Coordinates are stored as they are given (frames: `FrameMesh`).
-/

namespace PM

/-- `PolyData._cell_classes_`, polydata.py 157-167. -/
def polyClasses : List (Nat × CellClass) :=
  [(2, ⟨"L2", some 3, 2, 1⟩), (3, ⟨"T3", some 5, 3, 2⟩), (4, ⟨"Q4", some 9, 4, 2⟩), (6, ⟨"W6", some 13, 6, 3⟩), (8, ⟨"H8", some 12, 8, 3⟩),
   (9, ⟨"Q9", some 28, 9, 2⟩), (10, ⟨"TET10", some 24, 10, 3⟩), (18, ⟨"W18", some 32, 18, 3⟩), (27, ⟨"H27", some 29, 27, 3⟩)]

/-- `TriMesh._cell_classes_`, trimesh.py 62-65. -/
def triClasses : List (Nat × CellClass) := [(3, ⟨"T3", some 5, 3, 2⟩), (6, ⟨"T6", some 22, 6, 2⟩)]

/-- `LineData._cell_classes_`, linedata.py 20-23. -/
def lineClasses : List (Nat × CellClass) := [(2, ⟨"L2", some 3, 2, 1⟩), (3, ⟨"L3", none, 3, 1⟩)]

/-- A new mesh: its points, and the class and the nodes of its cells. -/
structure NewMesh (P ι : Type) where
  points : Option (List P)
  cells : Option (CellClass × List (List ι))
deriving DecidableEq

/-- The argument `celltype`. -/
inductive TypeArg where
  | absent
  | int
  | cls (c : CellClass)
  | otherClass
deriving DecidableEq

/-- An array of node numbers: the number of its columns and its rows. -/
abbrev TopoArg (ι : Type) := Nat × List (List ι)

/-- The class of the cells, polydata.py 256-262; `None` and other classes are a `TypeError`. -/
def cellClassOf (table : List (Nat × CellClass)) (w : Nat) : TypeArg → Option CellClass
  | .absent => getKey table w
  | .int => none
  | .cls c => some c
  | .otherClass => none

/-- `PolyData(coords=coords, topo=topo, celltype=celltype)`, polydata.py 241-292; `table` is `_cell_classes_` of the class of the mesh. -/
def buildMesh {P ι : Type} (table : List (Nat × CellClass)) (coords : Option (List P)) (topo : Option (TopoArg ι)) (celltype : TypeArg) :
    Option (NewMesh P ι) :=
  match topo with
  | none => some ⟨coords, none⟩
  | some t => (cellClassOf table t.1 celltype).map fun c => ⟨coords, some (c, t.2)⟩

section
variable {K : Type} [Field K]

/-- The points and triangles `TriMesh` goes on with, trimesh.py 69-75; `tri` stands for `triangulate` with the other arguments. -/
def triArgs (tri : Option (List (V3 K)) → Option (List (V3 K) × Topo)) (points : Option (List (V3 K))) (triangles : Option (TopoArg Nat)) :
    Option (Option (List (V3 K)) × TopoArg Nat) :=
  match triangles with
  | some t => some (points, t)
  | none => (tri points).map fun r => (some r.1, (3, r.2))

/-- The class `TriMesh` checks against, trimesh.py 76-84; `None` has no `NNODE`. -/
def triClass (w : Nat) : Option CellClass → Option CellClass
  | some c => some c
  | none => if w = 3 then some ⟨"T3", some 5, 3, 2⟩ else if w = 6 then some ⟨"T6", some 22, 6, 2⟩ else none

/-- trimesh.py 85-86. -/
def triElevate (c : CellClass) (points : Option (List (V3 K))) (t : TopoArg Nat) : Option (Option (List (V3 K)) × TopoArg Nat) :=
  if t.1 = 3 ∧ c.nnode = 6 then (points.bind fun x => t3ToT6 x t.2).map fun r => (some r.1, (6, r.2)) else some (points, t)

/-- `TriMesh(points=, triangles=, coords=, topo=, celltype=)`, trimesh.py 67-88. `coords` and `topo` stay among the keyword arguments, which
are a `TypeError` in the call of the parent (88). The class is not handed on. -/
def triMesh (tri : Option (List (V3 K)) → Option (List (V3 K) × Topo)) (points coords : Option (List (V3 K)))
    (triangles topo : Option (TopoArg Nat)) (celltype : Option CellClass) : Option (NewMesh (V3 K) Nat) :=
  (triArgs tri (points.or coords) (triangles.or topo)).bind fun a =>
    (triClass a.2.1 celltype).bind fun c =>
      (triElevate c a.1 a.2).bind fun b =>
        if b.2.1 ≠ c.nnode then none
        else if coords.isSome || topo.isSome then none
        else buildMesh triClasses b.1 (some b.2) .absent

/-- `TetMesh(coords=, topo=, celltype=)`, tetmesh.py 21-30. -/
def tetMesh (coords : Option (List (V3 K))) (topo : Option (TopoArg Nat)) (celltype : TypeArg) : Option (NewMesh (V3 K) Nat) :=
  match celltype, topo with
  | .absent, some t => if t.1 = 4 then buildMesh polyClasses coords topo (.cls ⟨"TET4", some 10, 4, 3⟩) else none
  | .absent, none => none
  | ct, t => buildMesh polyClasses coords t ct

/-- `Grid(..., celltype=, eshape=)`, grid.py 625-630; the arrays have as many columns as the first row. -/
def gridMesh (a : GridArgs K) (eshape : EShape) (path : Option (List Nat)) (celltype : TypeArg) : Option (NewMesh (List K) Int) :=
  (grid a eshape path).bind fun g =>
    buildMesh polyClasses (some g.1) (some ((g.2.head?.map List.length).getD 0, g.2)) celltype

/-- The areas of the cells after the constructor of `LineData`, linedata.py 25-36: `stored` are those of the cells so far, `n` is their number. An
array of another length is an error of awkward. -/
def lineAreas (n : Nat) (_stored areas : Option (List K)) : Option (List K) :=
  match areas with
  | none => some (List.replicate n 1)
  | some a => if a.length = n then some a else none

/-- The classes of meshes. -/
inductive MeshKind where
  | poly
  | line
  | tri
  | tet
  | grid
deriving DecidableEq

/-- `cls(frame=frame)`, polydata.py 312, the beginning of every copy. `triangulate` without points and size is an `AssertionError` (triang.py
102-106), `grid` without arguments has no number of dimensions (grid.py 106-111). -/
def emptyMesh (K : Type) [Field K] : MeshKind → Option Unit
  | .poly => (buildMesh (P := V3 K) (ι := Nat) polyClasses none none .absent).map fun _ => ()
  | .line => (buildMesh (P := V3 K) (ι := Nat) lineClasses none none .absent).map fun _ => ()
  | .tri => (triMesh (K := K) (fun _ => none) none none none none none).map fun _ => ()
  | .tet => (tetMesh (K := K) none none .absent).map fun _ => ()
  | .grid => (gridMesh (K := K) {} .absent none .absent).map fun _ => ()

end

end PM
