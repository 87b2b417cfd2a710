import Verif.Basic
import Verif.Walk

/-!
# Model: meshes of other libraries

`abcdata.py` 21-35, `helpers.py`, `polydata.py` 517-609 (`from_meshio`, `from_pv`), 1818-1853 (`to_vtk`), `vtkutils.py` 15-48.
-/

namespace PM

/-- A class of cells as the metaclass sees it: its name, `vtkCellType`, `NNODE` and `NDIM`. -/
structure CellClass where
  name : String
  vtk : Option Nat
  nnode : Nat
  ndim : Nat
deriving DecidableEq

/-- The classes with a number of nodes in an order of their definition: those of line.py, polygon.py, polyhedron.py before the ones of the package `cells`,
which import them. -/
def cellClasses : List CellClass :=
  [⟨"Line", some 3, 2, 1⟩, ⟨"QuadraticLine", none, 3, 1⟩, ⟨"Triangle", some 5, 3, 2⟩, ⟨"QuadraticTriangle", some 22, 6, 2⟩,
   ⟨"Quadrilateral", some 9, 4, 2⟩, ⟨"BiQuadraticQuadrilateral", some 28, 9, 2⟩, ⟨"TetraHedron", some 10, 4, 3⟩,
   ⟨"QuadraticTetraHedron", some 24, 10, 3⟩, ⟨"HexaHedron", some 12, 8, 3⟩, ⟨"TriquadraticHexaHedron", some 29, 27, 3⟩,
   ⟨"Wedge", some 13, 6, 3⟩, ⟨"BiquadraticWedge", some 32, 18, 3⟩,
   ⟨"L2", some 3, 2, 1⟩, ⟨"L3", none, 3, 1⟩, ⟨"T3", some 5, 3, 2⟩, ⟨"Q4", some 9, 4, 2⟩, ⟨"Q9", some 28, 9, 2⟩, ⟨"T6", some 22, 6, 2⟩,
   ⟨"H8", some 12, 8, 3⟩, ⟨"H27", some 29, 27, 3⟩, ⟨"TET4", some 10, 4, 3⟩, ⟨"TET10", some 24, 10, 3⟩, ⟨"W6", some 13, 6, 3⟩,
   ⟨"W18", some 32, 18, 3⟩]

section
variable {κ β : Type} [DecidableEq κ]

/-- `d[k] = v` for a dictionary in order of insertion. -/
def putKey (d : List (κ × β)) (k : κ) (v : β) : List (κ × β) :=
  if d.any fun p => p.1 = k then d.map fun p => if p.1 = k then (k, v) else p else d ++ [(k, v)]

/-- `d.get(k)`. -/
def getKey (d : List (κ × β)) (k : κ) : Option β := (d.find? fun p => p.1 = k).map Prod.snd

end

/-- The table `vtk_to_celltype` after the classes have been defined, abcdata.py 30-34: a class with an integer `vtkCellType` replaces an
earlier one. -/
def vtkTable (classes : List CellClass) : List (Nat × CellClass) :=
  classes.foldl (fun d c => match c.vtk with
    | some k => putKey d k c
    | none => d) []

/-- The table `meshio_to_celltype`, abcdata.py 34; `name` is `vtk_to_meshio_type` of meshio. -/
def meshioTable (name : Nat → String) (classes : List CellClass) : List (String × CellClass) :=
  classes.foldl (fun d c => match c.vtk with
    | some k => putKey d (name k) c
    | none => d) []

/-- `vtk_to_meshio_type` of meshio for the types of the classes. -/
def meshioName : Nat → String
  | 3 => "line"
  | 5 => "triangle"
  | 9 => "quad"
  | 10 => "tetra"
  | 12 => "hexahedron"
  | 13 => "wedge"
  | 22 => "triangle6"
  | 24 => "tetra10"
  | 28 => "quad9"
  | 29 => "hexahedron27"
  | 32 => "wedge18"
  | _ => ""

/-- `from_meshio`, polydata.py 527-550: the blocks of the new mesh with their keys, cells of other types are skipped. -/
def fromMeshio (table : List (String × CellClass)) (cells : List (String × Topo)) : List (String × CellClass × Topo) :=
  cells.foldl (fun d c => match getKey table c.1 with
    | some k => putKey d c.1 (k, c.2)
    | none => d) []

/-- `from_pv`, polydata.py 591-609: cells of other types are an error. -/
def fromPv (table : List (Nat × CellClass)) (cells : List (Nat × Topo)) : Option (List (Nat × CellClass × Topo)) :=
  cells.foldl (fun acc c => acc.bind fun d => (getKey table c.1).map fun k => putKey d c.1 (k, c.2)) (some [])

/-- The array of `mesh_to_vtkdata`, vtkutils.py 22-24, of a topology with `w` columns. -/
def vtkArray (w : Nat) (topo : Topo) : List Nat := (topo.map fun row => w :: row).flatten

/-- What `to_vtk` hands over for a block: the points, the cells, the type. -/
structure VtkGrid (P : Type) where
  points : List P
  ncells : Nat
  cells : List Nat
  type : Option Nat

/-- `mesh_to_UnstructuredGrid`, vtkutils.py 15-39; `none` if the topology is not an array with `w` columns. -/
def vtkGrid {P : Type} (x : List P) (topo : Topo) (w : Nat) (type : Option Nat) : Option (VtkGrid P) :=
  if topo.all fun row => row.length = w then some ⟨x, topo.length, vtkArray w topo, type⟩ else none

/-- The result of `to_vtk`. -/
inductive VtkResult (P : Type) where
  | multi (l : List (VtkGrid P))
  | list (l : List (VtkGrid P))
  | one (g : VtkGrid P)

/-- `to_vtk`, polydata.py 1838-1853; `cls` is the class of the cells of a block. -/
def toVtk {P D : Type} (cls : MBlock P D → CellClass) (m : List (MBlock P D)) (p : List Nat) (multiblock : Bool) : Option (VtkResult P) :=
  ((cellsUnder m p).mapM fun c => (detachBlock .nothing m c.1 c.2).bind fun r => vtkGrid r.1 r.2.1 (cls c.1).nnode (cls c.1).vtk).bind fun gs =>
    if multiblock then some (.multi gs)
    else match gs with
      | [] => none
      | [g] => some (.one g)
      | gs => some (.list gs)

end PM
