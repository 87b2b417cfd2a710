import Verif.Areas
import Verif.Cells
import Verif.Locate

/-!
# Cells as collections of simplices

polygon.py, polyhedron.py, cell.py 611-617, 788-793, 890-910, 957-968.
-/

namespace PM

/-- The classes of cells; `line` stands for all classes with one dimension. -/
inductive CellKind
  | line | T3 | T6 | Q4 | Q9 | TET4 | TET10 | H8 | H27 | W6 | W18
deriving DecidableEq

/-- `NDIM` of the classes. -/
def CellKind.ndim : CellKind → Nat
  | .line => 1
  | .T3 | .T6 | .Q4 | .Q9 => 2
  | _ => 3

/-- `trimap()` of the classes of polygons, polygon.py 27-29, 63-68, 92-94, 107-121; other classes have none. -/
def trimapOf : CellKind → Option (List (List Nat))
  | .T3 => some trimapT3
  | .T6 => some (trimapT6 true)
  | .Q4 => some trimapQ4
  | .Q9 => some trimapQ9
  | _ => none

/-- `to_triangles`, polygon.py 31-32, 70-71, 96-97, 123-124. -/
def toTriangles (k : CellKind) (topo : Topo) : Option Topo :=
  match k with
  | .T3 => some topo
  | .T6 => transformTopology topo pathT6T3 3 0
  | .Q4 => transformTopology topo pathQ4T3 3 0
  | .Q9 => (transformTopology topo pathQ9Q4 4 0).bind fun t => transformTopology t pathQ4T3 3 0
  | _ => none

/-- `tetmap()` of the classes of polyhedra, polyhedron.py 25-27, 44-49, 59-64, 82-87, 97-113. The one of `TET10` raises unless it is told
not to subdivide, `H27` has the one of `PolyCell3d`, which raises (cell.py 882-888). -/
def tetmapOf : CellKind → Option (List (List Nat))
  | .TET4 => some [[0, 1, 2, 3]]
  | .H8 => some pathH8TET4
  | .W6 => some pathW6TET4
  | .W18 => composeTrmap pathW18W6 pathW6TET4
  | _ => none

/-- `to_tetrahedra()`, polyhedron.py 29-32, cell.py 890-905. -/
def toTetrahedra (k : CellKind) (topo : Topo) : Option Topo :=
  match k with
  | .TET4 => some topo
  | _ => (tetmapOf k).bind fun m => transformTopology topo m 4 0

/-- `a.reshape(n, m, 4)` of an array with rows of length four. -/
def reshapeTets (n m : Nat) (rows : Topo) : Option (List Topo) :=
  if rows.length = n * m ∧ ∀ r ∈ rows, r.length = 4 then some ((List.range n).map fun i => (rows.drop (i * m)).take m) else none

/-- `to_tetrahedra(flatten=False)`, polyhedron.py 33-34, cell.py 907-910. -/
def toTetrahedraNested (k : CellKind) (topo : Topo) : Option (List Topo) :=
  match k with
  | .TET4 => reshapeTets topo.length 1 topo
  | _ => (tetmapOf k).bind fun m => (transformTopology topo m 4 0).bind fun t => reshapeTets topo.length m.length t

/-- `to_simplices`, cell.py 611-621. Cells with one dimension call the same method again; `fuel` is the depth of the stack, `none` its
overflow or any other error. -/
def toSimplices (fuel : Nat) (k : CellKind) (topo : Topo) : Option Topo :=
  match fuel with
  | 0 => none
  | fuel + 1 =>
    match k.ndim with
    | 1 => toSimplices fuel k topo
    | 2 => toTriangles k topo
    | _ => toTetrahedra k topo

/-- `PolyCell3d.volumes`, cell.py 957-968, which is the method of `TET4` and of the classes of polyhedron.py. The classes `TET10`, `H8`,
`H27`, `W6` and `W18` of the package `cells` replace it by quadrature (C38). -/
def volumes3d {K : Type} [Field K] [LinearOrder K] (k : CellKind) (coords : List (V3 K)) (topo : Topo) : Option (List K) :=
  (toTetrahedra k topo).bind fun tt => (tt.mapM (tetOf coords)).bind fun tets => sumBlocks topo.length (volTetBulk tets)

end PM
