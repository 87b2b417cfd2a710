import Verif.FrameMesh
import Verif.Elevate

/-!
# Tetrahedral meshes of bodies

`tetrahedralize` (tetrahedralize.py 13-75). What TetGen returns for the triangulated surface of the body is a parameter (`none`: an
exception). The frames handed to the cells (line 79, 81) are not represented.
-/

namespace PM

variable {K : Type} [Field K]

/-- `mesh.cellblocks(inclusive=True)`, tetrahedralize.py 42. -/
def cellBlocks (m : List (FBlock K)) (p : List Nat) : List (FBlock K) := m.filter fun b => decide (p <:+ b.path) && b.topo.isSome

/-- The choice of the order, tetrahedralize.py 65-71; `none`: the `ValueError`. -/
def tetOrder (order : Int) (coords : List (V3 K)) (topo : Topo) : Option (List (V3 K) × Topo) :=
  if order = 2 then tet4ToTet10 coords topo else if order > 2 then none else some (coords, topo)

/-- `PolyData(PointData(coords=X, frame=F), cells, frame=F)`, tetrahedralize.py 73-83, pointdata.py 76-109, polydata.py 204-236:
the points are stored as they are seen from ambient space, both keep the frame. -/
def framedSolid (F : CFrame K) (X : List (V3 K)) (T : Topo) : Option (List (FBlock K)) :=
  (storeCoords (some F) 2 (.spatial X)).bind fun X =>
    match X with
    | .spatial l => some [⟨[], some F, some ⟨l, List.range l.length, storeFrame (some F) true⟩, some T⟩]
    | .planar _ => none

/-- `tetrahedralize`, tetrahedralize.py 13-75, of the block with path `p` of a mesh: `tetgen` gives the points and tetrahedra for the
block of cells. -/
def tetrahedralize (tetgen : FBlock K → Option (List (V3 K) × Topo)) (order : Int) (m : List (FBlock K)) (p : List Nat) :
    Option (List (FBlock K)) :=
  match cellBlocks m p with
  | [b] => (tetgen b).bind fun r => (tetOrder order r.1 r.2).bind fun s => (frameOf m p).bind fun F => framedSolid F s.1 s.2
  | _ => none

end PM
