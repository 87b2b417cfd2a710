import Verif.FrameCentre

/-!
# The points that the cells of a block use

`PolyCell.unique_indices` (cell.py 633-637), `points_involved` (639-641), `detach_points_cells` (643-646), for meshes whose blocks have
frames. `np.unique` of a `TopologyArray` (topoarray.py 137-139) is `unique2d` of the library `neumann`, taken to be `np.unique` of all
numbers.
-/

namespace PM

section
variable {K : Type} [Field K]

/-- `unique_indices`, cell.py 633-637. -/
def uniqueIndices (t : Topo) : List Nat := npUnique t.flatten

/-- `points_involved`, cell.py 639-641: `container.source().points()` indexed by an array (pointcloud.py 154-163), for the cells `t` of
the block with path `p`. -/
def pointsInvolved (m : List (FBlock K)) (p : List Nat) (t : Topo) : Option (FCloud K) :=
  (fSource m p).bind fun s => (framedPoints m s).bind fun c =>
    (gather? c.inds (uniqueIndices t)).bind fun i => (gather? c.x (uniqueIndices t)).map fun x => ⟨x, c.frame, i⟩

/-- `detach_points_cells`, cell.py 643-646: the coordinates of the source, `coords()`, are ambient ones. -/
def detachPointsCells (m : List (FBlock K)) (p : List Nat) (t : Topo) : Option (List (V3 K) × Topo) :=
  (fSource m p).bind fun s => (framedPoints m s).bind fun c => detachMeshBulk (FCloud.show c none) t

end

end PM
