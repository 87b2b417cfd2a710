import Verif.FrameCells
import Verif.Exchange
import Verif.Skin

/-!
# Blocks of meshes with frames as VTK grids, and their surfaces

`PolyCell.to_vtk` (cell.py 912-923), `PolyCell3d.extract_surface` (935-949) with `source_coords` (371-379), and `PolyData.surface`
(polydata.py 1210-1229) up to the new mesh, for meshes whose blocks have frames. What VTK finds for a grid is a parameter.
-/

namespace PM

section
variable {K : Type} [Field K]

/-- `to_vtk`, cell.py 912-923, for the cells `t` with `w` nodes of the block with path `p`: the coordinates are those of the source,
`container.source().coords()`. -/
def blockVtk (m : List (FBlock K)) (p : List Nat) (t : Topo) (w : Nat) (type : Option Nat) (detach : Bool) : Option (VtkGrid (V3 K)) :=
  (fSource m p).bind fun s => (framedPoints m s).bind fun c =>
    if detach then (detachMeshBulk (FCloud.show c none) t).bind fun r => vtkGrid r.1 r.2 w type
    else vtkGrid (FCloud.show c none) t w type

/-- `source_coords`, cell.py 371-379: `own` are the coordinates stored in `self.pointdata`, if it is set. -/
def fSourceCoords (m : List (FBlock K)) (p : List Nat) (own : Option (List (V3 K))) : Option (List (V3 K)) :=
  match own with
  | some x => some x
  | none => (fSource m p).bind fun s => (framedPoints m s).map fun c => FCloud.show c none

/-- The blocks of cells beneath a block with their paths: `cellblocks(inclusive=True)`. -/
def cellBlocksAt (m : List (FBlock K)) (p : List Nat) : List (List Nat × Topo) :=
  (m.filter fun b => p <:+ b.path).filterMap fun b => b.topo.map fun t => (b.path, t)

end

noncomputable section

/-- `extract_surface`, cell.py 935-949; `surf` is what `extract_surface` and `triangulate` of the library return for a grid. -/
def blockSurface (query : List (V3 ℝ) → V3 ℝ → Option Nat) (surf : VtkGrid (V3 ℝ) → PvSurf) (m : List (FBlock ℝ)) (p : List Nat)
    (own : Option (List (V3 ℝ))) (t : Topo) (w : Nat) (type : Option Nat) (detach : Bool) : Option (List (V3 ℝ) × Topo) :=
  (fSourceCoords m p own).bind fun x => (blockVtk m p t w type false).bind fun g =>
    if detach then some (extractSurfaceDetached (surf g)) else extractSurface query x (surf g)

/-- `PolyData.surface`, polydata.py 1210-1229: the new mesh. `own` gives the coordinates that the cells of a block know, `cls` the number
of nodes and the type of the cells. The constructor of the points is given ambient coordinates together with the frame. -/
def frameSurface (query : List (V3 ℝ) → V3 ℝ → Option Nat) (surf : VtkGrid (V3 ℝ) → PvSurf) (own : List Nat → Option (List (V3 ℝ)))
    (cls : List Nat → Nat × Option Nat) (m : List (FBlock ℝ)) (p : List Nat) : Option (List (FBlock ℝ)) :=
  (fSource m p).bind fun s => (framedPoints m s).bind fun c => (frameOf m s).bind fun F =>
    ((cellBlocksAt m p).mapM fun b =>
      (blockSurface query surf m b.1 (own b.1) b.2 (cls b.1).1 (cls b.1).2 false).map Prod.snd).bind fun l =>
    (uniqueRows l).bind fun T => (storeCoords (some F) 2 (.spatial (FCloud.show c none))).bind fun X =>
      match X with
      | .spatial x => some [⟨[], some F, some ⟨x, List.range x.length, storeFrame (some F) true⟩, some T⟩]
      | .planar _ => none

end

end PM
