import Verif.FrameMesh
import Verif.PolyData

/-!
# Centres of meshes and of cells in given frames

`PolyData.center` (polydata.py 1526-1547), `PolyData.centers` (1549-1578), `PolyData.centralize` (1580-1611) and
`PolyCell.centers` (cell.py 623-631) with their argument `target`, for meshes whose blocks have frames. `if target:` is taken as
"a frame is given" (frames of the library `neumann` are objects).
-/

namespace PM

section
variable {K : Type} [Field K]

/-- `is_source`, polydata.py 832-844: the block at this path has points. -/
def fHasPts (m : List (FBlock K)) (r : List Nat) : Bool := ((m.find? fun b => b.path = r).bind FBlock.pts).isSome

/-- `source`, polydata.py 846-864: the path of the closest block with points, going upwards; `none` without one. -/
def fSource (m : List (FBlock K)) : List Nat → Option (List Nat)
  | [] => if fHasPts m [] then some [] else none
  | k :: p => if fHasPts m (k :: p) then some (k :: p) else fSource m p

/-- The blocks of cells beneath a block: `cellblocks(inclusive=True)`. -/
def cellBlocksUnder (m : List (FBlock K)) (p : List Nat) : List Topo := (m.filter fun b => p <:+ b.path).filterMap FBlock.topo

/-- `cell_centers_bulk`, utils.py 367-383: the means of the points of the cells; `none`: a node without a point. -/
def centresBulk (x : List (V3 K)) (t : Topo) : Option (List (V3 K)) := t.mapM fun row => (gather? x row).map meshCenter

/-- `PolyData.centers`, polydata.py 1564-1578. The means are those of `source.coords()`, which are ambient coordinates; with a target
they are taken as coordinates in the frame of the source. Stacking nothing is an error. -/
def fCenters (m : List (FBlock K)) (p : List Nat) (target : Option (CFrame K)) : Option (List (V3 K)) :=
  (fSource m p).bind fun s => (framedPoints m s).bind fun c =>
    ((cellBlocksUnder m p).mapM (centresBulk (c.show none))).bind fun l =>
      if l.isEmpty then none else
        match target with
        | none => some l.flatten
        | some T => (frameOf m s).map fun F => l.flatten.map (pcShow F (some T))

/-- `PolyCell.centers`, cell.py 623-631, for the cells `t` of the block with path `p`. `own` are the coordinates stored in
`self.pointdata`, if it is set (`source_coords`, 371-379). -/
def blockCenters (m : List (FBlock K)) (p : List Nat) (own : Option (List (V3 K))) (t : Topo) (target : Option (CFrame K)) :
    Option (List (V3 K)) :=
  (match own with
    | some x => some x
    | none => (fSource m p).bind fun s => (framedPoints m s).map fun c => FCloud.show c none).bind fun (x : List (V3 K)) =>
  (centresBulk x t).bind fun l =>
    match target with
    | none => some l
    | some T => (fSource m p).bind fun s => (frameOf m s).map fun F => l.map (pcShow F (some T))

/-- `PolyData.center`, polydata.py 1541-1547. The mean of nothing is not a number (`none`). -/
def fCenter (m : List (FBlock K)) (p : List Nat) (target : Option (CFrame K)) : Option (V3 K) :=
  (if fHasPts m p then (framedPoints m p).map fun c => (c.frame, c.x)
    else (fSource m p).bind fun s => (framedPoints m s).bind fun c =>
      (gather? c.x (npUnique (framedTopo m p).flatten)).map fun x => (c.frame, x)).bind fun q =>
  if q.2.isEmpty then none else some (pcCenter q.1 target q.2)

/-- `PolyData.centralize`, polydata.py 1604-1611. The centre in the target frame is subtracted from the stored coordinates of every
block with points beneath the source. -/
def fCentralize (m : List (FBlock K)) (p : List Nat) (target : Option (CFrame K)) : Option (List (FBlock K)) :=
  (fSource m p).bind fun s => (frameOf m s).bind fun F => (fCenter m p (some (target.getD F))).map fun v =>
    m.map fun b => if s <:+ b.path then { b with pts := b.pts.map fun q => { q with x := q.x.map fun y => y - v } } else b

end

end PM
