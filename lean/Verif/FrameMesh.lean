import Verif.Cloud
import Verif.Topo

/-!
# Frames and points of meshes

The coordinates and the frame stored by the constructor of `PointData` (pointdata.py 45-112) and of `PolyData` (polydata.py 172-292),
the lookup of frames (`PointData.frame`, pointdata.py 179-192, `PolyData.frame`, polydata.py 956-971), the points of a mesh with
several frames (`points`, polydata.py 1131-1170, `coords`, 1172-1194). Frames have three axes; frames of two axes are not modelled.
-/

namespace PM

deriving instance DecidableEq for CFrame

section
variable {K : Type} [Field K]

/-- `CartesianFrame(dim=3)`: the ambient frame. -/
def ambFrame : CFrame K := ⟨⟨1, 0, 0⟩, ⟨0, 1, 0⟩, ⟨0, 0, 1⟩, 0⟩

/-! ## construction -/

/-- A coordinate array of two or of three columns. -/
inductive CoordArr (K : Type) where
  | planar (l : List (K × K))
  | spatial (l : List (V3 K))
  deriving DecidableEq

/-- `_c[:, inds] = X` where `inds` is `[0, 1, 2]` without `newaxis`, pointdata.py 78-84; `none`: the axis does not exist. -/
def embedRow : Nat → K × K → Option (V3 K)
  | 0, p => some ⟨0, p.1, p.2⟩
  | 1, p => some ⟨p.1, 0, p.2⟩
  | 2, p => some ⟨p.1, p.2, 0⟩
  | _, _ => none

/-- The coordinates stored by the constructor, pointdata.py 76-90: as they are seen from ambient space. Planar ones are only embedded
if a frame is given. -/
def storeCoords (frame : Option (CFrame K)) (newaxis : Nat) : CoordArr K → Option (CoordArr K)
  | .planar l => match frame with
    | some F => (l.mapM (embedRow newaxis)).map fun X => .spatial (X.map (pcShow F none))
    | none => if newaxis < 3 then some (.planar l) else none
  | .spatial l => some (.spatial (l.map (pcShow (frame.getD ambFrame) none)))

/-- The frame stored by the constructor, pointdata.py 105-109: without a frame that of `gen_frame` if the coordinates were given as
`coords` (three columns), otherwise none. -/
def storeFrame (frame : Option (CFrame K)) (asCoords : Bool) : Option (CFrame K) :=
  match frame with
  | some F => some F
  | none => if asCoords then some ambFrame else none

/-! ## blocks -/

/-- `PointData` with coordinates of three columns, ids and `_frame`. -/
structure FPts (K : Type) where
  x : List (V3 K)
  id : List Nat
  frame : Option (CFrame K)

/-- A block of a mesh: its address, `_frame`, points and cells. -/
structure FBlock (K : Type) where
  path : List Nat
  frame : Option (CFrame K)
  pts : Option (FPts K)
  topo : Option Topo

/-- `PointData.frame`, pointdata.py 179-192: the own frame, that of the container, or the ambient one. -/
def pdFrame (b : FBlock K) (q : FPts K) : CFrame K :=
  match q.frame with
  | some F => F
  | none => b.frame.getD ambFrame

/-- The first two cases of `PolyData.frame`, polydata.py 960-965. -/
def FBlock.ownFrame (b : FBlock K) : Option (CFrame K) :=
  match b.frame with
  | some F => some F
  | none => b.pts.map (pdFrame b)

/-- The own frame of the block at a path. -/
def frameAt (m : List (FBlock K)) (r : List Nat) : Option (CFrame K) := (m.find? fun b => b.path = r).bind FBlock.ownFrame

/-- `PolyData.frame`, polydata.py 956-971: the own frame or that of the parent; `none` is the `AttributeError`. -/
def frameOf (m : List (FBlock K)) : List Nat → Option (CFrame K)
  | [] => frameAt m []
  | k :: p => match frameAt m (k :: p) with
    | some F => some F
    | none => frameOf m p

/-- The blocks with points beneath the block with path `p`: `pointblocks(inclusive=True)`. -/
def ptsUnder (m : List (FBlock K)) (p : List Nat) : List (List Nat × FPts K) :=
  (m.filter fun b => p <:+ b.path).filterMap fun b => b.pts.map fun q => (b.path, q)

/-- A point cloud with its frame and its indices. -/
structure FCloud (K : Type) where
  x : List (V3 K)
  frame : CFrame K
  inds : List Nat
  deriving DecidableEq

/-- `points()`, polydata.py 1148, 1155-1170: the coordinates of every block are turned into the axes of the frame of the block the call
is made on, as those of a vector (the origins are not used). Stacking nothing is an error. -/
def framedPoints (m : List (FBlock K)) (p : List Nat) : Option (FCloud K) :=
  (frameOf m p).bind fun T =>
    ((ptsUnder m p).mapM fun (b : List Nat × FPts K) => (frameOf m b.1).map fun F => b.2.x.map (vecShow F (some T))).bind fun l =>
      if l.isEmpty then none else some ⟨l.flatten, T, (ptsUnder m p).flatMap fun b => b.2.id⟩

/-- The cells beneath the block with path `p`. -/
def framedTopo (m : List (FBlock K)) (p : List Nat) : Topo := (m.filter fun b => p <:+ b.path).flatMap fun b => b.topo.getD []

/-- `points(from_cells=True)`, polydata.py 1148-1154, 1167: the points with the ids that are used in the cells. The numbers are those in
the frame of the root, the frame is that of the block. -/
def cellPoints (m : List (FBlock K)) (p : List Nat) : Option (FCloud K) :=
  (frameOf m p).bind fun T => (framedPoints m []).bind fun R =>
    let used := npUnique (framedTopo m p).flatten
    (remapTopo1d used (.dict (indsToInvmapAsDict R.inds))).bind fun pos => (gather? R.x pos).map fun x => ⟨x, T, used⟩

/-- `coords(target)`, polydata.py 1172-1194. -/
def FCloud.show (c : FCloud K) (target : Option (CFrame K)) : List (V3 K) := c.x.map (pcShow c.frame target)

/-- `PolyData(coords=X, frame=frame)`, polydata.py 241-253: the frame is given to the points and kept by the mesh.
`none`: an exception, or coordinates that stay planar (these meshes are not represented). -/
def newMesh (frame : Option (CFrame K)) (newaxis : Nat) (X : CoordArr K) : Option (List (FBlock K)) :=
  (storeCoords frame newaxis X).bind fun X =>
    match X with
    | .spatial l => some [⟨[], frame, some ⟨l, List.range l.length, storeFrame frame true⟩, none⟩]
    | .planar _ => none

end

end PM
