import Verif.Cloud
import Verif.Frames

/-!
# Bounds, closest and furthest points of point clouds

space/pointcloud.py 211-353 and space/point.py. `minmax` (library `neumann`) is the smallest and the largest entry, `Vector.show` as in
`Cloud`. The KD-tree query behind the closest points to several targets is an argument.
-/

namespace PM

/-- `minmax` of an array; `none`: the array is empty. -/
def minmaxOf {K : Type} [LinearOrder K] : List K → Option (K × K)
  | [] => none
  | a :: l => some (l.foldl min a, l.foldl max a)

/-- The columns of an array of points. -/
def boundsOf {K : Type} [LinearOrder K] (y : List (V3 K)) : Option ((K × K) × (K × K) × (K × K)) :=
  (minmaxOf (y.map V3.x)).bind fun a => (minmaxOf (y.map V3.y)).bind fun b => (minmaxOf (y.map V3.z)).map fun c => (a, b, c)

/-- `PointCloud.bounds(target)` in three dimensions, pointcloud.py 211-224; `PolyData.bounds`, polydata.py 1197-1208, is the same of the
points of a mesh. -/
def pcBounds {K : Type} [Field K] [LinearOrder K] (F : CFrame K) (target : Option (CFrame K)) (x : List (V3 K)) :
    Option ((K × K) × (K × K) × (K × K)) := boundsOf (x.map (pcShow F target))

/-- What is asked for: numbers with or without a frame, a `Vector` or a `Point`, one point of a `PointCloud`. -/
inductive Target (K : Type)
  | numbers (p : V3 K) (frame : Option (CFrame K))
  | vector (F : CFrame K) (p : V3 K)
  | cloud (F : CFrame K) (p : V3 K)

/-- `p.show()`, pointcloud.py 265-270, 290-292. Numbers are turned into a vector; without a frame they belong to the standard
frame. Vectors and points (`Point` has the `show` of `Vector`) have no origin, point clouds have one (381-387). -/
def Target.show {K : Type} [Field K] : Target K → V3 K
  | .numbers p none => p
  | .numbers p (some G) => vecShow G none p
  | .vector F p => vecShow F none p
  | .cloud F p => pcShow F none p

/-- The point that is returned, pointcloud.py 314-321: coordinates in the frame of the cloud, place in the cloud and index. -/
structure Found (K : Type) where
  x : V3 K
  id : Nat
  gid : Int

/-- The point with number `i`, pointcloud.py 315-321, 342-349. -/
def foundAt {K : Type} (c : PCloud (V3 K)) (i : Nat) : Option (Found K) :=
  (c.arr[i]?).bind fun x =>
    match c.inds with
    | none => some ⟨x, i, i⟩
    | some inds => (inds[i]?).map fun g => ⟨x, i, g⟩

noncomputable section

/-- `index_of_closest` for one target, pointcloud.py 248-270; `F` is the frame of the cloud. -/
def pcIndexOfClosest (F : CFrame ℝ) (c : PCloud (V3 ℝ)) (p : Target ℝ) : Option Nat := closestPoint (c.arr.map (pcShow F none)) p.show

/-- `index_of_furthest` for one target, pointcloud.py 272-292. -/
def pcIndexOfFurthest (F : CFrame ℝ) (c : PCloud (V3 ℝ)) (p : Target ℝ) : Option Nat := furthestPoint (c.arr.map (pcShow F none)) p.show

/-- `closest` for one target, pointcloud.py 294-323. -/
def pcClosest (F : CFrame ℝ) (c : PCloud (V3 ℝ)) (p : Target ℝ) : Option (Found ℝ) := (pcIndexOfClosest F c p).bind (foundAt c)

/-- `furthest` for one target, pointcloud.py 324-351. -/
def pcFurthest (F : CFrame ℝ) (c : PCloud (V3 ℝ)) (p : Target ℝ) : Option (Found ℝ) := (pcIndexOfFurthest F c p).bind (foundAt c)

/-- The cloud that is returned for several targets, pointcloud.py 315-323, 342-351: the indices of the points are looked up (317, 345),
but those of the result are their places in the cloud (323, 351). -/
def foundMany (c : PCloud (V3 ℝ)) (ids : List Nat) : Option (PCloud (V3 ℝ)) :=
  (gather? c.arr ids).bind fun a =>
    match c.inds with
    | none => some ⟨a, some (ids.map Int.ofNat)⟩
    | some inds => (gather? inds ids).map fun _ => ⟨a, some (ids.map Int.ofNat)⟩

/-- `closest` for several targets. -/
def pcClosestMany (query : List (V3 ℝ) → V3 ℝ → Option Nat) (F : CFrame ℝ) (c : PCloud (V3 ℝ)) (ps : List (Target ℝ)) :
    Option (PCloud (V3 ℝ)) :=
  (closestPoints query (c.arr.map (pcShow F none)) (ps.map Target.show)).bind (foundMany c)

/-- `furthest` for several targets. -/
def pcFurthestMany (F : CFrame ℝ) (c : PCloud (V3 ℝ)) (ps : List (Target ℝ)) : Option (PCloud (V3 ℝ)) :=
  (furthestPoints (c.arr.map (pcShow F none)) (ps.map Target.show)).bind (foundMany c)

end

/-- `Point.show(target)`, point.py 6-86: the one of `Vector`. -/
def pointShow {K : Type} [Field K] (F : CFrame K) (target : Option (CFrame K)) (x : V3 K) : V3 K := vecShow F target x

end PM
