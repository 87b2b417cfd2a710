import Verif.Geom
import Verif.Basic

/-!
# Point clouds and Cartesian frames

space/pointcloud.py and space/frame.py. Of the library `neumann` the model takes over the orthonormal absolute axes of a frame
and the contract of `Vector.show`: the components of the same vector along the axes of the target frame.
-/

namespace PM

/-! ## indexing -/

/-- The key of `PointCloud.__getitem__`. -/
inductive PCKey where
  | slice (start stop step : Option Int)
  | ints (l : List Int)
  | int (k : Int)
  | mask (l : List Bool)

/-- A point cloud: its points and the recorded indices (pointcloud.py 137-142). -/
structure PCloud (P : Type) where
  arr : List P
  inds : Option (List Int)

/-- Python's `range(a, b, c)`. -/
def pyRange (a b c : Int) : List Int :=
  if 0 < c then (List.range ((b - a + c - 1) / c).toNat).map fun k : Nat => a + c * k
  else if c < 0 then (List.range ((a - b - c - 1) / -c).toNat).map fun k : Nat => a + c * k
  else []

/-- An index of an array of length `n`: negative ones count from the end; `none` is an `IndexError`. -/
def npIndex (n : Nat) (k : Int) : Option Nat :=
  if 0 ≤ k ∧ k < n then some k.toNat else if -n ≤ k ∧ k < 0 then some (k + n).toNat else none

/-- `a[[k0, k1, ...]]`. -/
def npTake {α : Type} (a : List α) (l : List Int) : Option (List α) := l.mapM fun k => (npIndex a.length k).bind fun i => a[i]?

/-- A bound of a slice with positive step, brought into the array. -/
def clampUp (n : Nat) (k : Int) : Int := if k < 0 then max 0 (k + n) else min k n

/-- A bound of a slice with negative step, brought into the array. -/
def clampDown (n : Nat) (k : Int) : Int := if k < 0 then max (-1) (k + n) else min k (n - 1)

/-- The indices a slice selects from an array of length `n` (`slice.indices` of Python); `none` for step zero. -/
def sliceInds (n : Nat) (start stop step : Option Int) : Option (List Int) :=
  let c := step.getD 1
  if 0 < c then some (pyRange ((start.map (clampUp n)).getD 0) ((stop.map (clampUp n)).getD n) c)
  else if c < 0 then some (pyRange ((start.map (clampDown n)).getD (n - 1)) ((stop.map (clampDown n)).getD (-1)) c)
  else none

/-- `a[mask]`; the mask must have the length of the array. -/
def npMask {α : Type} (a : List α) (l : List Bool) : Option (List α) :=
  if l.length = a.length then some ((a.zip l).filterMap fun x => if x.2 then some x.1 else none) else none

/-- `self._array.__getitem__(key)`. -/
def arrGet {α : Type} (a : List α) : PCKey → Option (List α)
  | .slice s t c => (sliceInds a.length s t c).bind (npTake a)
  | .ints l => npTake a l
  | .int k => npTake a [k]
  | .mask l => npMask a l

/-- The list `inds` made from the key alone, pointcloud.py 145-158. A boolean list is turned into integers when it is
stored (142). -/
def rawInds (n : Nat) : PCKey → List Int
  | .slice s t c => pyRange (s.getD 0) (t.getD n) (c.getD 1)
  | .ints l => l
  | .int k => [k]
  | .mask l => l.map fun b => if b then 1 else 0

/-- The recorded indices of the result, pointcloud.py 145-160. -/
def newInds {P : Type} (c : PCloud P) (key : PCKey) : Option (List Int) :=
  match c.inds with
  | none => some (rawInds c.arr.length key)
  | some inds => match key with
    | .mask l => npMask inds l
    | _ => npTake inds (rawInds c.arr.length key)

/-- `PointCloud.__getitem__`, pointcloud.py 144-162. -/
def PCloud.get {P : Type} (c : PCloud P) (key : PCKey) : Option (PCloud P) :=
  (newInds c key).bind fun inds => (arrGet c.arr key).map fun a => ⟨a, some inds⟩

/-- Repeated indexing `cloud[k0][k1]...`. -/
def PCloud.gets {P : Type} (c : PCloud P) (keys : List PCKey) : Option (PCloud P) := keys.foldlM PCloud.get c

/-- `sort_indices`, pointcloud.py 507-515; `s` is the result of `np.argsort`. -/
def PCloud.sortWith {P : Type} (c : PCloud P) (s : List Nat) : Option (PCloud P) :=
  c.inds.bind fun inds => (gather? c.arr s).bind fun a => (gather? inds s).map fun i => ⟨a, some i⟩

/-! ## frames -/

/-- A `CartesianFrame`: its axes in ambient space and its origin in ambient space (frame.py 73-91). -/
@[ext] structure CFrame (K : Type) where
  i : V3 K
  j : V3 K
  k : V3 K
  origo : V3 K

section
variable {K : Type} [Field K]

/-- Ambient components of the vector with components `x` along the axes of `F`. -/
def CFrame.vecAmb (F : CFrame K) (x : V3 K) : V3 K := x.x • F.i + (x.y • F.j + x.z • F.k)

/-- Components of an ambient vector along the axes of `F`. -/
def CFrame.vecLoc (F : CFrame K) (v : V3 K) : V3 K := ⟨V3.dot v F.i, V3.dot v F.j, V3.dot v F.k⟩

/-- `Vector(x, frame=F).show(target)` (library `neumann`): components of the same vector in the target frame, ambient
components without one. -/
def vecShow (F : CFrame K) (target : Option (CFrame K)) (x : V3 K) : V3 K :=
  match target with
  | none => F.vecAmb x
  | some T => T.vecLoc (F.vecAmb x)

/-- `Vector(v).show(target)` of a vector without a frame. -/
def ambShow (target : Option (CFrame K)) (v : V3 K) : V3 K :=
  match target with
  | none => v
  | some T => T.vecLoc v

/-- `CartesianFrame.relative_origo`, frame.py 167-175. -/
def relativeOrigo (F : CFrame K) (target : Option (CFrame K)) : V3 K :=
  match target with
  | none => F.origo
  | some T => ambShow (some T) (F.origo - T.origo)

/-- `PointCloud.show` for one point, pointcloud.py 381-387. -/
def pcShow (F : CFrame K) (target : Option (CFrame K)) (x : V3 K) : V3 K := vecShow F target x + relativeOrigo F target

/-- Setting the `frame` of a point cloud, pointcloud.py 172-188: the coordinates are replaced. -/
def pcSetFrame (F T : CFrame K) (x : List (V3 K)) : List (V3 K) × CFrame K := (x.map (pcShow F (some T)), T)

/-- `PointCloud.move(v, frame)`, pointcloud.py 427-433: `F` is the frame of the cloud. -/
def pcMove (F : CFrame K) (x : List (V3 K)) (v : V3 K) (frame : Option (CFrame K)) : List (V3 K) :=
  match frame with
  | some G => x.map fun y => y + vecShow G (some F) v
  | none => x.map fun y => y + v

/-- `CartesianFrame.move(d, frame)`, frame.py 210-217. -/
def frameMove (F : CFrame K) (d : V3 K) (frame : Option (CFrame K)) : CFrame K :=
  { F with origo := F.origo + match frame with
    | some G => G.vecAmb d
    | none => d }

/-- `frame.origo = value` for a value of three numbers, frame.py 99-110: the shape is compared with that of the matrix of the
axes, so the assignment is refused. -/
def setOrigo (_F : CFrame K) (_value : V3 K) : Option (CFrame K) := none

/-- Mean of points as `PointCloud.center(target)` computes it, pointcloud.py 241-246. -/
def pcCenter (F : CFrame K) (target : Option (CFrame K)) (x : List (V3 K)) : V3 K :=
  let y := x.map (pcShow F target)
  ⟨(y.map V3.x).sum / y.length, (y.map V3.y).sum / y.length, (y.map V3.z).sum / y.length⟩

/-- `PointCloud.centralize(target)` for all axes, pointcloud.py 456-462. -/
def pcCentralize (F : CFrame K) (target : Option (CFrame K)) (x : List (V3 K)) : List (V3 K) :=
  pcMove F x (-(pcCenter F target x)) target

end

end PM
