import Verif.Cloud

/-!
# Further arguments of motions of point clouds, and copies of frames

space/pointcloud.py and space/frame.py. Arrays of numpy are stored in a list of arrays; a frame knows its origin by the place of
its array, so that two frames may share one array.
-/

namespace PM

section
variable {K : Type} [Field K]

/-- A row of `dcoords(coords, v)`, pointcloud.py 48-57, for clouds with `w` coordinates per point: the first two assignments must
succeed, an `IndexError` of the third is swallowed. -/
def dcoordsRow (w : Nat) (v : List K) : Option (List K) :=
  if 2 ≤ w ∧ 2 ≤ v.length then
    some ((List.range w).map fun i => if i < 2 then v.getD i 0 else if i = 2 ∧ 3 ≤ v.length then v.getD 2 0 else 0)
  else none

/-- `self._array += dcoords(self._array, arr)`, pointcloud.py 432, for clouds with `w` coordinates per point. -/
def rowsMove (w : Nat) (x : List (List K)) (v : List K) : Option (List (List K)) :=
  (dcoordsRow w v).map fun d => x.map fun r => List.zipWith (· + ·) r d

/-- The first argument of `PointCloud.move`: an array, or a `Vector` with its own frame. -/
inductive MoveArg (K : Type) where
  | array (v : V3 K)
  | vector (G : CFrame K) (v : V3 K)

/-- `PointCloud.move(v, frame)`, pointcloud.py 427-433: `F` is the frame of the cloud. A `Vector` is not transformed; its own
components are added. -/
def pcMoveArg (F : CFrame K) (x : List (V3 K)) (v : MoveArg K) (frame : Option (CFrame K)) : List (V3 K) :=
  match v, frame with
  | .array v, some G => x.map fun y => y + vecShow G (some F) v
  | .array v, none => x.map fun y => y + v
  | .vector _ v, _ => x.map fun y => y + v

/-- The argument `axes` of `PointCloud.centralize`: not an iterable, a list (or array) of indices, a tuple of indices. -/
inductive AxesArg where
  | all
  | list (l : List Int)
  | tuple (l : List Int)

/-- Writing the component with index `i` of `c` to `d`. -/
def setComp (d c : V3 K) (i : Nat) : V3 K :=
  match i with
  | 0 => ⟨c.x, d.y, d.z⟩
  | 1 => ⟨d.x, c.y, d.z⟩
  | _ => ⟨d.x, d.y, c.z⟩

/-- `d = np.zeros_like(center); d[axes] = center[axes]` for three components, pointcloud.py 457-461. A tuple is an index in
several dimensions: the empty one selects the whole array, one with two or more numbers is an error. -/
def centreAlong (center : V3 K) (axes : AxesArg) : Option (V3 K) :=
  let write (l : List Int) := (l.mapM (npIndex 3)).map fun is => is.foldl (fun d i => setComp d center i) 0
  match axes with
  | .all => write [0, 1, 2]
  | .list l => write l
  | .tuple [] => some center
  | .tuple [k] => write [k]
  | .tuple _ => none

/-- `PointCloud.centralize(target, axes)`, pointcloud.py 456-462. -/
def pcCentralizeAxes (F : CFrame K) (target : Option (CFrame K)) (axes : AxesArg) (x : List (V3 K)) : Option (List (V3 K)) :=
  (centreAlong (pcCenter F target x) axes).map fun d => pcMove F x (-d) target

end

/-! ## frames and the arrays of their origins -/

/-- A `CartesianFrame`: its axes and the place of the array of its origin, if there is one yet (frame.py 76-91). -/
structure FObj (A : Type) where
  axes : A
  origo : Option Nat

/-- The arrays in memory and the frames. -/
structure FWorld (A K : Type) where
  arrays : List (V3 K)
  frames : List (FObj A)

/-- Steps of a program with frames. -/
inductive FOp (A K : Type) where
  /-- `CartesianFrame(axes)` -/
  | new (axes : A)
  /-- `CartesianFrame(axes, origo=v)` with a list or tuple of numbers -/
  | newList (axes : A) (v : V3 K)
  /-- `CartesianFrame(axes, origo=arr)` with the array at place `h` -/
  | newArray (axes : A) (h : Nat)
  /-- reading `frame.origo` -/
  | origo (f : Nat)
  /-- `frame.copy()` -/
  | copy (f : Nat)
  /-- `frame.deepcopy()` -/
  | deepcopy (f : Nat)
  /-- `frame.move(d)`; `d` is given by its ambient components -/
  | move (f : Nat) (d : V3 K)

section
variable {A K : Type} [Field K]

/-- The property `origo`, frame.py 93-97: an array of zeros is made at the first use. Returns the place of the array. -/
def FWorld.origoArr (w : FWorld A K) (f : Nat) : Option (FWorld A K × Nat) :=
  match w.frames[f]? with
  | none => none
  | some o => match o.origo with
    | some h => some (w, h)
    | none => some (⟨w.arrays ++ [0], w.frames.set f ⟨o.axes, some w.arrays.length⟩⟩, w.arrays.length)

/-- One step: constructor frame.py 76-91, `origo` 93-97, `copy` 225-240, `deepcopy` 242-251, `move` 210-217 (the array is changed
in place). -/
def FWorld.step (w : FWorld A K) : FOp A K → Option (FWorld A K)
  | .new a => some ⟨w.arrays, w.frames ++ [⟨a, none⟩]⟩
  | .newList a v => some ⟨w.arrays ++ [v], w.frames ++ [⟨a, some w.arrays.length⟩]⟩
  | .newArray a h => if h < w.arrays.length then some ⟨w.arrays, w.frames ++ [⟨a, some h⟩]⟩ else none
  | .origo f => (w.origoArr f).map Prod.fst
  | .copy f => (w.origoArr f).bind fun r => (w.frames[f]?).map fun o => ⟨r.1.arrays, r.1.frames ++ [⟨o.axes, some r.2⟩]⟩
  | .deepcopy f => (w.origoArr f).bind fun r => (w.frames[f]?).bind fun o => (r.1.arrays[r.2]?).map fun v =>
      ⟨r.1.arrays ++ [v], r.1.frames ++ [⟨o.axes, some r.1.arrays.length⟩]⟩
  | .move f d => (w.origoArr f).bind fun r => (r.1.arrays[r.2]?).map fun v => ⟨r.1.arrays.set r.2 (v + d), r.1.frames⟩

/-- A program. -/
def FWorld.run (w : FWorld A K) (ops : List (FOp A K)) : Option (FWorld A K) := ops.foldlM FWorld.step w

/-- The origin of a frame in ambient space. -/
def FWorld.originOf (w : FWorld A K) (f : Nat) : Option (V3 K) :=
  match w.frames[f]? with
  | none => none
  | some o => match o.origo with
    | none => some 0
    | some h => w.arrays[h]?

end

end PM
