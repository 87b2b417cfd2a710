import Verif.Cloud
import Verif.FrameMesh
import Verif.Stack

/-!
# Clouds of points in compiled functions, topologies given to functions of NumPy

`space/pointcloud.py` 40-45, 521-637 and `topoarray.py` 114-148. What Numba does with a registered type is a contract: an argument is
turned into a structure by `unbox`, attributes and `[]` are what the overloads return, a returned structure becomes an object by `box`.
The constructor of the base class `Vector` is a parameter. Constructing a cloud inside of a compiled function is not modelled.
-/

namespace PM

section
variable {K : Type} [Field K]

/-- A `PointCloud`: stored coordinates, frame, indices (`None` is possible). -/
structure PyCloud (K : Type) where
  x : List (V3 K)
  frame : CFrame K
  inds : Option (List Int)

/-- The members of the structure that compiled functions work with, pointcloud.py 578-591. -/
structure NativeCloud (K : Type) where
  data : List (V3 K)
  inds : Option (List Int)

/-- One iteration of `show_coords`, pointcloud.py 44; `dcm` is a matrix given by its rows. -/
def showRow (dcm : V3 (V3 K)) (coords res : List (V3 K)) (i : Nat) : List (V3 K) :=
  match coords[i]? with
  | none => res
  | some c => res.set i ⟨V3.dot dcm.x c, V3.dot dcm.y c, V3.dot dcm.z c⟩

/-- `show_coords`, pointcloud.py 40-45: the rows are written in any order. -/
def showCoords (dcm : V3 (V3 K)) (order : List Nat) (coords : List (V3 K)) : List (V3 K) :=
  order.foldl (showRow dcm coords) (coords.map fun _ => 0)

/-- `unbox_type`, pointcloud.py 614-625. -/
def unboxCloud (c : PyCloud K) : NativeCloud K := ⟨c.x, c.inds⟩

/-- The attributes `x`, `y` and `z` in compiled functions, pointcloud.py 537-558. -/
def NativeCloud.col (n : NativeCloud K) (axis : Fin 3) : List K :=
  n.data.map fun p => match axis with
    | 0 => p.x
    | 1 => p.y
    | 2 => p.z

/-- The methods `x`, `y` and `z` of the object, pointcloud.py 198-211. -/
def PyCloud.col (c : PyCloud K) (axis : Fin 3) (target : Option (CFrame K)) : List K :=
  (c.x.map (pcShow c.frame target)).map fun p => match axis with
    | 0 => p.x
    | 1 => p.y
    | 2 => p.z

/-- `obj[idx]` in compiled functions, pointcloud.py 594-601: rows of the stored array. -/
def NativeCloud.get (n : NativeCloud K) (key : PCKey) : Option (List (V3 K)) := arrGet n.data key

/-- `PointCloud(data, *more, frame=frame, inds=inds)`, pointcloud.py 137-142, for an array with three columns. `super data more` is the
array that the base class makes of its positional arguments. -/
def newCloud (super : List (V3 K) → List (Option (List Int)) → Option (List (V3 K))) (data : List (V3 K))
    (more : List (Option (List Int))) (frame : Option (CFrame K)) (inds : Option (List Int)) : Option (PyCloud K) :=
  (super data more).map fun x => ⟨x, frame.getD ambFrame, inds⟩

/-- `box_type`, pointcloud.py 628-637: the class is called with the two members as positional arguments. -/
def boxCloud (super : List (V3 K) → List (Option (List Int)) → Option (List (V3 K))) (n : NativeCloud K) : Option (PyCloud K) :=
  newCloud super n.data [n.inds] none none

/-- A compiled function that takes and returns a cloud. -/
def jitCall (super : List (V3 K) → List (Option (List Int)) → Option (List (V3 K))) (f : NativeCloud K → NativeCloud K)
    (c : PyCloud K) : Option (PyCloud K) := boxCloud super (f (unboxCloud c))

end

/-! ## `__array_function__` -/

/-- Arguments of functions of NumPy: topologies, arrays of NumPy, numbers, and lists of topologies and arrays. -/
inductive NpArg
  | topo (t : Topo)
  | nd (a : List (List Int))
  | num (n : Int)
  | seq (l : List (Topo ⊕ List (List Int)))

/-- The functions of NumPy: the two registered ones and any other. -/
inductive NpFun
  | unique
  | vstack
  | other (name : String)
  deriving DecidableEq

/-- What `__array_function__` gives. -/
inductive NpRes (R : Type)
  | notImplemented
  | raised (e : String)
  | values (u : List Nat) (counts : Option (List Nat))
  | topo (t : Topo)
  | ext (r : R)
  deriving DecidableEq

/-- `arg._wrapped`: only topologies have this attribute. -/
def NpArg.wrapped : NpArg → Option Topo
  | .topo t => some t
  | _ => none

/-- The types NumPy hands over: those of the arguments (or of the members of the list) that know the protocol; `true` for `TopologyArray`. -/
def npTypes : List NpArg → List Bool
  | [] => []
  | .topo _ :: _ => [true]
  | .nd _ :: _ => [false]
  | .num _ :: _ => []
  | .seq l :: _ => l.map Sum.isLeft

/-- `unique2d(wrapped, return_counts=...)` (external): the different numbers in order, and how often each occurs. -/
def unique2d (t : Topo) (counts : Bool) : List Nat × Option (List Nat) :=
  (npUnique t.flatten, if counts then some ((npUnique t.flatten).map fun n => t.flatten.count n) else none)

/-- `unique`, topoarray.py 137-139. -/
def topoUnique {R : Type} (args : List NpArg) (counts : Bool) : NpRes R :=
  match args with
  | [] => .raised "IndexError"
  | a :: _ => match a.wrapped with
    | none => .raised "AttributeError"
    | some t => .values (unique2d t counts).1 (unique2d t counts).2

/-- `vstack`, topoarray.py 142-146. -/
def topoVstackCall {R : Type} (args : List NpArg) : NpRes R :=
  match args with
  | .seq l :: _ => match l.mapM fun s => s.getLeft? with
    | none => .raised "AttributeError"
    | some ts => match topoVstack ts with
      | none => .raised "ValueError"
      | some t => .topo t
  | _ => .raised "TypeError"

/-- `TopologyArray.__array_function__`, topoarray.py 114-123. `ext name arrays` is the function of NumPy applied to the wrapped arrays;
`counts` is the keyword argument `return_counts`. -/
def arrayFunction {R : Type} (ext : String → List Topo → R) (f : NpFun) (types : List Bool) (args : List NpArg) (counts : Bool) :
    NpRes R :=
  match f with
  | .other name => match args.mapM NpArg.wrapped with
    | none => .raised "AttributeError"
    | some l => .ext (ext name l)
  | .unique => if types.all id then topoUnique args counts else .notImplemented
  | .vstack => if types.all id then topoVstackCall args else .notImplemented

/-- NumPy's part: if the protocol is refused, a `TypeError` is raised. -/
def npCall {R : Type} (ext : String → List Topo → R) (f : NpFun) (args : List NpArg) (counts : Bool) : NpRes R :=
  match arrayFunction ext f (npTypes args) args counts with
  | .notImplemented => .raised "TypeError"
  | r => r

end PM
