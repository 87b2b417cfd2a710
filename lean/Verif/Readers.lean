import Verif.Basic
import Mathlib.Data.Real.Basic

/-!
# Reading meshes, attaching data to meshes, sections by name

`input_to_mesh` (io/io.py), `PolyData_to_mesh` (vtkutils.py), the setters `pointdata`, `celldata` and `frames` of `PolyData` (polydata.py),
`get_section` and the constructor of `LineSection` (section.py).
-/

namespace PM

/-! ## reading meshes -/

/-- Points and cells by type, as meshio and PyVista give them. -/
structure RawMesh (K : Type) where
  points : List (List K)
  cells : List (String × List (List Nat))
deriving DecidableEq

/-- An argument of `input_to_mesh`. What meshio reads from a file, and the points and `cells_dict` of objects of PyVista, come from these
libraries; `none` in their place: the library raises an error. -/
inductive MeshArg (K : Type) where
  | none
  | file (there : Bool) (content : Option (RawMesh K))
  | polyData (m : Option (RawMesh K))
  | grid (m : Option (RawMesh K))
  | other

/-- What `input_to_mesh` gives for one argument: points and cells, or a list. -/
inductive ReadRes (K : Type) where
  | mesh (m : RawMesh K)
  | list (l : List (RawMesh K))
deriving DecidableEq

/-- `input_to_mesh(__candidate=arg)`, io/io.py 41-72. `None` is taken for a missing candidate, and the empty list of meshes without
arguments is returned. `hasPv`: PyVista is installed. `PolyData_to_mesh` with its default `v=0`, vtkutils.py 51-55, 63. -/
def readOne {K : Type} (hasPv : Bool) : MeshArg K → Option (ReadRes K)
  | .none => some (.list [])
  | .file there content => if there then content.map .mesh else none
  | .polyData m => if hasPv then m.map .mesh else none
  | .grid m => if hasPv then m.map .mesh else none
  | .other => none

/-- `input_to_mesh(*args)`, io/io.py 41-46. -/
def inputToMesh {K : Type} (hasPv : Bool) (args : List (MeshArg K)) : Option (List (ReadRes K)) := args.mapM (readOne hasPv)

/-! ## attaching data -/

/-- The data attached to the meshes (`_pointdata`, or `_celldata`), and the containers of the data; meshes and data are numbered. -/
structure Attached where
  data : Nat → Option Nat
  container : Nat → Option Nat

/-- The value given to the setter. -/
inductive AttachArg where
  | none
  | data (d : Nat)
  | other

/-- The setters `pointdata` and `celldata`, polydata.py 377-386, 402-411. `none`: TypeError. -/
def setData (s : Attached) (m : Nat) : AttachArg → Option Attached
  | .none => some { s with data := Function.update s.data m Option.none }
  | .data d => some ⟨Function.update s.data m (some d), Function.update s.container d (some m)⟩
  | .other => Option.none

/-- Setters one after the other, errors caught. -/
def setAll (s : Attached) (ops : List (Nat × AttachArg)) : Attached := ops.foldl (fun s o => (setData s o.1 o.2).getD s) s

/-- The value given to the setter `frames`: an array or something else. -/
inductive FramesArg (β : Type) where
  | arr (f : β)
  | other

/-- The setter `frames`, polydata.py 979-990: the frames of the data of mesh `m`. `none`: error. -/
def setFrames {β : Type} (s : Attached) (frames : Nat → Option β) (m : Nat) (v : FramesArg β) : Option (Nat → Option β) :=
  (s.data m).bind fun d => match v with
    | .arr f => some (Function.update frames d (some f))
    | .other => none

/-- `frames`, polydata.py 973-977; the outer `none`: `None` is returned. -/
def getFrames {β : Type} (s : Attached) (frames : Nat → Option β) (m : Nat) : Option (Option β) := (s.data m).map frames

/-! ## sections by name -/

/-- A call of a function with keyword arguments. -/
structure Call (V : Type) where
  fn : String
  args : List (String × V)
deriving DecidableEq

/-- `getallfromkwargs` of the package linkeddeepdict: the keyword arguments with the given names. -/
def allFromKwargs {V : Type} (keys : List String) (p : String → Option V) : List (String × V) := keys.filterMap fun k => (p k).map fun v => (k, v)

/-- The functions of the library `sectionproperties` and their parameters (without `material`), under the names used in
section.py 5-14; there are no defaults. -/
def sectionLib : String → Option (List String)
  | "CHS" => some ["d", "t", "n"]
  | "RS" => some ["d", "b"]
  | "RHS" => some ["d", "b", "t", "r_out", "n_r"]
  | "i_section" => some ["d", "b", "t_f", "t_w", "r", "n_r"]
  | "TFI" => some ["d", "b", "t_f", "t_w", "r_r", "r_f", "alpha", "n_r"]
  | "PFC" => some ["d", "b", "t_f", "t_w", "r", "n_r"]
  | "TFC" => some ["d", "b", "t_f", "t_w", "r_r", "r_f", "alpha", "n_r"]
  | "tee_section" => some ["d", "b", "t_f", "t_w", "r", "n_r"]
  | _ => none

/-- Python calls a function if all parameters are given and no others. `none`: TypeError. -/
def callLib {V : Type} (c : Call V) : Option (Call V) :=
  (sectionLib c.fn).bind fun ps => if (∀ k ∈ ps, k ∈ c.args.map Prod.fst) ∧ (∀ k ∈ c.args.map Prod.fst, k ∈ ps) then some c else none

/-- The keys in `get_section`, section.py 118-160: the function and the names of parameters. -/
def sectionKeys : String → Option (String × List String)
  | "RS" => some ("RS", ["d", "b"])
  | "RHS" => some ("RHS", ["d", "b", "t", "n_out", "n_r"])
  | "I" => some ("i_section", ["d", "b", "t_f", "t_w", "r", "n_r"])
  | "TFI" => some ("TFI", ["d", "b", "t_f", "t_w", "r_r", "r_f", "alpha", "n_r"])
  | "PFC" => some ("PFC", ["d", "b", "t_f", "t_w", "r", "n_r"])
  | "TFC" => some ("TFC", ["d", "b", "t_f", "t_w", "r_r", "r_f", "alpha", "n_r"])
  | "T" => some ("tee_section", ["d", "b", "t_f", "t_w", "r", "n_r"])
  | _ => none

/-- The geometry, section.py 117-164. `default` is the number 64. -/
def sectionGeom {V : Type} (default : V) (shape : String) (p : String → Option V) : Option (Call V) :=
  if shape = "CHS" then (p "d").bind fun d => (p "t").bind fun t => callLib ⟨"CHS", [("d", d), ("t", t), ("n", (p "n").getD default)]⟩
  else (sectionKeys shape).bind fun q => callLib ⟨q.1, allFromKwargs q.2 p⟩

/-- The parameter `ms` of the mesh, section.py 125-160; `least` is Python's `min`. -/
def sectionMs {V : Type} (least : V → V → V) (shape : String) (p : String → Option V) : Option V :=
  if shape = "CHS" ∨ shape = "RS" ∨ shape = "RHS" then p "t"
  else (p "t_f").bind fun f => (p "t_w").map fun w => least f w

/-- A section: its geometry and the parameters of its mesh. -/
structure SectionObj (V : Type) where
  geom : Call V
  mesh : List (String × V)
deriving DecidableEq

/-- `generate_mesh(geom, **mesh_params)`: three keywords, section.py 25-27. -/
def genMesh {V : Type} (g : Call V) (mp : List (String × V)) : Option (SectionObj V) :=
  if ∀ k ∈ mp.map Prod.fst, k ∈ ["l_max", "a_max", "n_max"] then some ⟨g, mp⟩ else none

/-- `get_section`, section.py 116-173: first geometry and `ms`, then the mesh; `none`: error. The material is not modelled. -/
def getSection {V : Type} (default : V) (least : V → V → V) (shape : String) (mp : Option (List (String × V))) (p : String → Option V) :
    Option (SectionObj V) :=
  (sectionGeom default shape p).bind fun g => (sectionMs least shape p).bind fun ms => genMesh g (mp.getD [("l_max", ms)])

/-- The first positional argument of `LineSection`. -/
inductive SecArg (V : Type) where
  | str (s : String)
  | obj (s : SectionObj V)
  | other

/-- The object that `LineSection(*args, wrap=, shape=, ...)` wraps, section.py 238-254; outer `none`: RuntimeError, inner `none`: nothing. Only the
first positional argument is looked at. `get` is `get_section` with the other arguments. -/
def lineSection {V : Type} (get : String → Option (SectionObj V)) (args : List (SecArg V)) (wrap : Option (SectionObj V)) (shape : Option String) :
    Option (Option (SectionObj V)) :=
  match args with
  | [] => some wrap
  | .str s :: _ => (get s).map some
  | a :: _ => match shape with
    | none => match a with
      | .obj s => some (some s)
      | _ => some wrap
    | some sh => (get sh).map some

end PM
