import Verif.CellData
import Verif.Extrude
import Mathlib.Analysis.SpecialFunctions.Pow.Real

/-!
# Meshes of cross sections, `src/polymesh/section.py`

The mesh of the section (`mesh["vertices"]`, `mesh["triangles"]`) is made by the library `sectionproperties`.
-/

namespace PM
open V3

/-- `path`, section.py 300: corner `i` is opposite to node `i + 3`. -/
def pathSection : List (List Nat) := [[0, 5, 4], [5, 1, 3], [3, 2, 4], [5, 3, 4]]

section
variable {K : Type} [Field K]

/-- The mesh of the wrapped section: vertices with two coordinates, rows of six nodes. -/
structure SectionMesh (K : Type) where
  vertices : List (List K)
  triangles : Topo

/-- `LineSection.coords`, section.py 257-262. -/
def sectionCoords (s : SectionMesh K) : Option (List (List K)) := centralize s.vertices 2

/-- `LineSection.trimesh`, section.py 297-306: points and triangles passed to `TriMesh`. -/
def sectionTrimesh (s : SectionMesh K) (subdivide : Bool) (order : Nat) : Option (List (List K) × Topo) :=
  (sectionCoords s).bind fun points =>
    if order = 1 then
      if subdivide then (transformTopology s.triangles pathSection 3 0).map fun t => (points, t)
      else detachMeshBulk points (s.triangles.map (List.take 3))
    else none

/-- `LineSection.extrude`, section.py 325: `TriMesh` of plane points puts them into the plane `z = 0` and extrudes along `z`
(`_newaxis = 2`); the check for planarity is left out. -/
def sectionExtrude (s : SectionMesh K) (length : K) (N : Nat) : Option (List (V3 K) × Topo) :=
  (sectionTrimesh s false 1).bind fun m =>
    trimeshExtrude 2 (m.1.map fun r => ⟨r.getD 0 0, r.getD 1 0, 0⟩) (m.2.map fun r => (r.getD 0 0, r.getD 1 0, r.getD 2 0)) length N

end

/-- A parameter given as a float or as an integer. -/
inductive PyNum where
  | float (x : ℝ)
  | int (n : Int)

/-- The value of the parameter. -/
def PyNum.val : PyNum → ℝ
  | .float x => x
  | .int n => n

/-- `mesh_sizes_max.append(l_max**2 * np.sqrt(3) / 4)` if `l_max` is a float, section.py 55-56. -/
noncomputable def sizeOfLength : Option PyNum → List ℝ
  | some (.float l) => [l ^ 2 * Real.sqrt 3 / 4]
  | _ => []

/-- section.py 57-58. -/
def sizeOfArea : Option PyNum → List ℝ
  | some (.float a) => [a]
  | _ => []

/-- section.py 59-60; the division by zero is an error. -/
noncomputable def sizeOfNumber (area : ℝ) : Option PyNum → Option (List ℝ)
  | some (.int n) => if n = 0 then none else some [area / n]
  | _ => some []

/-- `min` of a list. -/
noncomputable def minReal : List ℝ → Option ℝ
  | [] => none
  | x :: xs => some (xs.foldl min x)

/-- `generate_mesh`, section.py 53-66: the limit passed to `create_mesh` (`none` for no limit); the outer `none` is an error. -/
noncomputable def meshSize (area : ℝ) (lMax aMax nMax : Option PyNum) : Option (Option ℝ) :=
  (sizeOfNumber area nMax).map fun n => minReal (sizeOfLength lMax ++ sizeOfArea aMax ++ n)

/-- Python's `min` of two numbers. -/
noncomputable def pyMin (a b : PyNum) : PyNum := if b.val < a.val then b else a

/-- The size `ms` chosen by `get_section`, section.py 118-164; `p` are the keyword arguments. `none`: a key is missing or the shape is
unknown. -/
noncomputable def sectionSize (shape : String) (p : String → Option PyNum) : Option PyNum :=
  if shape = "CHS" then (p "d").bind fun _ => p "t"
  else if shape = "RS" then p "t"
  else if shape = "RHS" then p "t"
  else if shape = "I" ∨ shape = "TFI" ∨ shape = "PFC" ∨ shape = "TFC" ∨ shape = "T" then
    (p "t_f").bind fun f => (p "t_w").map fun w => pyMin f w
  else none

/-- The limit used when no `mesh_params` are given, section.py 166-171: `l_max=ms`. -/
noncomputable def defaultMeshSize (area : ℝ) (shape : String) (p : String → Option PyNum) : Option (Option ℝ) :=
  (sectionSize shape p).bind fun ms => meshSize area (some ms) none none

end PM
