import Verif.CellData
import Verif.IntPts
import Verif.Tri
import Verif.Monoms
import Verif.Exchange
import Mathlib.Analysis.Real.Sqrt

/-!
# Small functions

`area_Q4_bulk` (utils/cells/q4.py), `cell_coords`, `norms`, `explode_mesh`, `nodal_distribution_factors` (utils/utils.py), `move_points`
(utils/space.py), `monoms_tri_loc`, `monoms_tri_loc_bulk`, `center_tri_3d` (utils/tri.py), `dol_keys` (utils/topology/topo.py) and the functions of
`vtkcelltypes.py`.
-/

namespace PM

section
variable {K : Type} [Field K]

/-- `ecoords[:, idx, :]` of one cell as a triangle. `none`: there is no such row. -/
def triRows (q : List (P2 K)) : List Nat → Option (Tri K)
  | [i, j, k] => (q[i]?).bind fun a => (q[j]?).bind fun b => (q[k]?).map fun c => ⟨a, b, c⟩
  | _ => none

/-- `area_Q4_bulk`, utils/cells/q4.py 18-24 (arrays of floats): the areas of the triangles of rows `:3` and of rows `[0, 2, 3]`. -/
def areaQ4Bulk (ecoords : List (List (P2 K))) : Option (List K) :=
  (ecoords.mapM fun q => triRows q [0, 1, 2]).bind fun t => (ecoords.mapM fun q => triRows q [0, 2, 3]).map fun t' =>
    List.zipWith (· + ·) (List.zipWith (· + ·) (List.replicate ecoords.length 0) (areaTriBulk t)) (areaTriBulk t')

end

/-- The assignments of `cell_coords`, utils.py 317-319: `res[iNE] = coords[topo[iNE]]`. -/
def cellCoordsW {α : Type} (coords : List α) (row : List Nat) : List (Nat × Option α) :=
  (List.range row.length).map fun j => (j, (row[j]?).bind fun n => coords[n]?)

/-- `cell_coords`, utils.py 290-320, with the assignments in the given order. -/
def cellCoordsWith {α : Type} (zero : α) (row : List Nat) (w : List (Nat × Option α)) : Option (List α) := arrayOf zero row.length w

noncomputable section

/-- `np.dot(a[iI], a[iI])`. -/
def dotSelf (r : List ℝ) : ℝ := (r.map fun x => x * x).sum

/-- The assignments of `norms`, utils.py 961-965. -/
def normsW (a : List (List ℝ)) : List (Nat × ℝ) := (List.range a.length).map fun i => (i, dotSelf (a.getD i []))

/-- `norms`, utils.py 946-966. -/
def normsWith (a : List (List ℝ)) (w : List (Nat × ℝ)) : List ℝ := (toArr a.length (runW w fun _ => 0)).map Real.sqrt

end

section
variable {K : Type} [Field K] [LinearOrder K] [FloorRing K]

/-- The assignments of `move_points`, space.py 351-352; `int`: an array of integers (`np.zeros_like(coords)`). `none`: the vector has another
number of entries. -/
def movePointsW (int : Bool) (coords : List (List K)) (p : List K) : List (Nat × Option (List K)) :=
  (List.range coords.length).map fun i => (i, (coords[i]?).bind fun r =>
    if r.length = p.length then some ((List.zipWith (· + ·) r p).map (storeAs int)) else none)

/-- `move_points`, space.py 348-353; rows of vectors with one entry or no entry are broadcast by numpy, this is not modelled. -/
def movePointsWith (coords : List (List K)) (w : List (Nat × Option (List K))) : Option (List (List K)) := arrayOf [] coords.length w

/-- `center_tri_3d`, tri.py 78-83. `none`: an array without rows. -/
def centerTri3d (int : Bool) (e : List (V3 K)) : Option (V3 K) :=
  if e = [] then none else
    some ⟨storeAs int ((e.map V3.x).sum / e.length), storeAs int ((e.map V3.y).sum / e.length), storeAs int ((e.map V3.z).sum / e.length)⟩

end

section
variable {K : Type} [Field K]

/-- `monoms_tri_loc`, tri.py 28-30. `none`: fewer than two numbers. -/
def monomsTriLoc : List K → Option (List K)
  | x :: y :: _ => some [1, x, y]
  | _ => none

/-- `res[:, k] = lcoord[:, c]` for an array with three columns, tri.py 36-37. -/
def setCol (res : List (List K)) (k : Nat) (col : List K) : List (List K) := List.zipWith (fun r v => r.set k v) res col

/-- `monoms_tri_loc_bulk`, tri.py 33-38. -/
def monomsTriLocBulk (l : List (List K)) : Option (List (List K)) :=
  (l.mapM fun r => r[0]?).bind fun c0 => (l.mapM fun r => r[1]?).map fun c1 =>
    setCol (setCol (List.replicate l.length [1, 1, 1]) 1 c0) 2 c1

end

/-- `dol_keys`, topo.py 602-610: the keys of a dictionary, in its order. -/
def dolKeys {β : Type} (d : List (Int × β)) : List Int :=
  (d.foldl (fun (s : List Int × Nat) q => (s.1.set s.2 q.1, s.2 + 1)) (List.replicate d.length 0, 0)).1

/-- The argument `data` of `explode_mesh`: absent, an array, or something else. -/
inductive ExpArg (β : Type) where
  | none
  | arr (d : List (List β))
  | other

/-- `explode_mesh`, utils.py 675-681. -/
def explodeMesh {α β : Type} (zero : α) (zero' : β) (coords : List α) (topo : Topo) (nNE : Nat) :
    ExpArg β → Option (List α × Topo × Option (List β))
  | .none => (explode zero coords topo nNE).map fun r => (r.1, r.2, Option.none)
  | .arr d => (explodeData zero zero' coords topo d nNE).map fun r => (r.1, r.2.1, some r.2.2)
  | .other => Option.none

/-- A topology for `nodal_distribution_factors`: an array, a csr matrix (data, columns, row pointers, shape), or something else. -/
inductive FactorTopo where
  | dense (t : Topo)
  | csr (data indices indptr : List Nat) (shape : Nat × Nat)
  | other

/-- The factors: an array, or a csr matrix. -/
inductive FactorArr (K : Type) where
  | dense (f : List (List K))
  | csr (data : List K) (indices indptr : List Nat) (shape : Nat × Nat)
deriving DecidableEq

/-- `nodal_distribution_factors`, utils.py 456-489. The order of the assignments in the compiled function for csr matrices does not matter
(`C24_csr`). -/
def nodalFactors {K : Type} [Field K] (w : List K) : FactorTopo → Option (FactorArr K)
  | .dense t => (ndf t w).map .dense
  | .csr data indices indptr shape => (ndfCsrWith data indptr w (ndfCsrW data indptr w)).map fun d => .csr d indices indptr shape
  | .other => none

/-! ## vtkcelltypes.py -/

/-- `vtkCellTypes`, vtkcelltypes.py 7-41 (lines that are not comments). -/
def vtkEnum : List (String × Int) :=
  [("VTK_LINE", 3), ("VTK_TRIANGLE", 5), ("VTK_QUAD", 9), ("VTK_TETRA", 10), ("VTK_HEXAHEDRON", 12), ("VTK_WEDGE", 13),
   ("VTK_QUADRATIC_TRIANGLE", 22), ("VTK_QUADRATIC_TETRA", 24), ("VTK_BIQUADRATIC_QUAD", 28), ("VTK_TRIQUADRATIC_HEXAHEDRON", 29),
   ("VTK_BIQUADRATIC_QUADRATIC_WEDGE", 32)]

/-- `celltype_by_name`, vtkcelltypes.py 99-100. `none`: KeyError. -/
def celltypeByName (s : String) : Option (String × Int) := vtkEnum.find? fun q => q.1 = s

/-- `celltype_by_value`, vtkcelltypes.py 103-104. `none`: ValueError. -/
def celltypeByValue (v : Int) : Option (String × Int) := vtkEnum.find? fun q => q.2 = v

/-- The argument of `vtkCellTypes.celltype`. -/
inductive CellTypeArg where
  | int (v : Int)
  | str (s : String)
  | other

/-- `vtkCellTypes.celltype`, vtkcelltypes.py 90-96; for other arguments the variable is not bound. -/
def celltypeOf : CellTypeArg → Option (String × Int)
  | .int v => celltypeByValue v
  | .str s => celltypeByName s
  | .other => none

/-- `CellTypeId`, vtkcelltypes.py 114-118 (`none`: `None`). -/
def cellTypeId (s : String) : Option Int := (celltypeByName s).map Prod.snd

/-- `meshio_to_vtk`, vtkcelltypes.py 4, 107-111. -/
def meshioToVtk (s : String) (default : Option String) : Option String := if s = "triangle" then some "VTK_TRIANGLE" else default

end PM
