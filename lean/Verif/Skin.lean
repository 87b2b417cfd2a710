import Verif.Topo
import Verif.Frames

/-!
# Surfaces of solid meshes

`PolyCell3d.extract_surface` (cell.py 935-949) and `PolyData.surface` (polydata.py 1210-1229). The surface of one block is
found by an external library (pyvista/vtk), its result is a parameter; its contract is stated with the theorems.
-/

namespace PM

noncomputable section

/-- The result of `pvs.triangulate().cast_to_unstructured_grid()` for one block, cell.py 940-942: `s.points` and
`s.cells_dict[5]`. -/
structure PvSurf where
  pts : List (V3 ℝ)
  tris : Topo

/-- `extract_surface(detach=False)`, cell.py 935-949, with `query` the external KD-tree (see `closestPoints`); the result is
the pair of coordinates and triangles. -/
def extractSurface (query : List (V3 ℝ) → V3 ℝ → Option Nat) (coords : List (V3 ℝ)) (s : PvSurf) :
    Option (List (V3 ℝ) × Topo) :=
  (closestPoints query coords s.pts).bind fun imap => (rewire s.tris (.arr imap) false).map fun t => (coords, t)

/-- `extract_surface(detach=True)`, cell.py 943-944. -/
def extractSurfaceDetached (s : PvSurf) : List (V3 ℝ) × Topo := (s.pts, s.tris)

/-- The rows of the blocks, stacked, and made unique if there are several blocks, polydata.py 1218-1225
(`triangles[np.unique(triangles, axis=0, return_index=True)[1]]` are the distinct rows in lexicographic order;
`np.vstack` of no arrays fails). -/
def uniqueRows (parts : List Topo) : Option Topo :=
  if parts.isEmpty then none
  else if parts.length > 1 then some (npUnique parts.flatten)
  else some parts.flatten

/-- `PolyData.surface`, polydata.py 1210-1229: coordinates of the source and the triangles. The blocks are given by the
external surfaces; all of them are solid cells (the assertion of line 1220). -/
def meshSurface (query : List (V3 ℝ) → V3 ℝ → Option Nat) (coords : List (V3 ℝ)) (blocks : List PvSurf) :
    Option (List (V3 ℝ) × Topo) :=
  (blocks.mapM fun s => extractSurface query coords s).bind fun r =>
    (uniqueRows (r.map Prod.snd)).map fun t => (coords, t)

end

end PM
