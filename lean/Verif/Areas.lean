import Verif.Jacobian
import Verif.Transform
import Verif.Tri
import Verif.Misc
import Verif.Cells

/-!
# Model of the areas and volumes of cells of one and two dimensions

`cell.py` 660-705 and 755-850, `polygon.py` 27-53, 62-68, 91-94, 106-122, `utils/tri.py` 13-27, `celldata.py` 375-400.
-/

namespace PM

open V3

/-- The setter of `CellData.frames`, celldata.py 380-400, for a block of `n` cells: one frame is repeated, otherwise there has
to be one for each cell (`none` is the failing assertion). A `ReferenceFrame` is an array of one frame. -/
def storedFrames (n : Nat) (Fs : List Frame) : Option (List Frame) :=
  match Fs with
  | [F] => some (List.replicate n F)
  | Fs => if Fs.length = n then some Fs else none

section
variable {α : Type}

/-- The assignments of `triangulate_cell_coords`, utils/tri.py 13-25, in the order of a sequential run:
`res[iE * nTE + iTE, iNTE] = ecoords[iE, trimap[iTE, iNTE]]`. -/
def triangulateWrites (ecoords : List (List α)) (trimap : List (List Nat)) (nNTE : Nat) : List ((Nat × Nat) × Option α) :=
  (List.range ecoords.length).flatMap fun iE => (List.range trimap.length).flatMap fun iTE =>
    (List.range nNTE).map fun iNTE => ((iE * trimap.length + iTE, iNTE), pick? ecoords trimap iE iTE iNTE)

/-- `triangulate_cell_coords`, utils/tri.py 13-25, with the writes in the order `w`. -/
def triangulateRun (ecoords : List (List α)) (trimap : List (List Nat)) (nNTE : Nat) (zero : α)
    (w : List ((Nat × Nat) × Option α)) : Option (List (List α)) :=
  transformResult ecoords trimap nNTE zero w

/-- `triangulate_cell_coords` (sequential schedule). -/
def triangulateCellCoords (ecoords : List (List α)) (trimap : List (List Nat)) (nNTE : Nat) (zero : α) :
    Option (List (List α)) :=
  triangulateRun ecoords trimap nNTE zero (triangulateWrites ecoords trimap nNTE)

end

/-- The first two coordinates of the first three points: all that `area_tri_bulk` reads, tri.py 207-240. -/
def triOfRow {K : Type} : List (V3 K) → Option (Tri K)
  | a :: b :: c :: _ => some ⟨⟨a.x, a.y⟩, ⟨b.x, b.y⟩, ⟨c.x, c.y⟩⟩
  | _ => none

/-- `np.sum(areas_tri.reshape(nE, int(len(areas_tri) / nE)), axis=1)`, cell.py 808; division by zero without cells. -/
def sumBlocks {K : Type} [AddMonoid K] (nE : Nat) (l : List K) : Option (List K) :=
  if nE = 0 ∨ nE * (l.length / nE) ≠ l.length then none
  else some ((List.range nE).map fun i => ((l.drop (i * (l.length / nE))).take (l.length / nE)).sum)

noncomputable section

/-- `PolyCell2d.areas`, cell.py 795-809. `frames` are the stored frames. -/
def areas2d (coords : List (V3 ℝ)) (topo : Topo) (frames : List Frame) (trimap : List (List Nat)) : Option (List ℝ) :=
  (localCoordinates coords topo frames none).bind fun ec =>
    (triangulateCellCoords ec trimap 3 0).bind fun tri =>
      (tri.mapM triOfRow).bind fun ts => sumBlocks topo.length (areaTriBulk ts)

/-- `Triangle.areas`, polygon.py 46-50. -/
def areasT3 (coords : List (V3 ℝ)) (topo : Topo) (frames : List Frame) : Option (List ℝ) :=
  (localCoordinates coords topo frames none).bind fun ec => (ec.mapM triOfRow).map areaTriBulk

/-- `PolyCell2d.area`, cell.py 760-764. -/
def area2d (coords : List (V3 ℝ)) (topo : Topo) (frames : List Frame) (trimap : List (List Nat)) : Option ℝ :=
  (areas2d coords topo frames trimap).map List.sum

/-- `PolyCell2d.thickness`, cell.py 831-841, and `PolyCell1d.areas`, cell.py 682-691: a stored field or ones. -/
def fieldOrOnes (n : Nat) : Option (List ℝ) → List ℝ
  | some t => t
  | none => List.replicate n 1

/-- The product of two arrays of one axis and of the same length (`none` otherwise). -/
def mulArr (a b : List ℝ) : Option (List ℝ) :=
  if a.length = b.length then some ((a.zip b).map fun q => q.1 * q.2) else none

/-- `PolyCell2d.volumes`, cell.py 811-817. -/
def volumes2d (coords : List (V3 ℝ)) (topo : Topo) (frames : List Frame) (trimap : List (List Nat))
    (thickness : Option (List ℝ)) : Option (List ℝ) :=
  (areas2d coords topo frames trimap).bind fun a => mulArr a (fieldOrOnes topo.length thickness)

/-- `PolyCell1d.volumes`, cell.py 693-697. -/
def volumes1d (coords : List (V3 ℝ)) (topo : Topo) (areas : Option (List ℝ)) : Option (List ℝ) :=
  (lengthsOfLines coords topo).bind fun l => mulArr l (fieldOrOnes topo.length areas)

end

/-- `Triangle.trimap`, polygon.py 27-29. -/
def trimapT3 : List (List Nat) := [[0, 1, 2]]

/-- `QuadraticTriangle.trimap`, polygon.py 63-68. -/
def trimapT6 (subdivide : Bool) : List (List Nat) :=
  if subdivide then [[0, 3, 5], [3, 1, 4], [5, 4, 2], [5, 3, 4]] else [[0, 1, 2]]

/-- `Quadrilateral.trimap`, polygon.py 92-94. -/
def trimapQ4 : List (List Nat) := [[0, 1, 2], [0, 2, 3]]

end PM
