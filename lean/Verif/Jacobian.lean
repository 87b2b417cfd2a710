import Verif.Quadrature
import Verif.Misc

/-!
# Local coordinates, Jacobian matrices, shape function matrices

Models `points_of_cells`, `jacobian_*` of `utils/utils.py`, the methods `local_coordinates`, `jacobian_matrix`, `jacobian` of
`cell.py` and `line.py`, and the functions `shape_function_matrix_*`.
-/

namespace PM

open V3

/-! ## local coordinates of cells -/

noncomputable section

/-- The argument `local_axes` of `points_of_cells`: one frame for each cell, or (as documented) a single one. -/
inductive Axes where
  | many (Fs : List Frame)
  | single (F : Frame)

/-- `dcm @ v`. -/
def trPoint (F : Frame) (v : V3 ℝ) : V3 ℝ := ⟨dot F.i v, dot F.j v, dot F.k v⟩

/-- Row `i` of a 3x3 array. -/
def Frame.row? (F : Frame) (i : Nat) : Option (V3 ℝ) := [F.i, F.j, F.k][i]?

/-- `_cells_coords_tr_`, utils.py 232-240. `local_axes[i]` is the frame of cell `i`; of a single 3x3 array it is a row, the
product with it is a number, and this number fills the row of the result. `none`: read behind the array. -/
def cellsCoordsTr (ecoords : List (List (V3 ℝ))) : Axes → Option (List (List (V3 ℝ)))
  | .many Fs => ecoords.zipIdx.mapM fun (q : List (V3 ℝ) × Nat) => (Fs[q.2]?).map fun F => q.1.map (trPoint F)
  | .single F => ecoords.zipIdx.mapM fun (q : List (V3 ℝ) × Nat) => (F.row? q.2).map fun a =>
      q.1.map fun v => ⟨dot a v, dot a v, dot a v⟩

/-- `_centralize_cells_coords_`, utils.py 243-251. -/
def centralizeEcoords (ecoords : List (List (V3 ℝ))) : List (List (V3 ℝ)) :=
  ecoords.map fun e => e.map fun p => p - centroid e

/-- `points_of_cells`, utils.py 176-229. -/
def pointsOfCellsAx (coords : List (V3 ℝ)) (topo : Topo) (axes : Option Axes) (centralize : Bool) :
    Option (List (List (V3 ℝ))) :=
  (topo.mapM fun (row : List Nat) => row.mapM fun n => coords[n]?).bind fun ec =>
    let ec := if centralize then centralizeEcoords ec else ec
    match axes with
    | some ax => cellsCoordsTr ec ax
    | none => some ec

/-- `PolyCell.local_coordinates`, cell.py 425-445: with the frames of the cells, or with the one of `target`. -/
def localCoordinates (coords : List (V3 ℝ)) (topo : Topo) (frames : List Frame) (target : Option Frame) :
    Option (List (List (V3 ℝ))) :=
  pointsOfCellsAx coords topo (some (match target with | some F => .single F | none => .many frames)) true

end

/-! ## Jacobian matrices -/

section
variable {K : Type} [Field K]

/-- `d @ ecoords[iE]` where `d = dshp[iG].T`, utils.py 740-744: row `d`, column `k` is the sum over nodes of the derivative in
direction `d` times coordinate `k`. `none`: the shapes do not fit the product or the target `(nD, nD)`. -/
def jacobianAt (nD : Nat) (dshp : List (List K)) (X : List (List K)) : Option (List (List K)) :=
  if dshp.length = X.length ∧ (∀ r ∈ dshp, r.length = nD) ∧ (∀ p ∈ X, p.length = nD) then
    some ((List.range nD).map fun d => (List.range nD).map fun k => ((dshp.zip X).map fun q => q.1.getD d 0 * q.2.getD k 0).sum)
  else none

/-- `jacobian_matrix_bulk`, utils.py 717-744. Each iteration of the parallel loops writes its own block. -/
def jacobianMatrixBulk (nD : Nat) (dshp : List (List (List K))) (ecoords : List (List (List K))) :
    Option (List (List (List (List K)))) :=
  ecoords.mapM fun X => dshp.mapM fun d => jacobianAt nD d X

/-- The first `nD` components, cell.py 829 for surfaces. -/
def V3.comps (nD : Nat) (v : V3 K) : List K := [v.x, v.y, v.z].take nD

/-- `numpy.linalg.det` for up to three rows. -/
def detL : List (List K) → Option K
  | [[a]] => some a
  | [[a, b], [c, d]] => some (a * d - b * c)
  | [[a, b, c], [d, e, f], [g, h, i]] => some (det3 ⟨a, b, c⟩ ⟨d, e, f⟩ ⟨g, h, i⟩)
  | _ => none

/-- `jacobian_det_bulk_1d`, utils.py 747-767. -/
def jacobianDetBulk1d (jac : List (List (List (List K)))) : Option (List (List K)) :=
  jac.mapM fun e => e.mapM fun M => M.head?.bind fun r => r.head?

end

noncomputable section

/-- `jacobian_matrix`, cell.py 318-338, with the local coordinates cut to `nD` columns for surfaces (cell.py 824-829). -/
def jacobianMatrix (nD : Nat) (dshp : List (List (List ℝ))) (coords : List (V3 ℝ)) (topo : Topo) (frames : List Frame) :
    Option (List (List (List (List ℝ)))) :=
  (localCoordinates coords topo frames none).bind fun ec => jacobianMatrixBulk nD dshp (ec.map fun X => X.map (V3.comps nD))

/-- `jacobian`, cell.py 340-363. -/
def jacobianDet (nD : Nat) (dshp : List (List (List ℝ))) (coords : List (V3 ℝ)) (topo : Topo) (frames : List Frame) :
    Option (List (List ℝ)) :=
  (jacobianMatrix nD dshp coords topo frames).bind fun jac => jac.mapM fun e => e.mapM detL

/-- `jacobian_matrix_bulk_1d`, utils.py 770-797, for `nP` evaluation points: half of the length everywhere. -/
def jacobianMatrixBulk1d (nP : Nat) (ecoords : List (List (V3 ℝ))) : Option (List (List (List (List ℝ)))) :=
  (lengthsOfLines2 ecoords).map fun ls => ls.map fun l => List.replicate nP [[l / 2]]

/-- `Line.jacobian_matrix`, line.py 21-32, without the keyword `ecoords`. -/
def lineJacobian (nP : Nat) (coords : List (V3 ℝ)) (topo : Topo) (frames : List Frame) :
    Option (List (List (List (List ℝ)))) :=
  (localCoordinates coords topo frames none).bind fun ec => jacobianMatrixBulk1d nP ec

end

/-! ## shape function matrices -/

section
variable {K : Type} [Field K]

/-- The assignments of the loop in `shape_function_matrix_X`: `res[:, i * step : (i + 1) * step] = eye * shp[i]` for an array
of `ndof` rows and `ndof * nN` columns and an identity matrix of `eyeN` rows. Slices end at the edge of the array; a matrix of
one entry is broadcast; other shapes that do not fit are an error (`none`).

* utils/cells/l2.py 31-37, t3.py 30-36, t6.py 40-46, q4.py 74-80, q9.py 77-83, tet4.py 62-68, h27.py 311-317 and the generated
  function, cell.py 162-173: `step = eyeN = ndof`;
* utils/cells/h8.py 152-158: `step = ndof`, `eyeN = 3`;
* utils/tri.py 62-68: `step = nN`, `eyeN = ndof`. -/
def shpMatWrites (ndof step eyeN : Nat) (shp : List K) : Option (List ((Nat × Nat) × K)) :=
  (shp.zipIdx.mapM fun (q : K × Nat) =>
    let a := min (q.2 * step) (ndof * shp.length)
    let b := min ((q.2 + 1) * step) (ndof * shp.length)
    if (eyeN = ndof ∨ eyeN = 1) ∧ (eyeN = b - a ∨ eyeN = 1) then
      some ((List.range ndof).flatMap fun d => (List.range (b - a)).map fun c =>
        ((d, a + c), (if eyeN = 1 ∨ d = c then 1 else 0) * q.1))
    else none).map List.flatten

/-- The array after the assignments, made in the order given. -/
def shpMat (ndof nN : Nat) (w : List ((Nat × Nat) × K)) : List (List K) := toRows ndof (ndof * nN) (runW w fun _ => 0)

end

end PM
