import Verif.IntPts
import Verif.Grid
import Verif.LinePoints
import Verif.Pull

/-!
# Model: coordinates, weights and data in arrays of integers

Functions that write their results into arrays of the type of their arguments (`dtype=coords.dtype`, `dtype=w.dtype`, …). A number stored in an
array of integers is cut off towards zero (`storeAs`, IntPts.lean); the arithmetic in between is that of floating point numbers. Functions that
call `np.dot`, `np.linalg.norm` or `@`, or divide in place, are refused by numba for arrays of integers and are left out.
-/

namespace PM

section
variable {K : Type} [Field K] [LinearOrder K] [FloorRing K]

/-- `area_tri_bulk`, utils/tri.py 211-240: twice the areas are stored, the division by two comes last. -/
def areaTriBulkAs (int : Bool) (ts : List (Tri K)) : List K := (ts.map fun t => storeAs int (triArea2 t)).map fun x => x / 2

/-- `cell_center`, utils.py 345-364 (`np.array([...], dtype=coords.dtype)`), `center_of_points`, utils.py 800-813. -/
def centerOfAs (int : Bool) (coords : List (List K)) (nD : Nat) : List K := (List.range nD).map fun k => storeAs int (colMean coords k)

/-- `centralize`, utils.py 816-832: columns 0 and 1 always, column 2 if there is one; the results are differences of stored numbers. -/
def centralizeAs (int : Bool) (coords : List (List K)) (nD : Nat) : Option (List (List K)) :=
  if nD < 2 then none
  else some (coords.map fun r => r.zipIdx.map fun x => if x.2 < 3 then storeAs int (x.1 - (centerOfAs int coords nD).getD x.2 0) else x.1)

/-- `_centralize_cells_coords_`, utils.py 242-250. -/
def centralizeCellsAs (int : Bool) (ecoords : List (List (List K))) (nD : Nat) : List (List (List K)) :=
  ecoords.map fun e => e.map fun r => List.zipWith (fun a b => storeAs int (a - b)) r (centerOfAs int e nD)

/-- `grid_3d_bins`, grid.py 523-568: the array of coordinates has the type of the first bins (546). `int`: they are integers. -/
def gridBins3As (int : Bool) (xbins ybins zbins : List K) (nNEX nNEY nNEZ : Nat) (s0 s1 s2 : K) (start : Int) :
    List (List K) × List (List Int) :=
  bins3With (xbins.length - 1) (ybins.length - 1) (zbins.length - 1) nNEX nNEY nNEZ start
    ((binsCoordW3 xbins ybins zbins nNEX nNEY nNEZ s0 s1 s2).map fun w => (w.1, storeAs int w.2))
    (binsTopoW3 (xbins.length - 1) (ybins.length - 1) (zbins.length - 1) nNEX nNEY nNEZ)

/-- `_nodal_distribution_factors_dense_`, utils.py 433-453: `factors` has the type of the weights. -/
def ndfAs (int : Bool) (topo : Topo) (w : List K) : Option (List (List K)) :=
  if topo.flatten = [] ∨ w.length < topo.length then none
  else some (List.zipWith (fun row wi => row.map fun n => storeAs int (wi / nodalW topo w n)) topo w)

/-- The assignments `factors[i] = w[iE] / nodal_w[data[i]]`, utils.py 424-430. -/
def ndfCsrWAs (int : Bool) (data : List Nat) (indptr : List Nat) (w : List K) : List (Nat × K) :=
  (ndfCsrW data indptr w).map fun x => (x.1, storeAs int x.2)

/-- `homogenize_nodal_values`, utils.py 969-980: the result has the type of the data; `data` holds one number per node. A division by zero
raises in compiled code. -/
def homogenizeAs (int : Bool) (data : List (List K)) (measure : List K) : Option (List K) :=
  data.zipIdx.mapM fun x => measure[x.2]? >>= fun m => if m = 0 then none else some (storeAs int (x.1.sum / m))

/-- A row of three coordinates stored in an array. -/
def V3.storeAs (int : Bool) (p : V3 K) : V3 K := ⟨PM.storeAs int p.x, PM.storeAs int p.y, PM.storeAs int p.z⟩

/-- The end of `PolyCell1d.points_of_cells`, cell.py 746-753, with `pcoords_to_coords_1d`, utils.py 908-944: the array has the type of the
coordinates of the cells. -/
def linePtsOutAs (int : Bool) (ord : List (Nat × V3 K) → List (Nat × V3 K)) (ts : List K) (ecoords : List (List (V3 K))) (flatten : Bool) :
    Option (LinePts K) :=
  (pcoords1dWrites ts ecoords).bind fun w =>
    let res := pcoords1dRun ts ecoords ((ord w).map fun x => (x.1, x.2.storeAs int))
    if flatten then some (.flat res) else (reshapeCells ecoords.length ts.length res).map .grid

/-- `PolyCell1d.points_of_cells`, cell.py 701-753, for points in an array of the given type. -/
def linePointsAs (int : Bool) (ord : List (Nat × V3 K) → List (Nat × V3 K)) (lcoords : List K) (coords : List (V3 K)) (ids : List Nat)
    (topo : Topo) (points : Option (List K)) (cells : Option (List Nat)) (rng : Option (K × K)) (flatten : Bool) :
    Option (LinePts K) :=
  (topo.mapM fun row => gather? coords row).bind fun ecoords =>
    if points.isNone && cells.isNone then some (.grid ecoords)
    else (lineCells ids ecoords cells).bind fun sel =>
      match sel with
      | none => some .empty
      | some ec => (lineParams lcoords points rng).bind fun ts => linePtsOutAs int ord ts ec flatten

/-- `explode_mesh_data_bulk`, utils.py 630-672: the array of the data has the type of the *coordinates* (664). -/
def explodeDataAs {α : Type} (int : Bool) (zero : α) (coords : List α) (topo : Topo) (data : List (List K)) (nNE : Nat) :
    Option (List α × Topo × List K) :=
  explodeDataWith zero 0 topo.length nNE (explodeCoordW coords topo nNE) (explodeTopoW topo.length nNE)
    ((explodeDataW topo.length data nNE).map fun w => (w.1, w.2.map (storeAs int)))

end

end PM
