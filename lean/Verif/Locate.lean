import Verif.Tet
import Verif.TopoLemmas

/-!
# Locating points in solid cells, points of selected cells, evaluating positions

`PolyCell3d.locate` (cell.py 970-1045), `PolyCell.points_of_cells` (387-423), `PolyCell.loc_to_glob` (517-543), the loops in
utils/cells/utils.py 24-47, 80-148, `pcoords_to_coords` (utils/utils.py 897-906).
-/

namespace PM

/-! ## hits -/

/-- The writes of `_find_first_hits_` (utils/cells/utils.py 125-135) and of the relative indices in `_find_first_hits_knn_`
(138-148): `res[i] = j` for every `j` at which the test of point `i` holds. Both loops are parallel. -/
def hitWrites (pips : List (List Bool)) : List (Nat × Nat) :=
  pips.zipIdx.flatMap fun (r : List Bool × Nat) => (r.1.zipIdx.filter fun b => b.1).map fun b => (r.2, b.2)

/-- The result for the writes in a given order; the array starts with zeros. -/
def hitsRun (n : Nat) (w : List (Nat × Nat)) : List Nat := toArr n (runW w fun _ => 0)

/-- The writes of `_find_first_hits_knn_` (138-148) to both arrays: the listed neighbour and its relative index. An iteration
writes both; they are taken as one write. -/
def hitWritesKnn (pips : List (List Bool)) (nb : List (List Nat)) : List (Nat × Option Nat × Nat) :=
  (hitWrites pips).map fun w => (w.1, (nb[w.1]?).bind (fun r => r[w.2]?), w.2)

/-- The writes of `_find_first_hits_1d_` (116-122): `res[indices[i]] = i`. -/
def hitWrites1d (indices : List Nat) : List (Nat × Nat) := indices.zipIdx

/-- `_find_first_hits_1d_` for the writes in a given order; `max` of no values is an error. -/
def hits1dRun (indices : List Nat) (w : List (Nat × Nat)) : Option (List Nat) :=
  (maxNode? indices).map fun m => hitsRun (m + 1) w

/-! ## locate -/

section
variable {K : Type} [Field K]

/-- `to_tetrahedra(flatten=True)` (cell.py 890-910): the rows `cell[tetmap[t]]` for all cells and all rows of the map. -/
def toTetRows (topo tetmap : Topo) : Option Topo :=
  (topo.flatMap fun cell => tetmap.map fun m => gather? cell m).mapM id

/-- The four corners of a row, one entry of `ecoords_tet`, cell.py 1009. -/
def tetOf (coords : List (V3 K)) : List Nat → Option (Tet K)
  | [a, b, c, d] => (coords[a]?).bind fun p => (coords[b]?).bind fun q => (coords[c]?).bind fun r =>
      (coords[d]?).map fun s => ⟨p, q, r, s⟩
  | _ => none

/-- `_ntet_to_loc_bulk_` (utils/cells/utils.py 80-95) for one point: `Σ_j lcoords[m[j]] nat[j]`. -/
def ntetToLoc (lcoords : List (V3 K)) (m : List Nat) (n : N4 K) : Option (V3 K) :=
  (tetOf lcoords m).map fun l => n.n1 • l.p0 + (n.n2 • l.p1 + (n.n3 • l.p2 + n.n4 • l.p3))

/-- Natural coordinates of every point in its candidate tetrahedra: `_glob_to_nat_tet_bulk_knn_`, or `_glob_to_nat_tet_bulk_`
when all are candidates (cell.py 1013-1022). -/
def natTable (tets : List (Tet K)) (nb : List (List Nat)) (x : List (V3 K)) : Option (List (List (N4 K))) :=
  (x.zip nb).mapM fun q => q.2.mapM fun k => (tets[k]?).map fun t => globToNatTet q.1 t

end

section
variable {K : Type} [Field K] [LinearOrder K]

/-- The points with a hit, cell.py 1025-1026. -/
def sourcesOf (pips : List (List Bool)) : List Nat :=
  (pips.zipIdx.filter fun r => r.1.any id).map Prod.snd

/-- One located point, cell.py 1033-1045: point, cell, local coordinates. `j` is the position in the list of candidates. -/
def locateOne (tetmap : Topo) (lcoords : List (V3 K)) (nb : List (List Nat)) (nat : List (List (N4 K))) (i j : Nat) :
    Option (Nat × Nat × V3 K) :=
  (nb[i]?).bind fun row => (row[j]?).bind fun τ =>
    (tetmap[τ % tetmap.length]?).bind fun m => (nat[i]?).bind fun ns => (ns[j]?).bind fun n =>
      (ntetToLoc lcoords m n).map fun loc => (i, τ / tetmap.length, loc)

/-- `PolyCell3d.locate`, cell.py 970-1045, for the candidates `nb` of every point; `sched` is the order in which the writes of
the parallel search take place. The result is the list of rows of the three returned arrays. -/
def locate (sched : List (Nat × Nat) → List (Nat × Nat)) (coords : List (V3 K)) (topo tetmap : Topo) (lcoords : List (V3 K))
    (nb : List (List Nat)) (tol : K) (x : List (V3 K)) : Option (List (Nat × Nat × V3 K)) :=
  (toTetRows topo tetmap).bind fun tt => (tt.mapM (tetOf coords)).bind fun tets => (natTable tets nb x).bind fun nat =>
    let pips := nat.map fun ns => ns.map (pipTet tol)
    let src := sourcesOf pips
    let sub := src.map fun i => pips.getD i []
    let rel := hitsRun src.length (sched (hitWrites sub))
    (src.zip rel).mapM fun s => locateOne tetmap lcoords nb nat s.1 s.2

/-- `locate(x, lazy=False)`: all tetrahedra are candidates. -/
def locateAll (sched : List (Nat × Nat) → List (Nat × Nat)) (coords : List (V3 K)) (topo tetmap : Topo)
    (lcoords : List (V3 K)) (tol : K) (x : List (V3 K)) : Option (List (Nat × Nat × V3 K)) :=
  locate sched coords topo tetmap lcoords (x.map fun _ => List.range (topo.length * tetmap.length)) tol x

/-- What `k_nearest_neighbours` promises (KD-tree, external): `k` different places, none of the others is closer. -/
def IsKNearest (centers : List (V3 K)) (p : V3 K) (k : Nat) (row : List Nat) : Prop :=
  row.length = k ∧ row.Nodup ∧ (∀ j ∈ row, j < centers.length) ∧
    ∀ j ∈ row, ∀ l < centers.length, l ∉ row → ∀ c d, centers[j]? = some c → centers[l]? = some d →
      V3.dot (p - c) (p - c) ≤ V3.dot (p - d) (p - d)

end

/-! ## points of selected cells, evaluation -/

section
variable {K : Type} [Field K]

/-- `self.topology().to_numpy()[cells]` after the selection, cell.py 396-411: the given ids found in the block, used as row
numbers. `none`: no cell left or a row out of range. -/
def selectRows (ids : List Nat) (topo : Topo) (cells : Option (List Nat)) : Option Topo :=
  match cells with
  | none => some topo
  | some cs =>
    let cs := cs.filter fun c => ids.contains c
    if cs.isEmpty then none else gather? topo cs

/-- `points_of_cells(cells=cells)`, cell.py 387-413. -/
def pointsOfCells (coords : List (V3 K)) (ids : List Nat) (topo : Topo) (cells : Option (List Nat)) :
    Option (List (List (V3 K))) :=
  (selectRows ids topo cells).bind fun rows => rows.mapM fun r => gather? coords r

/-- `Σ_j w_j X_j`; `none` if the numbers differ. -/
def comb? (w : List K) (pts : List (V3 K)) : Option (V3 K) := if w.length = pts.length then some (lincomb w pts) else none

/-- `pcoords_to_coords`, utils/utils.py 897-906: for every cell and every point the sum of shape functions times nodes
(`shp` has a row for every point). -/
def pcoordsToCoords (shp : List (List K)) (ec : List (List (V3 K))) : Option (List (List (V3 K))) :=
  ec.mapM fun e => shp.mapM fun w => comb? w e

/-- `points_of_cells(points=..., cells=...)`, cell.py 387-423, `shp` being the values of the shape functions at the points. If
there are three points (`len(shp) == 3`), rows of `shp` are selected by the cell numbers. -/
def pointsInCells (coords : List (V3 K)) (ids : List Nat) (topo : Topo) (cells : Option (List Nat)) (shp : List (List K)) :
    Option (List (List (V3 K))) :=
  (pointsOfCells coords ids topo cells).bind fun ec =>
    let sel : Option (List (List K)) := if shp.length = 3 then
      match cells with
      | none => some shp
      | some cs => gather? shp (cs.filter fun c => ids.contains c)
    else some shp
    -- the loops run over the number of points given, whatever rows were selected
    sel.bind fun s => if shp.length ≤ s.length then pcoordsToCoords (s.take shp.length) ec else none

/-- Transposition of a rectangular array with `n` columns. -/
def transposeL (n : Nat) (a : List (List K)) : Option (List (List K)) :=
  (List.range n).mapM fun j => a.mapM fun r => r[j]?

/-- `_loc_to_glob_bulk_` (utils/cells/utils.py 24-47) for the array `shp`: `res[i] = shp @ gcoords[i]`, stored in an array with
as many rows as `shp` has columns. `none`: shapes do not fit. -/
def locToGlobBulk (ncol : Nat) (shp : List (List K)) (ec : List (List (V3 K))) : Option (List (List (V3 K))) :=
  ec.mapM fun e => if shp.length = ncol then shp.mapM fun w => comb? w e else none

/-- `loc_to_glob`, cell.py 517-543: hands over the transposed values. `shp` has a row for every point, `nNE` columns. -/
def locToGlob (nNE : Nat) (shp : List (List K)) (ec : List (List (V3 K))) : Option (List (List (V3 K))) :=
  (transposeL nNE shp).bind fun t => locToGlobBulk shp.length t ec

end

end PM
