import Verif.Knn
import Verif.Tri
import Verif.Transform

/-!
# Locating points in triangles; which points are inside of a block

`locate_tri_2d` (utils/locate.py 19-69), `_ntri_to_loc_bulk_` (utils/cells/utils.py 97-113), `PolyCell2d.pip`
(cell.py 841-865), `PolyCell3d.pip` (cell.py 1047-1087).
-/

namespace PM

section
variable {K : Type}

/-- The corners of a row of three nodes, one entry of `ecoords_tri`, locate.py 34; cell.py 863. -/
def triOf (coords : List (P2 K)) : List Nat → Option (Tri K)
  | [a, b, c] => (coords[a]?).bind fun p => (coords[b]?).bind fun q => (coords[c]?).map fun r => ⟨p, q, r⟩
  | _ => none

/-- The rows of the returned arrays: the points with a hit (locate.py 50-51, cell.py 1025-1026), for each the hit that is left by
the writes in the order `sched` (52-57), and `one` for point and position of the hit. -/
def searchHits {β : Type} (sched : List (Nat × Nat) → List (Nat × Nat)) (pips : List (List Bool)) (one : Nat → Nat → Option β) :
    Option (List β) :=
  let src := sourcesOf pips
  let sub := src.map fun i => pips.getD i []
  let rel := hitsRun src.length (sched (hitWrites sub))
  (src.zip rel).mapM fun s => one s.1 s.2

end

section
variable {K : Type} [Field K] [LinearOrder K]

/-- `_glob_to_nat_tri_bulk_knn_` (tri.py 341-351), or `_glob_to_nat_tri_bulk_` when all triangles are candidates. -/
def natTableTri (tris : List (Tri K)) (nb : List (List Nat)) (x : List (P2 K)) : Option (List (List (N3 K))) :=
  (x.zip nb).mapM fun q => q.2.mapM fun k => (tris[k]?).map fun t => globToNatTri q.1 t

/-- `_ntri_to_loc_bulk_` for one point, with the three corners of the master triangle as `lcoords` (locate.py 33):
`Σ_j lcoords[m[j]] nat[j]`. -/
def ntriToLoc (m : List Nat) (n : N3 K) : Option (P2 K) :=
  (triOf [⟨0, 0⟩, ⟨1, 0⟩, ⟨0, 1⟩] m).map fun l => natToGlobTri n l

/-- One located point, locate.py 58-67: point, cell, local coordinates. `j` is the position in the list of candidates. -/
def locateTriOne (trimap : Topo) (nb : List (List Nat)) (nat : List (List (N3 K))) (i j : Nat) : Option (Nat × Nat × P2 K) :=
  (nb[i]?).bind fun row => (row[j]?).bind fun τ =>
    (trimap[τ % trimap.length]?).bind fun m => (nat[i]?).bind fun ns => (ns[j]?).bind fun n =>
      (ntriToLoc m n).map fun loc => (i, τ / trimap.length, loc)

/-- `locate_tri_2d` for the candidates `nb` of every point. -/
def locateTri (sched : List (Nat × Nat) → List (Nat × Nat)) (coords : List (P2 K)) (triangles trimap : Topo)
    (nb : List (List Nat)) (tol : K) (x : List (P2 K)) : Option (List (Nat × Nat × P2 K)) :=
  (triangles.mapM (triOf coords)).bind fun tris => (natTableTri tris nb x).bind fun nat =>
    searchHits sched (nat.map fun ns => ns.map (pipTri tol)) (locateTriOne trimap nb nat)

/-- `locate_tri_2d`, locate.py 19-69; `lazy` carries `k` and what the tree of the centres answers (see `kNearestNeighbours`). -/
def locateTri2d (sched : List (Nat × Nat) → List (Nat × Nat)) (coords : List (P2 K)) (triangles : Topo) (trimap : Option Topo)
    (lazy : Option (Nat × (Nat → List (List Nat)))) (tol : K) (x : List (P2 K)) : Option (List (Nat × Nat × P2 K)) :=
  let map := trimap.getD [[0, 1, 2]]
  match lazy with
  | none => locateTri sched coords triangles map (x.map fun _ => List.range triangles.length) tol x
  | some (k, query) => do
    let ans ← kNearestNeighbours (K := K) .scipy (min k triangles.length) none query
    let nb ← ans.table?
    locateTri sched coords triangles map nb tol x

/-- `PolyCell2d.pip`, cell.py 843-865: the test with every triangle of the cells, any of them. -/
def pipCells2d (coords : List (P2 K)) (topo trimap : Topo) (tol : K) (x : List (P2 K)) : Option (List Bool) :=
  (transformTopology topo trimap 3 0).bind fun tt => (tt.mapM (triOf coords)).map fun ts =>
    (pipTriBulk tol x ts).map fun r => r.any id

/-- `PolyCell3d.pip`, cell.py 1047-1087, for the candidates `nb` of every point. -/
def pipCells3d (coords : List (V3 K)) (topo tetmap : Topo) (nb : List (List Nat)) (tol : K) (x : List (V3 K)) :
    Option (List Bool) :=
  (transformTopology topo tetmap 4 0).bind fun tt => (tt.mapM (tetOf coords)).bind fun tets => (natTable tets nb x).map fun nat =>
    nat.map fun ns => (ns.map (pipTet tol)).any id

/-- `lazy=False`. -/
def pipCells3dAll (coords : List (V3 K)) (topo tetmap : Topo) (tol : K) (x : List (V3 K)) : Option (List Bool) :=
  pipCells3d coords topo tetmap (x.map fun _ => List.range (topo.length * tetmap.length)) tol x

end

end PM
