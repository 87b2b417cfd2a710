import Verif.Locate
import Verif.Topo

/-!
# Nearest neighbours

`k_nearest_neighbours`, `knn_to_lines` (utils/knn.py 19-136), `knngridL2` (grid.py 571-603), the default search in
`PolyCell3d.locate` (cell.py 1010-1017).
-/

namespace PM

section
variable {K : Type} [Field K] [LinearOrder K]

/-- What scipy's `KDTree.query(Y, k=k)` promises for one point: the `k` nearest points; places that cannot be filled hold the
number of points (scipy documentation of `query`). -/
def IsQueryRow (X : List (V3 K)) (p : V3 K) (k : Nat) (row : List Nat) : Prop :=
  ∃ near, IsKNearest X p (min k X.length) near ∧ row = near ++ List.replicate (k - X.length) X.length

/-- The array returned by `query`: of one dimension if `k = 1`. -/
inductive KnnAns where
  | flat (a : List Nat)
  | table (t : List (List Nat))

/-- The argument `backend`. -/
inductive KnnBackend where
  | scipy
  | sklearn
  | other

/-- `k_nearest_neighbours`, utils/knn.py 19-124, for scipy 1.6.0 and later. `query k` are the rows found by the tree (external).
`max_distance` is put into `query_kwargs`, which are not passed on (line 110). With `backend="sklearn"` the name `KDTree` is a
local variable without a value, because of the import in the other branch (line 97): an error. `k = 0` is refused by scipy. -/
def kNearestNeighbours (backend : KnnBackend) (k : Nat) (_maxDistance : Option K) (query : Nat → List (List Nat)) :
    Option KnnAns :=
  match backend with
  | .scipy => if k = 0 then none else if k = 1 then some (.flat (query k).flatten) else some (.table (query k))
  | .sklearn => none
  | .other => none

/-- Unpacking the shape of an array of one dimension into two is an error: knn.py 129, cell.py 1015 (`neighbours.shape[1]`). -/
def KnnAns.table? : KnnAns → Option (List (List Nat))
  | .flat _ => none
  | .table t => some t

/-- `knn_to_lines`, utils/knn.py 127-136: `res[i, j] = [i, inds[i, j]]`; every place is written by one iteration. -/
def knnToLines (inds : List (List Nat)) : List (List (List Nat)) :=
  inds.zipIdx.map fun (r : List Nat × Nat) => r.1.map fun j => [r.2, j]

/-- `knngridL2`, grid.py 571-603, for the points `X` (given, or those of a grid). -/
def knngridL2 (X : List (V3 K)) (k : Nat) (maxDistance : Option K) (query : Nat → List (List Nat)) :
    Option (List (V3 K) × Topo) := do
  let ans ← kNearestNeighbours .scipy k maxDistance query
  let inds ← ans.table?
  let T := (uniqueTopoData (knnToLines inds)).1
  detachMeshBulk X (T.filter fun r => r.head? != r.getLast?)

/-- `PolyCell3d.locate` with the default `lazy=True`, cell.py 1010-1017: the candidates are the `min(k, n)` nearest of the `n`
tetrahedra. -/
def locateLazy (sched : List (Nat × Nat) → List (Nat × Nat)) (coords : List (V3 K)) (topo tetmap : Topo) (lcoords : List (V3 K))
    (tol : K) (k : Nat) (query : Nat → List (List Nat)) (x : List (V3 K)) : Option (List (Nat × Nat × V3 K)) := do
  let ans ← kNearestNeighbours (K := K) .scipy (min k (topo.length * tetmap.length)) none query
  let nb ← ans.table?
  locate sched coords topo tetmap lcoords nb tol x

end

end PM
