import Verif.Knn

/-!
# Model: the arguments and results of the search for nearest neighbours

`k_nearest_neighbours`, utils/knn.py 19-124, with all of its arguments: points to search for that may be missing, numbers or lists of ranks, distances, the
dictionary of options.
-/

namespace PM

/-- The argument `k`: a number or a list of ranks, counted from one. -/
inductive KArg where
  | one (k : Nat)
  | many (ks : List Nat)

/-- An array with one or two axes. -/
inductive KnnArr (α : Type) where
  | flat (a : List α)
  | table (t : List (List α))

/-- What is returned: the numbers of the neighbours, and the distances if they are asked for (`none` in an entry: infinite). -/
structure KnnRes (K : Type) where
  inds : KnnArr Nat
  dists : Option (KnnArr (Option K))

section
variable {K : Type} [Field K] [LinearOrder K]

/-- The entry of rank `r` in a row of neighbours: scipy fills missing places with the number of points. -/
def rankEntry (n : Nat) (near : List Nat) (r : Nat) : Nat := (near[r - 1]?).getD n

/-- The distance scipy gives for it; `root` is the square root. -/
def rankDist (root : K → K) (X : List (V3 K)) (p : V3 K) (near : List Nat) (r : Nat) : Option K :=
  (near[r - 1]?).bind fun j => (X[j]?).map fun q => root (V3.dot (p - q) (p - q))

/-- `tree.query(Y, k=k, workers=workers)` of scipy, utils/knn.py 110; `tree k p` are the (at most) `k` nearest points of `p`, nearest first. Ranks start
with one, and at least one has to be given. -/
def scipyQuery (root : K → K) (tree : Nat → V3 K → List Nat) (X Y : List (V3 K)) : KArg → Option (KnnArr Nat × KnnArr (Option K))
  | .one k =>
    if k = 0 then none
    else if k = 1 then some (.flat (Y.map fun p => rankEntry X.length (tree 1 p) 1), .flat (Y.map fun p => rankDist root X p (tree 1 p) 1))
    else some (.table (Y.map fun p => (List.range k).map fun r => rankEntry X.length (tree k p) (r + 1)),
      .table (Y.map fun p => (List.range k).map fun r => rankDist root X p (tree k p) (r + 1)))
  | .many ks =>
    if ks = [] ∨ 0 ∈ ks then none
    else some (.table (Y.map fun p => ks.map fun r => rankEntry X.length (tree (ks.foldl max 0) p) r),
      .table (Y.map fun p => ks.map fun r => rankDist root X p (tree (ks.foldl max 0) p) r))

/-- `k_nearest_neighbours`, utils/knn.py 96-124, for scipy 1.6.0 and later. Without points to search for, `None` is handed to scipy, which refuses it.
`max_distance` and the options of the query are not handed on (110). With `backend="sklearn"` the name `KDTree` has no value (see `kNearestNeighbours`). -/
def knnCall (root : K → K) (tree : List (V3 K) → Nat → V3 K → List Nat) (backend : KnnBackend) (X : List (V3 K)) (Y : Option (List (V3 K))) (k : KArg)
    (_maxDistance : Option K) (returnDistance : Bool) : Option (KnnRes K) :=
  match backend with
  | .scipy => Y.bind fun Y => (scipyQuery root (tree X) X Y k).map fun r => ⟨r.1, if returnDistance then some r.2 else none⟩
  | .sklearn => none
  | .other => none

/-- The dictionary `query_kwargs` of the caller after the call, utils/knn.py 94-101: an entry is added to it; `none` is the infinite bound. -/
def queryKwargsAfter (opts : List (String × Option K)) (maxDistance : Option K) : List (String × Option K) :=
  opts.filter (fun p => p.1 != "distance_upper_bound") ++ [("distance_upper_bound", maxDistance)]

end

end PM
