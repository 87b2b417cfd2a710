import Verif.Locate
import Verif.Misc

/-!
# Points of line cells

`PolyCell1d.points_of_cells`, cell.py 701-753.
-/

namespace PM

section
variable {K : Type} [Field K]

/-- What `PolyCell1d.points_of_cells` returns: the empty dictionary, an array of shape `(nE * nP, nD)` or one of shape `(nE, nP, nD)`. -/
inductive LinePts (K : Type) where
  | empty
  | flat (l : List (V3 K))
  | grid (l : List (List (V3 K)))
  deriving DecidableEq

/-- `neumann.utils.to_range_1d(x, source=s, target=[0, 1])` (external, taken to be the affine map of the two ranges); `none`: the
source is a single point. -/
def toUnit [DecidableEq K] (s : K × K) (x : List K) : Option (List K) :=
  if s.1 = s.2 then none else some (x.map fun p => (p - s.1) / (s.2 - s.1))

/-- `np.reshape(nE, nP, nD)` of an array of `nE * nP` rows. -/
def reshapeCells {α : Type} (nE nP : Nat) (l : List α) : Option (List (List α)) :=
  if l.length = nE * nP then some ((List.range nE).map fun i => (l.drop (i * nP)).take nP) else none

/-- The points of the chosen cells, cell.py 727-736: `none` is the empty selection. Ids are used as row numbers. -/
def lineCells (ids : List Nat) (ecoords : List (List (V3 K))) (cells : Option (List Nat)) : Option (Option (List (List (V3 K)))) :=
  match cells with
  | none => some (some ecoords)
  | some cs =>
    let cs := cs.filter fun c => ids.contains c
    if cs.isEmpty then some none else (gather? ecoords cs).map some

/-- The parameters, cell.py 738-745: without points the local coordinates of the cell in the range [-1, 1], otherwise the points in the
given range, by default [0, 1]. -/
def lineParams [DecidableEq K] (lcoords : List K) (points : Option (List K)) (rng : Option (K × K)) : Option (List K) :=
  match points with
  | none => toUnit (-1, 1) lcoords
  | some ps => toUnit (rng.getD (0, 1)) ps

/-- The end of `PolyCell1d.points_of_cells`, cell.py 746-753; `ord` is the order in which the parallel loop writes. -/
def linePtsOut (ord : List (Nat × V3 K) → List (Nat × V3 K)) (ts : List K) (ecoords : List (List (V3 K))) (flatten : Bool) :
    Option (LinePts K) :=
  (pcoords1dWrites ts ecoords).bind fun w =>
    let res := pcoords1dRun ts ecoords (ord w)
    if flatten then some (.flat res) else (reshapeCells ecoords.length ts.length res).map .grid

/-- `PolyCell1d.points_of_cells`, cell.py 701-753, for coordinates `coords` of the points, ids `ids` and nodes `topo` of the cells and
local coordinates `lcoords` of the kind of cell. `none`: an exception. -/
def linePoints [DecidableEq K] (ord : List (Nat × V3 K) → List (Nat × V3 K)) (lcoords : List K) (coords : List (V3 K)) (ids : List Nat)
    (topo : Topo) (points : Option (List K)) (cells : Option (List Nat)) (rng : Option (K × K)) (flatten : Bool) :
    Option (LinePts K) :=
  (topo.mapM fun row => gather? coords row).bind fun ecoords =>
    if points.isNone && cells.isNone then some (.grid ecoords)
    else (lineCells ids ecoords cells).bind fun sel =>
      match sel with
      | none => some .empty
      | some ec => (lineParams lcoords points rng).bind fun ts => linePtsOut ord ts ec flatten

end

end PM
