import Verif.Extrude
import Verif.Spec

/-!
# Grids, `src/polymesh/grid.py`

The loops of the generators are lists of assignments, in the order of a sequential run (`range' 1 n` is Python's
`range(1, n + 1)`). `nNode - 1` is a subtraction of natural numbers: theorems assume at least two nodes.
-/

namespace PM

section
variable {K : Type} [Field K]

/-- Number of points along an axis, grid.py 389-392 etc. -/
def axPts (ndiv nNode : Nat) : Nat := ndiv * (nNode - 1) + 1

/-! ## `rgridMT`, grid.py 382-484 -/

/-- 3d, node numbers (1-based), grid.py 453-461. -/
def rgridNode3 (ndivY ndivZ nNodeX nNodeY nNodeZ i j k m q p : Nat) : Nat :=
  (((nNodeX - 1) * (i - 1) + m - 1) * axPts ndivY nNodeY + (nNodeY - 1) * (j - 1) + q - 1) * axPts ndivZ nNodeZ +
    (nNodeZ - 1) * (k - 1) + p

/-- 3d, coordinates, grid.py 412-415, 446-474. -/
def rgridCoordW3 (lX lY lZ : K) (ndivX ndivY ndivZ nNodeX nNodeY nNodeZ : Nat) (s0 s1 s2 : K) :
    List ((Nat × Nat) × K) :=
  let dX := lX / (ndivX : Nat); let dY := lY / (ndivY : Nat); let dZ := lZ / (ndivZ : Nat)
  let ddX := dX / (nNodeX - 1 : Nat); let ddY := dY / (nNodeY - 1 : Nat); let ddZ := dZ / (nNodeZ - 1 : Nat)
  (List.range' 1 ndivX).flatMap fun i => (List.range' 1 ndivY).flatMap fun j => (List.range' 1 ndivZ).flatMap fun k =>
  (List.range' 1 nNodeX).flatMap fun m => (List.range' 1 nNodeY).flatMap fun q => (List.range' 1 nNodeZ).flatMap fun p =>
    let n := rgridNode3 ndivY ndivZ nNodeX nNodeY nNodeZ i j k m q p
    rowWrites (n - 1) [s0 + dX * (i - 1 : Nat) + ddX * (m - 1 : Nat), s1 + dY * (j - 1 : Nat) + ddY * (q - 1 : Nat),
      s2 + dZ * (k - 1 : Nat) + ddZ * (p - 1 : Nat)]

/-- 3d, topology, grid.py 446-475. -/
def rgridTopoW3 (ndivX ndivY ndivZ nNodeX nNodeY nNodeZ : Nat) : List ((Nat × Nat) × Nat) :=
  (List.range' 1 ndivX).flatMap fun i => (List.range' 1 ndivY).flatMap fun j => (List.range' 1 ndivZ).flatMap fun k =>
  (List.range' 1 nNodeX).flatMap fun m => (List.range' 1 nNodeY).flatMap fun q => (List.range' 1 nNodeZ).map fun p =>
    (((i - 1) * ndivY * ndivZ + (j - 1) * ndivZ + k - 1, (m - 1) * nNodeY * nNodeZ + (q - 1) * nNodeZ + p - 1),
      rgridNode3 ndivY ndivZ nNodeX nNodeY nNodeZ i j k m q p)

/-- 2d, node numbers (1-based), grid.py 434-438. -/
def rgridNode2 (ndivY nNodeX nNodeY i j k m : Nat) : Nat :=
  ((nNodeX - 1) * (i - 1) + k - 1) * axPts ndivY nNodeY + (nNodeY - 1) * (j - 1) + m

/-- 2d, coordinates, grid.py 429-441. -/
def rgridCoordW2 (lX lY : K) (ndivX ndivY nNodeX nNodeY : Nat) (s0 s1 : K) : List ((Nat × Nat) × K) :=
  let dX := lX / (ndivX : Nat); let dY := lY / (ndivY : Nat)
  let ddX := dX / (nNodeX - 1 : Nat); let ddY := dY / (nNodeY - 1 : Nat)
  (List.range' 1 ndivX).flatMap fun i => (List.range' 1 ndivY).flatMap fun j =>
  (List.range' 1 nNodeX).flatMap fun k => (List.range' 1 nNodeY).flatMap fun m =>
    rowWrites (rgridNode2 ndivY nNodeX nNodeY i j k m - 1)
      [s0 + dX * (i - 1 : Nat) + ddX * (k - 1 : Nat), s1 + dY * (j - 1 : Nat) + ddY * (m - 1 : Nat)]

/-- 2d, topology, grid.py 429-442. -/
def rgridTopoW2 (ndivX ndivY nNodeX nNodeY : Nat) : List ((Nat × Nat) × Nat) :=
  (List.range' 1 ndivX).flatMap fun i => (List.range' 1 ndivY).flatMap fun j =>
  (List.range' 1 nNodeX).flatMap fun k => (List.range' 1 nNodeY).map fun m =>
    (((i - 1) * ndivY + j - 1, (k - 1) * nNodeY + m - 1), rgridNode2 ndivY nNodeX nNodeY i j k m)

/-- 1d, coordinates, grid.py 421-427. -/
def rgridCoordW1 (lX : K) (ndivX nNodeX : Nat) (s0 : K) : List ((Nat × Nat) × K) :=
  let dX := lX / (ndivX : Nat); let ddX := dX / (nNodeX - 1 : Nat)
  (List.range' 1 ndivX).flatMap fun i => (List.range' 1 nNodeX).flatMap fun j =>
    rowWrites ((nNodeX - 1) * (i - 1) + j - 1) [s0 + dX * (i - 1 : Nat) + ddX * (j - 1 : Nat)]

/-- 1d, topology, grid.py 421-427. -/
def rgridTopoW1 (ndivX nNodeX : Nat) : List ((Nat × Nat) × Nat) :=
  (List.range' 1 ndivX).flatMap fun i => (List.range' 1 nNodeX).map fun j =>
    ((i - 1, j - 1), (nNodeX - 1) * (i - 1) + j)

/-- `start -= 1; topo + start`, grid.py 476-477, on an array of 1-based numbers. -/
def withStart (start : Int) (t : Topo) : List (List Int) := t.map (List.map fun n : Nat => (n : Int) + (start - 1))

/-- `rgridMT` in 3d, for given schedules of the two kinds of assignments. -/
def rgrid3With (ndivX ndivY ndivZ nNodeX nNodeY nNodeZ : Nat) (start : Int) (wc : List ((Nat × Nat) × K))
    (wt : List ((Nat × Nat) × Nat)) : List (List K) × List (List Int) :=
  (toRows (axPts ndivX nNodeX * axPts ndivY nNodeY * axPts ndivZ nNodeZ) 3 (runW wc fun _ => 0),
   withStart start (toRows (ndivX * ndivY * ndivZ) (nNodeX * nNodeY * nNodeZ) (runW wt fun _ => 0)))

/-- `rgridMT`, 3d. -/
def rgrid3 (lX lY lZ : K) (ndivX ndivY ndivZ nNodeX nNodeY nNodeZ : Nat) (s0 s1 s2 : K) (start : Int) :
    List (List K) × List (List Int) :=
  rgrid3With ndivX ndivY ndivZ nNodeX nNodeY nNodeZ start
    (rgridCoordW3 lX lY lZ ndivX ndivY ndivZ nNodeX nNodeY nNodeZ s0 s1 s2)
    (rgridTopoW3 ndivX ndivY ndivZ nNodeX nNodeY nNodeZ)

def rgrid2With (ndivX ndivY nNodeX nNodeY : Nat) (start : Int) (wc : List ((Nat × Nat) × K))
    (wt : List ((Nat × Nat) × Nat)) : List (List K) × List (List Int) :=
  (toRows (axPts ndivX nNodeX * axPts ndivY nNodeY) 2 (runW wc fun _ => 0),
   withStart start (toRows (ndivX * ndivY) (nNodeX * nNodeY) (runW wt fun _ => 0)))

/-- `rgridMT`, 2d. -/
def rgrid2 (lX lY : K) (ndivX ndivY nNodeX nNodeY : Nat) (s0 s1 : K) (start : Int) : List (List K) × List (List Int) :=
  rgrid2With ndivX ndivY nNodeX nNodeY start (rgridCoordW2 lX lY ndivX ndivY nNodeX nNodeY s0 s1)
    (rgridTopoW2 ndivX ndivY nNodeX nNodeY)

def rgrid1With (ndivX nNodeX : Nat) (start : Int) (wc : List ((Nat × Nat) × K))
    (wt : List ((Nat × Nat) × Nat)) : List (List K) × List (List Int) :=
  (toRows (axPts ndivX nNodeX) 1 (runW wc fun _ => 0), withStart start (toRows ndivX nNodeX (runW wt fun _ => 0)))

/-- `rgridMT`, 1d. -/
def rgrid1 (lX : K) (ndivX nNodeX : Nat) (s0 : K) (start : Int) : List (List K) × List (List Int) :=
  rgrid1With ndivX nNodeX start (rgridCoordW1 lX ndivX nNodeX s0) (rgridTopoW1 ndivX nNodeX)

/-! ## `_rgridST`, grid.py 269-379: rows and entries in the order of the counters `elem`, `ne` -/

/-- 3d, grid.py 340-377. -/
def rgridST3 (lX lY lZ : K) (ndivX ndivY ndivZ nNodeX nNodeY nNodeZ : Nat) (s0 s1 s2 : K) (start : Int) :
    List (List K) × List (List Int) :=
  (toRows (axPts ndivX nNodeX * axPts ndivY nNodeY * axPts ndivZ nNodeZ) 3
    (runW (rgridCoordW3 lX lY lZ ndivX ndivY ndivZ nNodeX nNodeY nNodeZ s0 s1 s2) fun _ => 0),
   withStart start <|
    (List.range' 1 ndivX).flatMap fun i => (List.range' 1 ndivY).flatMap fun j => (List.range' 1 ndivZ).map fun k =>
      (List.range' 1 nNodeX).flatMap fun m => (List.range' 1 nNodeY).flatMap fun q => (List.range' 1 nNodeZ).map fun p =>
        rgridNode3 ndivY ndivZ nNodeX nNodeY nNodeZ i j k m q p)

/-- 2d, grid.py 323-339. -/
def rgridST2 (lX lY : K) (ndivX ndivY nNodeX nNodeY : Nat) (s0 s1 : K) (start : Int) :
    List (List K) × List (List Int) :=
  (toRows (axPts ndivX nNodeX * axPts ndivY nNodeY) 2
    (runW (rgridCoordW2 lX lY ndivX ndivY nNodeX nNodeY s0 s1) fun _ => 0),
   withStart start <|
    (List.range' 1 ndivX).flatMap fun i => (List.range' 1 ndivY).map fun j =>
      (List.range' 1 nNodeX).flatMap fun k => (List.range' 1 nNodeY).map fun m =>
        rgridNode2 ndivY nNodeX nNodeY i j k m)

/-! ## grids from bins, grid.py 487-568 -/

/-- `grid_2d_bins`, coordinates, grid.py 509-518. -/
def binsCoordW2 (xbins ybins : List K) (nNEX nNEY : Nat) (s0 s1 : K) : List ((Nat × Nat) × K) :=
  (List.range (xbins.length - 1)).flatMap fun i => (List.range (ybins.length - 1)).flatMap fun j =>
  (List.range nNEX).flatMap fun p => (List.range nNEY).flatMap fun q =>
    let ddX := (xbins.getD (i + 1) 0 - xbins.getD i 0) / (nNEX - 1 : Nat)
    let ddY := (ybins.getD (j + 1) 0 - ybins.getD j 0) / (nNEY - 1 : Nat)
    rowWrites (((nNEX - 1) * i + p) * axPts (ybins.length - 1) nNEY + (nNEY - 1) * j + q)
      [s0 + xbins.getD i 0 + ddX * (p : Nat), s1 + ybins.getD j 0 + ddY * (q : Nat)]

/-- `grid_2d_bins`, topology, grid.py 509-520. -/
def binsTopoW2 (nEX nEY nNEX nNEY : Nat) : List ((Nat × Nat) × Nat) :=
  (List.range nEX).flatMap fun i => (List.range nEY).flatMap fun j =>
  (List.range nNEX).flatMap fun p => (List.range nNEY).map fun q =>
    ((i * nEY + j, p * nNEY + q), ((nNEX - 1) * i + p) * axPts nEY nNEY + (nNEY - 1) * j + q)

/-- `grid_3d_bins`, coordinates, grid.py 550-566. -/
def binsCoordW3 (xbins ybins zbins : List K) (nNEX nNEY nNEZ : Nat) (s0 s1 s2 : K) : List ((Nat × Nat) × K) :=
  (List.range (xbins.length - 1)).flatMap fun i => (List.range (ybins.length - 1)).flatMap fun j =>
  (List.range (zbins.length - 1)).flatMap fun k =>
  (List.range nNEX).flatMap fun p => (List.range nNEY).flatMap fun q => (List.range nNEZ).flatMap fun r =>
    let ddX := (xbins.getD (i + 1) 0 - xbins.getD i 0) / (nNEX - 1 : Nat)
    let ddY := (ybins.getD (j + 1) 0 - ybins.getD j 0) / (nNEY - 1 : Nat)
    let ddZ := (zbins.getD (k + 1) 0 - zbins.getD k 0) / (nNEZ - 1 : Nat)
    rowWrites ((((nNEX - 1) * i + p) * axPts (ybins.length - 1) nNEY + (nNEY - 1) * j + q) * axPts (zbins.length - 1) nNEZ
        + (nNEZ - 1) * k + r)
      [s0 + xbins.getD i 0 + ddX * (p : Nat), s1 + ybins.getD j 0 + ddY * (q : Nat), s2 + zbins.getD k 0 + ddZ * (r : Nat)]

/-- `grid_3d_bins`, topology, grid.py 550-568. -/
def binsTopoW3 (nEX nEY nEZ nNEX nNEY nNEZ : Nat) : List ((Nat × Nat) × Nat) :=
  (List.range nEX).flatMap fun i => (List.range nEY).flatMap fun j => (List.range nEZ).flatMap fun k =>
  (List.range nNEX).flatMap fun p => (List.range nNEY).flatMap fun q => (List.range nNEZ).map fun r =>
    ((i * nEZ * nEY + j * nEZ + k, p * nNEZ * nNEY + q * nNEZ + r),
      (((nNEX - 1) * i + p) * axPts nEY nNEY + (nNEY - 1) * j + q) * axPts nEZ nNEZ + (nNEZ - 1) * k + r)

/-- `topo + start`. -/
def addStart (start : Int) (t : Topo) : List (List Int) := t.map (List.map fun n : Nat => (n : Int) + start)

def bins2With (nEX nEY nNEX nNEY : Nat) (start : Int) (wc : List ((Nat × Nat) × K)) (wt : List ((Nat × Nat) × Nat)) :
    List (List K) × List (List Int) :=
  (toRows (axPts nEX nNEX * axPts nEY nNEY) 2 (runW wc fun _ => 0),
   addStart start (toRows (nEX * nEY) (nNEX * nNEY) (runW wt fun _ => 0)))

/-- `grid_2d_bins`, grid.py 487-520. -/
def gridBins2 (xbins ybins : List K) (nNEX nNEY : Nat) (s0 s1 : K) (start : Int) : List (List K) × List (List Int) :=
  bins2With (xbins.length - 1) (ybins.length - 1) nNEX nNEY start (binsCoordW2 xbins ybins nNEX nNEY s0 s1)
    (binsTopoW2 (xbins.length - 1) (ybins.length - 1) nNEX nNEY)

def bins3With (nEX nEY nEZ nNEX nNEY nNEZ : Nat) (start : Int) (wc : List ((Nat × Nat) × K))
    (wt : List ((Nat × Nat) × Nat)) : List (List K) × List (List Int) :=
  (toRows (axPts nEX nNEX * axPts nEY nNEY * axPts nEZ nNEZ) 3 (runW wc fun _ => 0),
   addStart start (toRows (nEX * nEY * nEZ) (nNEX * nNEY * nNEZ) (runW wt fun _ => 0)))

/-- `grid_3d_bins`, grid.py 523-568. -/
def gridBins3 (xbins ybins zbins : List K) (nNEX nNEY nNEZ : Nat) (s0 s1 s2 : K) (start : Int) :
    List (List K) × List (List Int) :=
  bins3With (xbins.length - 1) (ybins.length - 1) (zbins.length - 1) nNEX nNEY nNEZ start
    (binsCoordW3 xbins ybins zbins nNEX nNEY nNEZ s0 s1 s2)
    (binsTopoW3 (xbins.length - 1) (ybins.length - 1) (zbins.length - 1) nNEX nNEY nNEZ)

/-! ## `grid`, grid.py 16-188 -/

/-- The argument `eshape`. -/
inductive EShape
  | absent
  | tuple (l : List Nat)
  | name (s : String)

/-- Arguments of `grid` other than `eshape` and `path`. `shape = None` is allowed by the code and means ones. -/
structure GridArgs (K : Type) where
  size : Option (List K) := none
  shape : Option (List Nat) := none
  shift : Option (List K) := none
  start : Int := 0
  bins : Option (List (List K)) := none
  centralize : Bool := false

/-- Number of dimensions, grid.py 111-116; `none`: the name is unbound. -/
def GridArgs.nDime (a : GridArgs K) : Option Nat :=
  match a.size, a.bins, a.shape with
  | some s, _, _ => some s.length
  | none, some b, _ => some b.length
  | none, none, some s => some s.length
  | none, none, none => none

/-- `center_of_points` and the subtraction, grid.py 174-179 (columns 0 and 1 are always touched: an `IndexError`
for one dimension). -/
def centralizeRows (coords : List (List K)) (dim : Nat) : Option (List (List K)) :=
  if dim < 2 then none
  else
    let mean := fun c : Nat => (coords.map fun r => r.getD c 0).sum / (coords.length : Nat)
    some (coords.map fun r => r.zipIdx.map fun x => x.1 - mean x.2)

/-- grid.py 159-172: the call of a generator, for a tuple `eshape` or (`isTuple = false`) the array made for
`eshape=None`. In one dimension the generator is given tuples where it needs numbers: a typing error. -/
def gridRaw (a : GridArgs K) (nD : Nat) (eshape : List Nat) (isTuple : Bool) :
    Option (List (List K) × List (List Int)) :=
  match a.bins with
  | some bins =>
    match bins, eshape, a.shift.getD (List.replicate nD 0) with
    | [x, y], [n, m], [s, t] => some (gridBins2 x y n m s t a.start)
    | [x, y, z], [n, m, l], [s, t, u] => some (gridBins3 x y z n m l s t u a.start)
    | _, _, _ => none
  | none =>
    if isTuple then
      match a.size, a.shape.getD (List.replicate nD 1), eshape, a.shift.getD (List.replicate nD 0) with
      | some [lX, lY], [nX, nY], [eX, eY], [s, t] => some (rgrid2 lX lY nX nY eX eY s t a.start)
      | some [lX, lY, lZ], [nX, nY, nZ], [eX, eY, eZ], [s, t, u] =>
        some (rgrid3 lX lY lZ nX nY nZ eX eY eZ s t u a.start)
      | _, _, _, _ => none
    else none

/-- grid.py 174-179. -/
def gridCenter (centralize : Bool) (nD : Nat) (coords : List (List K)) : Option (List (List K)) :=
  if centralize then centralizeRows coords nD else some coords

/-- grid.py 181-185. -/
def gridPath (path : Option (List Nat)) (topo : List (List Int)) : Option (List (List Int)) :=
  match path with
  | none => some topo
  | some p => transformTopology topo [p] p.length 0

/-- grid.py 174-187: centralisation, then the reordering of the columns. -/
def gridFinish (centralize : Bool) (nD : Nat) (path : Option (List Nat)) (g : List (List K) × List (List Int)) :
    Option (List (List K) × List (List Int)) := do
  let coords ← gridCenter centralize nD g.1
  let topo ← gridPath path g.2
  return (coords, topo)

/-- grid.py 111-117, 159-187. -/
def gridCore (a : GridArgs K) (eshape : List Nat) (isTuple : Bool) (path : Option (List Nat)) :
    Option (List (List K) × List (List Int)) := do
  let nD ← a.nDime
  let g ← gridRaw a nD eshape isTuple
  gridFinish a.centralize nD path g

/-- `gridQ4`, `gridQ9`, `gridH8`, `gridH27`, grid.py 191-265: `grid` with a fixed element shape, then a
reordering of the columns. -/
def gridNamed (eshape path : List Nat) (a : GridArgs K) : Option (List (List K) × List (List Int)) := do
  let g ← gridCore a eshape true none
  (transformTopology g.2 [path] path.length 0).map fun t => (g.1, t)

def pathQ4 : List Nat := [0, 2, 3, 1]
def pathQ9 : List Nat := [0, 6, 8, 2, 3, 7, 5, 1, 4]
def pathH8 : List Nat := [0, 4, 6, 2, 1, 5, 7, 3]
def pathH27 : List Nat := [0, 18, 24, 6, 2, 20, 26, 8, 9, 21, 15, 3, 11, 23, 17, 5, 1, 19, 25, 7, 4, 22, 10, 16, 12, 14, 13]

/-- `gridQ4`, grid.py 191-215. -/
def gridQ4 (a : GridArgs K) := gridNamed [2, 2] pathQ4 a
/-- `gridQ9`, grid.py 218-229. -/
def gridQ9 (a : GridArgs K) := gridNamed [3, 3] pathQ9 a
/-- `gridH8`, grid.py 232-243. -/
def gridH8 (a : GridArgs K) := gridNamed [2, 2, 2] pathH8 a
/-- `gridH27`, grid.py 247-265. -/
def gridH27 (a : GridArgs K) := gridNamed [3, 3, 3] pathH27 a

/-- `grid`, grid.py 16-188. For a named element shape the argument `path` is not forwarded. -/
def grid (a : GridArgs K) (eshape : EShape) (path : Option (List Nat)) : Option (List (List K) × List (List Int)) := do
  let nD ← a.nDime
  match eshape with
  | .absent => gridCore a (List.replicate nD 2) false path
  | .tuple l => gridCore a l true path
  | .name "Q4" => gridQ4 { a with shift := some (a.shift.getD (List.replicate nD 0)) }
  | .name "Q9" => gridQ9 { a with shift := some (a.shift.getD (List.replicate nD 0)) }
  | .name "H8" => gridH8 { a with shift := some (a.shift.getD (List.replicate nD 0)) }
  | .name "H27" => gridH27 { a with shift := some (a.shift.getD (List.replicate nD 0)) }
  | .name _ => none

end
end PM
