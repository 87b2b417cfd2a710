import Verif.Geom
import Verif.Topo
import Mathlib.Algebra.Order.Field.Basic

/-!
# Tiling a rectangle with a mesh

`tile2d`, tile.py 12-74. `minmax` (neumann) returns the smallest and the largest entry. Coordinates have three columns.
The two nested `prange` loops are a list of pairs `(i, j)` in an arbitrary order (`order`): iteration `(i, j)` writes to the rows of
its own block only.
-/

namespace PM

section
variable {K : Type} [Field K] [LinearOrder K]

/-- Smallest entry, `minmax(...)[0]`; fails on empty data. -/
def minK? : List K → Option K
  | [] => none
  | a :: l => some (l.foldl min a)

/-- Largest entry, `minmax(...)[1]`. -/
def maxK? : List K → Option K
  | [] => none
  | a :: l => some (l.foldl max a)

/-- `np.where(np.abs(v - c) < tol)[0]`, tile.py 37-40. -/
def whereClose (v : List K) (c tol : K) : List Nat :=
  (v.zipIdx.filter fun q => decide (|q.1 - c| < tol)).map Prod.snd

/-- The blocks, tile.py 50-51. -/
def tileBlocks (nX nY : Nat) : List (Nat × Nat) := (List.range nX).flatMap fun i => (List.range nY).map fun j => (i, j)

/-- `imap[inds_old] = inds_new`, tile.py 63-70: the arrays must have the same length. -/
def assignMap (a b : List Nat) : Option (List (Nat × Nat)) := if a.length = b.length then some (a.zip b) else none

/-- The index lists of the borders. -/
structure Borders where
  x0 : List Nat
  x1 : List Nat
  y0 : List Nat
  y1 : List Nat

/-- The assignments to `imap` of iteration `(i, j)`, tile.py 60-70. -/
def tileWrites (b : Borders) (nY nP : Nat) (ij : Nat × Nat) : Option (List (Nat × Nat)) :=
  (if 0 < ij.1 then assignMap (b.x0.map (· + (ij.1 * nY + ij.2) * nP)) (b.x1.map (· + ((ij.1 - 1) * nY + ij.2) * nP))
    else some []).bind fun wx =>
  (if 0 < ij.2 then assignMap (b.y0.map (· + (ij.1 * nY + ij.2) * nP)) (b.y1.map (· + (ij.1 * nY + (ij.2 - 1)) * nP))
    else some []).map fun wy => wx ++ wy

/-- The map to renumber coincident nodes. -/
def tileImap (b : Borders) (nX nY nP : Nat) (order : List (Nat × Nat)) : Option (List Nat) :=
  (order.mapM fun ij => tileWrites b nY nP ij).map fun w => toArr (nX * nY * nP) (runW w.flatten id)

/-- The topologies of the blocks, tile.py 52-55. -/
def tileTopo (nX nY nP : Nat) (topo : Topo) : Topo :=
  (tileBlocks nX nY).flatMap fun ij => topo.map fun row => row.map (· + (ij.1 * nY + ij.2) * nP)

/-- The points of the blocks, tile.py 56-60. -/
def tileCoords (nX nY : Nat) (coords : List (V3 K)) (dx dy : K) : List (V3 K) :=
  (tileBlocks nX nY).flatMap fun ij => coords.map fun p => ⟨p.x + (ij.1 : K) * dx, p.y + (ij.2 : K) * dy, p.z⟩

/-- `tile2d`, tile.py 12-74. -/
def tile2d (order : List (Nat × Nat)) (coords : List (V3 K)) (topo : Topo) (nX nY : Nat) (tol : K) : Option (List (V3 K) × Topo) :=
  (minK? (coords.map V3.x)).bind fun x0 => (maxK? (coords.map V3.x)).bind fun x1 =>
  (minK? (coords.map V3.y)).bind fun y0 => (maxK? (coords.map V3.y)).bind fun y1 =>
  (tileImap ⟨whereClose (coords.map V3.x) x0 tol, whereClose (coords.map V3.x) x1 tol,
    whereClose (coords.map V3.y) y0 tol, whereClose (coords.map V3.y) y1 tol⟩ nX nY coords.length order).bind fun imap =>
  (remapTopo (tileTopo nX nY coords.length topo) (.arr imap)).bind fun t =>
  detachMeshBulk (tileCoords nX nY coords (x1 - x0) (y1 - y0)) t

end

end PM
