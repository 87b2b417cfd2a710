import Verif.Misc
import Verif.Grid
import Verif.CellData
import Verif.Cells
import Verif.Transform

/-!
# Model: the ribbed plate, `recipes.py` 189-329

The coordinates of a point are a row `[x, y, z]`. The grid is made with the default `start=0`: its entries are not
negative and are stored as natural numbers. Only the points and the cells are modelled; the frames and the container the
code puts them into are not.
-/

namespace PM

section
variable {K : Type} [Field K] [LinearOrder K]

/-- The arguments of the ribs in one direction (`wx`, `hx`, `ex` or `wy`, `hy`, `ey`). -/
structure RibArgs (K : Type) where
  w : Option K := none
  h : Option K := none
  e : Option K := none

/-- recipes.py 271-272, 278-279: ribs are made if the width and the height are given, the default eccentricity is 0. -/
def RibArgs.get (a : RibArgs K) : Option (K × K × K) :=
  match a.w, a.h with
  | some w, some h => some (w, h, a.e.getD 0)
  | _, _ => none

/-- recipes.py 273, 280: the bins of the ribs across their direction. -/
def ribAcross : Option (K × K × K) → List K
  | some r => [-r.1 / 2, r.1 / 2]
  | none => []

/-- recipes.py 274-277, 281-284: the bins of the ribs along the thickness. -/
def ribThrough (t : K) : Option (K × K × K) → List K
  | some r => (if r.2.2 - r.2.1 / 2 < -t / 2 then [r.2.2 - r.2.1 / 2] else []) ++
      (if t / 2 < r.2.2 + r.2.1 / 2 then [r.2.2 + r.2.1 / 2] else [])
  | none => []

/-- recipes.py 266-284: the bins in the three directions. -/
def plateRaw (lx ly t : K) (rx ry : Option (K × K × K)) : List K × List K × List K :=
  ([-lx / 2, 0, lx / 2] ++ ribAcross ry, [-ly / 2, 0, ly / 2] ++ ribAcross rx,
    [-t / 2, 0, t / 2] ++ ribThrough t rx ++ ribThrough t ry)

/-- `cell_centers_bulk`, utils.py 367-383: the means of the points of the cells; `none`: a node without a point. -/
def cellCentersBulk (coords : List (List K)) (topo : Topo) (nD : Nat) : Option (List (List K)) :=
  (topo.mapM fun (row : List Nat) => row.mapM fun (n : Nat) => coords[n]?).map fun (e : List (List (List K))) =>
    e.map fun c => centerOf c nD

/-- recipes.py 305-307, 309-311: is the centre inside of the rib? `d` is the direction across the rib. -/
def inRib (d : Nat) (r : Option (K × K × K)) (c : List K) : Bool :=
  match r with
  | some r => decide (-r.1 / 2 < c.getD d 0) && decide (c.getD d 0 < r.1 / 2) &&
      decide (r.2.2 - r.2.1 / 2 < c.getD 2 0) && decide (c.getD 2 0 < r.2.2 + r.2.1 / 2)
  | none => false

/-- The mask, recipes.py 302-311. -/
def plateKeep (t : K) (rx ry : Option (K × K × K)) (c : List K) : Bool :=
  (decide (-t / 2 < c.getD 2 0) && decide (c.getD 2 0 < t / 2)) || inRib 1 rx c || inRib 0 ry c

/-- `topo[mask, :]`, recipes.py 312. -/
def maskRows (topo : Topo) (centers : List (List K)) (keep : List K → Bool) : Topo :=
  ((topo.zip centers).filter fun p => keep p.2).map Prod.fst

/-- The grid of the bins, recipes.py 294-299; `none`: an invalid order. -/
def plateGrid (bins : List (List K)) (order : Nat) : Option (List (List K) × Topo) :=
  (if order = 1 then grid { bins := some bins } (.name "H8") none
    else if order = 2 then grid { bins := some bins } (.name "H27") none
    else none).map fun (g : List (List K) × List (List Int)) => (g.1, g.2.map (List.map Int.toNat))

/-- `H8_to_TET4` or `H27_to_TET10`, recipes.py 314-320; tr.py 313-363. -/
def plateTets (order : Nat) (tetrahedralize : Bool) (topo : Topo) : Option Topo :=
  if tetrahedralize then
    if order = 1 then transformTopology topo pathH8TET4 4 0 else transformTopology topo pathH27TET10 10 0
  else some topo

variable [FloorRing K]

/-- The points and cells of `ribbed_plate`, recipes.py 189-329. -/
def ribbedPlate (lx ly t : K) (ax ay : RibArgs K) (lmax : LMax K) (order : Nat) (tetrahedralize : Bool) :
    Option (List (List K) × Topo) := do
  let raw := plateRaw lx ly t ax.get ay.get
  let xb ← plateBins raw.1 lmax
  let yb ← plateBins raw.2.1 lmax
  let zb ← plateBins raw.2.2 lmax
  let g ← plateGrid [xb, yb, zb] order
  let centers ← cellCentersBulk g.1 g.2 3
  let topo ← plateTets order tetrahedralize (maskRows g.2 centers (plateKeep t ax.get ay.get))
  detach g.1 topo none

end
end PM
