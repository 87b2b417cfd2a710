import Verif.Geom
import Mathlib.Algebra.Order.AbsoluteValue.Basic

/-!
# Tetrahedra

Models `utils/tet.py`. Element coordinates (arrays of shape (4, 3)) are quadruples of points.
-/

namespace PM

/-- Four corners: one `ecoords` array. -/
@[ext] structure Tet (K : Type) where
  p0 : V3 K
  p1 : V3 K
  p2 : V3 K
  p3 : V3 K
deriving DecidableEq, Repr

/-- Natural coordinates of a tetrahedron. -/
@[ext] structure N4 (K : Type) where
  n1 : K
  n2 : K
  n3 : K
  n4 : K
deriving DecidableEq, Repr

section
variable {K : Type} [Field K]

/-- `vol_tet`, tet.py 8-35. -/
def volTet (t : Tet K) : K :=
  let v1 := t.p1 - t.p0
  let v2 := t.p2 - t.p0
  let v3 := t.p3 - t.p0
  V3.dot (V3.cross v1 v2) v3 / 6

/-- `glob_to_nat_tet`, tet.py 69-94: volumes with one corner replaced by the point. Division by a zero volume is
infinite or NaN in the code and zero here; all theorems assume a non-zero volume. -/
def globToNatTet (g : V3 K) (t : Tet K) : N4 K :=
  let V := volTet t
  let v1 := volTet { t with p0 := g } / V
  let v2 := volTet { t with p1 := g } / V
  let v3 := volTet { t with p2 := g } / V
  ⟨v1, v2, v3, 1 - v1 - v2 - v3⟩

/-- `lcoords_tet`, tet.py 147-155. -/
def lcoordsTet : Tet K := ⟨⟨0, 0, 0⟩, ⟨1, 0, 0⟩, ⟨0, 1, 0⟩, ⟨0, 0, 1⟩⟩

/-- `nat_to_loc_tet`, tet.py 158-168: `acoord.T @ lcoords_tet()`. -/
def natToLocTet (n : N4 K) : V3 K :=
  let l : Tet K := lcoordsTet
  n.n1 • l.p0 + (n.n2 • l.p1 + (n.n3 • l.p2 + n.n4 • l.p3))

end

section
variable {K : Type} [Field K] [LinearOrder K]

/-- `vol_tet_bulk`, tet.py 38-66. Each iteration of the parallel loop writes its own entry. -/
def volTetBulk (ts : List (Tet K)) : List K := (ts.map volTet).map fun v => |v|

/-- The test of `__pip_tet_bulk__`, tet.py 108-117, for one point and one tetrahedron. -/
def pipTet (tol : K) (n : N4 K) : Bool :=
  (decide (-tol < n.n1) && decide (-tol < n.n2) && decide (-tol < n.n3) && decide (-tol < n.n4)) &&
  (decide (n.n1 < 1 + tol) && decide (n.n2 < 1 + tol) && decide (n.n3 < 1 + tol) && decide (n.n4 < 1 + tol))

/-- `_pip_tet_bulk_`, tet.py 120-123: a table of tests. -/
def pipTetBulk (tol : K) (points : List (V3 K)) (ts : List (Tet K)) : List (List Bool) :=
  points.map fun p => ts.map fun t => pipTet tol (globToNatTet p t)

/-- `_pip_tet_bulk_knn_`, tet.py 126-131: for each point the tests with the candidate tetrahedra listed for it;
`none`: a candidate out of range. -/
def pipTetKnn (tol : K) (points : List (V3 K)) (ts : List (Tet K)) (nb : List (List Nat)) : Option (List (List Bool)) :=
  (points.zip nb).mapM fun x => x.2.mapM fun k => (ts[k]?).map fun t => pipTet tol (globToNatTet x.1 t)

end

end PM
