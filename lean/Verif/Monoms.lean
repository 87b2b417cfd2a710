import Verif.Geom

/-!
# Model: monomials of cells and local coordinates by monomials

The evaluators of monomials (`utils/cells/*.py`), `_glob_to_loc_bulk_` and `_glob_to_loc_bulk_2_` (utils/cells/utils.py 50-77),
`_pip_H8_bulk_` and `_pip_H8_bulk_knn_` (utils/cells/h8.py 44-66). The inversion of matrices (`neumann.linalg.inv`) is a parameter. A
point is a `V3`; evaluators for lines and surfaces do not read the other coordinates.
-/

namespace PM

namespace Mono

section
variable {K : Type} [CommRing K]

/-- `monoms_L2`, l2.py 9-10. -/
def L2 (p : V3 K) : List K := [1, p.x]

/-- `monoms_L3`, l3.py 9-10. -/
def L3 (p : V3 K) : List K := [1, p.x, p.x ^ 2]

/-- `monoms_T3`, t3.py 9-11. -/
def T3 (p : V3 K) : List K := [1, p.x, p.y]

/-- `monoms_T6`, t6.py 9-11. -/
def T6 (p : V3 K) : List K := [1, p.x, p.y, p.x ^ 2, p.y ^ 2, p.x * p.y]

/-- `monoms_Q4`, q4.py 13-15. -/
def Q4 (p : V3 K) : List K := [1, p.x, p.y, p.x * p.y]

/-- `monoms_Q9`, q9.py 10-25. -/
def Q9 (p : V3 K) : List K :=
  [1, p.x, p.y, p.x * p.y, p.x ^ 2, p.y ^ 2, p.x * p.y ^ 2, p.y * p.x ^ 2, p.y ^ 2 * p.x ^ 2]

/-- `monoms_TET4_single`, tet4.py 9-13. -/
def TET4 (p : V3 K) : List K :=
  [1, p.x, p.y, p.z, p.x * p.y, p.x * p.z, p.y * p.z, p.x ^ 2, p.y ^ 2, p.z ^ 2]

/-- `monoms_TET10_single`, tet10.py 9-13. -/
def TET10 (p : V3 K) : List K :=
  [1, p.x, p.y, p.z, p.x * p.y, p.x * p.z, p.y * p.z, p.x ^ 2, p.y ^ 2, p.z ^ 2]

/-- `monoms_H8_single`, h8.py 9-11. -/
def H8 (p : V3 K) : List K := [1, p.x, p.y, p.z, p.x * p.y, p.x * p.z, p.y * p.z, p.x * p.y * p.z]

/-- `monoms_H27_single`, h27.py 10-43. -/
def H27 (p : V3 K) : List K :=
  [1, p.x, p.y, p.z, p.y * p.z, p.x * p.z, p.x * p.y, p.x * p.y * p.z, p.x ^ 2, p.y ^ 2, p.z ^ 2, p.x ^ 2 * p.y, p.x * p.y ^ 2,
    p.x * p.z ^ 2, p.x ^ 2 * p.z, p.y ^ 2 * p.z, p.y * p.z ^ 2, p.x ^ 2 * p.y * p.z, p.x * p.y ^ 2 * p.z, p.x * p.y * p.z ^ 2,
    p.x ^ 2 * p.y ^ 2, p.y ^ 2 * p.z ^ 2, p.x ^ 2 * p.z ^ 2, p.x ^ 2 * p.y ^ 2 * p.z ^ 2, p.x ^ 2 * p.y ^ 2 * p.z,
    p.x ^ 2 * p.y * p.z ^ 2, p.x * p.y ^ 2 * p.z ^ 2]

/-- `monoms_W6_single`, w6.py 9-11. -/
def W6 (p : V3 K) : List K := [1, p.x, p.y, p.z, p.x * p.z, p.y * p.z]

/-- `monoms_W18_single`, w18.py 9-33. -/
def W18 (p : V3 K) : List K :=
  [1, p.x, p.y, p.x ^ 2, p.y ^ 2, p.x * p.y, p.z, p.z * p.x, p.z * p.y, p.z * p.x ^ 2, p.z * p.y ^ 2, p.z * p.x * p.y, p.z ^ 2,
    p.z ^ 2 * p.x, p.z ^ 2 * p.y, p.z ^ 2 * p.x ^ 2, p.z ^ 2 * p.y ^ 2, p.z ^ 2 * p.x * p.y]

/-- `monoms_*_multi` (h8.py 15-20, tet4.py 17-22, …): rows of an array with `n` columns; `none` if the monomials do not fit. -/
def multi (n : Nat) (f : V3 K → List K) (pts : List (V3 K)) : Option (List (List K)) :=
  pts.mapM fun p => if (f p).length = n then some (f p) else none

/-- Assigning rows to `n` rows (`res[i] = ...`): as many rows, or one row, which is repeated; `none`: any other number. -/
def fitRows {β : Type} (n : Nat) (rows : List β) : Option (List β) :=
  if rows.length = n then some rows else match rows with
    | [r] => some (List.replicate n r)
    | _ => none

/-- `monoms_*_bulk_multi` (h8.py 24-29, …): tables of `n` rows, one for the points of every cell. -/
def bulk (n : Nat) (f : V3 K → List K) (cells : List (List (V3 K))) : Option (List (List (List K))) :=
  cells.mapM fun c => (multi n f c).bind (fitRows n)

/-- The six classes whose monomials are found by a function that looks at the number of axes of its argument. -/
inductive Solid
  | TET4 | TET10 | H8 | H27 | W6 | W18
deriving DecidableEq, Repr

/-- The number of columns of the arrays: tet4.py 19, tet10.py 19, h8.py 17, h27.py 49, w6.py 17, w18.py 39. -/
def Solid.cols : Solid → Nat
  | .TET4 => 4 | .TET10 => 10 | .H8 => 8 | .H27 => 27 | .W6 => 6 | .W18 => 18

/-- The evaluator for one point. -/
def Solid.one : Solid → V3 K → List K
  | .TET4 => Mono.TET4 | .TET10 => Mono.TET10 | .H8 => Mono.H8 | .H27 => Mono.H27 | .W6 => Mono.W6 | .W18 => Mono.W18

/-- The argument: an array with one, two, three or any other number of axes. -/
inductive Arg (K : Type)
  | point (p : V3 K) | points (ps : List (V3 K)) | cells (cs : List (List (V3 K))) | other (axes : Nat)

/-- The result: an array with one, two or three axes. -/
inductive Res (K : Type)
  | row (r : List K) | table (t : List (List K)) | tables (ts : List (List (List K)))
deriving DecidableEq, Repr

/-- `monoms_TET4`, tet4.py 34-43, `monoms_TET10`, tet10.py 34-43, `monoms_H8`, h8.py 32-41, `monoms_H27`, h27.py 64-73, `monoms_W6`,
w6.py 32-41, `monoms_W18`, w18.py 54-63. -/
def call (c : Solid) : Arg K → Option (Res K)
  | .point p => some (.row (c.one p))
  | .points ps => (multi c.cols c.one ps).map .table
  | .cells cs => (bulk c.cols c.one cs).map .tables
  | .other _ => none

end

section
variable {K : Type} [Field K]

/-- An entry of a table. -/
def at2 (C : List (List K)) (i j : Nat) : K := (C.getD i []).getD j 0

/-- `coeffs @ m` with `coeffs = C.T`, utils.py 59-61. -/
def shpAt (C : List (List K)) (m : List K) : List K :=
  (List.range m.length).map fun i => ((List.range m.length).map fun k => at2 C k i * m.getD k 0).sum

/-- `_glob_to_loc_bulk_`, utils/cells/utils.py 50-63: for every cell the local coordinates of every point. -/
def globToLocBulk (inv : List (List K) → Option (List (List K))) (lc : List (V3 K)) (cells : List (List (List K)))
    (points : List (List K)) : Option (List (List (V3 K))) :=
  cells.mapM fun M => (inv M).map fun C => points.map fun m => lincomb (shpAt C m) lc

/-- `_glob_to_loc_bulk_2_`, utils/cells/utils.py 66-75: the local coordinates of point `i` in cell `i`; `none` also if there are fewer
cells than points. -/
def globToLocBulk2 (inv : List (List K) → Option (List (List K))) (lc : List (V3 K)) (cells : List (List (List K)))
    (points : List (List K)) : Option (List (V3 K)) :=
  points.zipIdx.mapM fun (p : List K × Nat) => (cells[p.2]?).bind fun M => (inv M).map fun C => lincomb (shpAt C p.1) lc

variable [LinearOrder K]

/-- Both comparisons, h8.py 50-52. -/
def inCube (tol : K) (x : V3 K) : Bool :=
  (decide (-1 - tol < x.x) && decide (-1 - tol < x.y) && decide (-1 - tol < x.z)) &&
  (decide (x.x < 1 + tol) && decide (x.y < 1 + tol) && decide (x.z < 1 + tol))

/-- `_pip_H8_bulk_`, h8.py 44-53: from one row per cell to one row per point. -/
def pipH8 (tol : K) (nP : Nat) (x : List (List (V3 K))) : List (List Bool) :=
  (List.range nP).map fun i => x.map fun row => inCube tol (row.getD i 0)

/-- `_pip_H8_bulk_knn_`, h8.py 56-66: the entries of the table of neighbours are not used; `none`: more neighbours than cells. -/
def pipH8Knn (tol : K) (nP : Nat) (x : List (List (V3 K))) (knn : List (List Nat)) : Option (List (List Bool)) :=
  (List.range nP).mapM fun i => ((knn[i]?).bind fun row => ((List.range row.length).mapM fun k =>
    (x[k]?).map fun r => inCube tol (r.getD i 0)).map fun l => l ++ List.replicate (x.length - row.length) false)

end

end Mono

end PM
