import Verif.Frames
import Verif.Topo

/-!
# Points around points

`points_around` (utils/utils.py 26-74) with the functions it calls (77-95, 120-142, 161-173), and the serial version
`_cells_around_ST_` (145-158), which is never called.

Coordinates are real numbers. `where` with the comparison of floats is a filter with the comparison of reals. The loop over
`prange` writes row `iE` and `widths[iE]` only, so the result is the list of rows.
-/

namespace PM

open V3

open Classical in
/-- `np.where(norms(centers - centers[iE]) <= r_max)[0]`, utils/utils.py 166 and 155; `norms` 946-966. -/
noncomputable def whereNear (centers : List (V3 ℝ)) (r : ℝ) (p : V3 ℝ) : List Nat :=
  (List.range centers.length).filter fun k => decide (∃ q, centers[k]? = some q ∧ vnorm (q - p) ≤ r)

/-- One row of `res` in `_cells_around_MT_`, utils/utils.py 163-171: `n_max` entries, zero where nothing is written. -/
def padRow (nmax : Nat) (inds : List Nat) : List Nat :=
  if inds.length ≤ nmax then inds ++ List.replicate (nmax - inds.length) 0 else inds.take nmax

/-- `_cells_around_MT_`, utils/utils.py 161-173. Note that `widths[iE] = len(res[iE])` is the length of the whole row. -/
noncomputable def cellsAroundMT (centers : List (V3 ℝ)) (r : ℝ) (nmax : Nat) : List (List Nat) × List Nat :=
  let res := centers.map fun p => padRow nmax (whereNear centers r p)
  (res, res.map List.length)

/-- `_cells_around_ST_`, utils/utils.py 145-158. -/
noncomputable def cellsAroundST (centers : List (V3 ℝ)) (r : ℝ) : List (List Nat) × List Nat :=
  let res := centers.map fun p => whereNear centers r p
  (res, res.map List.length)

/-- `_cells_data_to_dict`, utils/utils.py 120-126; the key of row `i` is `i`. -/
def cellsDataToDict (data : List (List Nat)) (widths : List Nat) : PyDict Nat (List Nat) :=
  (data.zip widths).zipIdx.map fun q => (q.2, q.1.1.take q.1.2)

/-- `_flatten_jagged_data` and `_cells_data_to_jagged`, utils/utils.py 129-142: the flat data and the cuts given to
`JaggedArray`. Slices `inds[i] : inds[i+1]` of consecutive cuts, so the flat array is the concatenation (of floats in the code). -/
def cellsDataToJagged (data : List (List Nat)) (widths : List Nat) : List Nat × List Nat :=
  ((data.zip widths).flatMap fun q => q.1.take q.2, widths)

/-- `csr_matrix(data=, indices=, indptr=, shape=)`. -/
structure CsrN where
  data : List Nat
  indices : List Nat
  indptr : List Nat
  shape : Nat × Nat
deriving DecidableEq

/-- `_dict_to_spdata`, utils/utils.py 77-95: rows in the order of the keys (`widths[i]` is the length of row `i`). -/
def dictToSpdata (d : PyDict Nat (List Nat)) (widths : List Nat) : CsrN :=
  ⟨d.flatMap Prod.snd, d.flatMap fun q => List.range q.2.length, indptrOf (d.map fun q => q.2.length),
    (widths.length, widths.foldl max 0)⟩

/-- Row `i` of a sparse matrix: the stored values between two pointers. -/
def CsrN.row? (m : CsrN) (i : Nat) : Option (List Nat) :=
  (m.indptr[i]?).bind fun a => (m.indptr[i + 1]?).map fun b => (m.data.drop a).take (b - a)

/-- `points_around(points, r_max, frmt="dict", n_max=)`, utils/utils.py 26-74. -/
noncomputable def pointsAroundDict (points : List (V3 ℝ)) (r : ℝ) (nmax : Nat) : PyDict Nat (List Nat) :=
  cellsDataToDict (cellsAroundMT points r nmax).1 (cellsAroundMT points r nmax).2

/-- `frmt="jagged"`. -/
noncomputable def pointsAroundJagged (points : List (V3 ℝ)) (r : ℝ) (nmax : Nat) : List Nat × List Nat :=
  cellsDataToJagged (cellsAroundMT points r nmax).1 (cellsAroundMT points r nmax).2

/-- `frmt="csr"`. -/
noncomputable def pointsAroundCsr (points : List (V3 ℝ)) (r : ℝ) (nmax : Nat) : CsrN :=
  dictToSpdata (pointsAroundDict points r nmax) (cellsAroundMT points r nmax).2

end PM
