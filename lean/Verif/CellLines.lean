import Verif.Transform
import Verif.Cells

/-!
# Model: the lines of cells, `utils/topology/tr.py` 398-473

`T3_to_L2`, `TET4_to_L2` and `H8_to_L2` pass the coordinates on unchanged; only the lines are modelled.
-/

namespace PM

/-- The argument `path`: missing, an array with rows of length `width`, or anything else. -/
inductive PathArg where
  | missing
  | array (rows : List (List Nat)) (width : Nat)
  | other

/-- `np.reshape(a, (nE, nSub, nSubN))` of rows of length `nSubN`; `none`: the size does not fit. -/
def reshapeRows {α : Type} (nE nSub : Nat) (rows : List α) : Option (List (List α)) :=
  if rows.length = nE * nSub then some ((List.range nE).map fun i => (rows.drop (i * nSub)).take nSub) else none

/-- tr.py 415-419 (also 441-445, 467-471): transform, group by cells, keep every line once. -/
def cellLines (topo : Topo) (path : List (List Nat)) (width : Nat) : Option Topo :=
  (transformTopology topo path width 0).bind fun rows =>
    (reshapeRows topo.length path.length rows).map fun blocks => (uniqueTopoData blocks).1

/-- The common body of the three functions, tr.py 406-422: the check of the argument `path`, the default, the lines; `data` given
or a wrong path: an exception. -/
def linesOf (n : Nat) (default : List (List Nat)) (path : PathArg) (hasData : Bool) (topo : Topo) : Option Topo :=
  match path with
  | .array rows width => if rows.length = n ∧ width = 2 ∧ hasData = false then cellLines topo rows width else none
  | .missing => if hasData = false then cellLines topo default 2 else none
  | .other => none

/-- `T3_to_L2`, tr.py 398-421. -/
def linesT3 := linesOf 3 edgeIdsT3

/-- `TET4_to_L2`, tr.py 424-447. -/
def linesTET4 := linesOf 6 edgeIdsTET4

/-- `H8_to_L2`, tr.py 450-473. -/
def linesH8 := linesOf 12 edgeIdsH8

end PM
