import Verif.Basic
import Verif.Geom

/-!
# Stacking topologies, flipping cells

`topoarray.py`, `PolyCell.flip` (cell.py 280-286). The base class `JaggedArray` is external: an array built from flat data and
`cuts` is the list of rows with these widths, an error if the widths do not add up to the size of the data.
-/

namespace PM

/-- `JaggedArray(data, cuts=cuts)` (external). -/
def unflatten {α : Type} (data : List α) : List Nat → Option (List (List α))
  | [] => if data.isEmpty then some [] else none
  | w :: ws => if w ≤ data.length then (unflatten (data.drop w) ws).map fun r => data.take w :: r else none

/-- `a[pos : pos + len(v)] = v`. -/
def writeAt {α : Type} (a : List α) (pos : Nat) (v : List α) : List α := a.take pos ++ v ++ a.drop (pos + v.length)

/-- A regular topology: an array of shape (n, width); a one-dimensional array counts as one row (`atleast2d(front=True)`). -/
structure RTopo where
  width : Nat
  rows : Topo
  regular : ∀ r ∈ rows, r.length = width

/-- State of the second loop of `TopologyArray.__init__`, topoarray.py 101-110. -/
structure StackState where
  data : List Nat
  cuts : List Nat
  cN : Nat
  cE : Nat

/-- One iteration, topoarray.py 104-110. -/
def StackState.step (s : StackState) (t : RTopo) : StackState :=
  let dE := t.rows.length
  let dN := dE * t.width
  ⟨writeAt s.data s.cN t.rows.flatten, writeAt s.cuts s.cE (List.replicate dE t.width), s.cN + dN, s.cE + dE⟩

/-- The first loop, topoarray.py 96-100: total number of nodes and cells. -/
def stackSizes (ts : List RTopo) : Nat × Nat :=
  ts.foldl (fun s t => (s.1 + t.rows.length * t.width, s.2 + t.rows.length)) (0, 0)

/-- The flat data and the widths of `TopologyArray(*topo)`, topoarray.py 92-110. -/
def stackData (ts : List RTopo) : StackState :=
  ts.foldl StackState.step
    ⟨List.replicate (stackSizes ts).1 0, List.replicate (stackSizes ts).2 0, 0, 0⟩

/-- `TopologyArray(*topo)` without `cuts`, topoarray.py 84-111. A single array is stored as it is. -/
def topologyArray : List RTopo → Option Topo
  | [t] => some t.rows
  | ts => unflatten (stackData ts).data (stackData ts).cuts

/-- `np.vstack`, topoarray.py 144-148. Concatenating nothing is an error. -/
def topoVstack (ts : List Topo) : Option Topo :=
  if ts.isEmpty then none else
  unflatten (ts.map List.flatten).flatten (ts.map fun t => t.map List.length).flatten

/-- `PolyCell.flip`, cell.py 280-286: `np.flip(topo, axis=1)`. -/
def flipCells (t : Topo) : Topo := t.map List.reverse

end PM
