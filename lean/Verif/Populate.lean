import Verif.Triang
import Verif.Geom

/-!
# Model: repeated triangulations

`pop.py` 13-39. `tile(a, da, N)` of neumann is taken to stack `a + i * da` for `i = 0, ..., N - 1`.
-/

namespace PM

/-- `tile(a, da, N)` of an integer array. -/
def repeatTopo (a : Topo) (d N : Nat) : Topo := (List.range N).flatMap fun i => a.map fun row => row.map fun n => n + i * d

/-- pop.py 24-25: lines are found unless both arguments are given. -/
def linesOrGiven (topo : Topo) (edges edgeIDs : Option Topo) : Option (Topo × Topo) :=
  match edges, edgeIDs with
  | some E, some I => some (E, I)
  | _, _ => triLines topo

section
variable {K : Type} [Field K]

/-- `tile(points, dp, N)`. -/
def tilePoints (points : List (V3 K)) (dp : V3 K) (N : Nat) : List (V3 K) :=
  (List.range N).flatMap fun i => points.map fun p => p + ((i : Nat) : K) • dp

/-- `populate_trimesh_T3_njit`, pop.py 35-39. -/
def populateT3 (points : List (V3 K)) (topo : Topo) (dp : V3 K) (N : Nat) : List (V3 K) × Topo :=
  (tilePoints points dp N, repeatTopo topo points.length N)

/-- `populate_trimesh_T3(..., return_lines=True)`, pop.py 22-31: points, edges, triangles and the edges of the triangles. -/
def populateT3Lines (points : List (V3 K)) (topo : Topo) (dp : V3 K) (N : Nat) (edges edgeIDs : Option Topo) :
    Option (List (V3 K) × Topo × Topo × Topo) :=
  (linesOrGiven topo edges edgeIDs).map fun l =>
    ((populateT3 points topo dp N).1, repeatTopo l.1 points.length N, (populateT3 points topo dp N).2, repeatTopo l.2 l.1.length N)

end

end PM
