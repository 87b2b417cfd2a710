import Verif.Transform
import Verif.Cells
import Verif.Geom
import Mathlib.Algebra.Order.Field.Basic

/-!
# Model: the points and lines made by `triangulate`, `triang.py` 98-172

The triangulation itself (matplotlib, scipy, vtk) is not modelled: it is a list of triangles. Random numbers are parameters.
-/

namespace PM

section
variable {K : Type} [Field K]

/-- `np.linspace(a, b, num)`. -/
def linspace (a b : K) (num : Nat) : List K :=
  if num = 1 then [a] else (List.range num).map fun (i : Nat) => a + (i : K) * ((b - a) / ((num : K) - 1))

/-- `np.linspace(a, b, num, endpoint=False)`. -/
def linspaceOpen (a b : K) (num : Nat) : List K := (List.range num).map fun (i : Nat) => a + (i : K) * ((b - a) / (num : K))

/-- The argument `shape` of `triangulate`. -/
inductive TriShape where
  | default
  | int (n : Nat)
  | pair (n m : Nat)

/-- triang.py 103-108: a pair is completed by a zero. -/
def triOrigo : Option (List K) → Option (K × K × K)
  | none => some (0, 0, 0)
  | some [a, b] => some (a, b, 0)
  | some [a, b, c] => some (a, b, c)
  | some _ => none

/-- The regular points, triang.py 128-135: `np.meshgrid` runs through the values of x first. The height of `origo` is not used
for the points. -/
def triGridPoints (size : K × K) (n m : Nat) (o : K × K × K) : List (V3 K) :=
  (linspace (-o.2.1) (size.2 - o.2.1) m).flatMap fun (y : K) => (linspace (-o.1) (size.1 - o.1) n).map fun (x : K) => ⟨x, y, 0⟩

/-- The random points, triang.py 113-124: the corners, then the points with the random numbers `rx`, `ry` in [0, 1). -/
def triRandomPoints (size : K × K) (rx ry : List K) (o : K × K × K) : List (V3 K) :=
  ((([0, 1, 1, 0] : List K) ++ rx).zip ([0, 0, 1, 1] ++ ry)).map fun (p : K × K) => ⟨p.1 * size.1 - o.1, p.2 * size.2 - o.2.1, 0 - o.2.2⟩

/-- The points `triangulate` makes of `size`, `shape` and `origo`, triang.py 98-135. `isTuple`: `size` is a tuple, not a list or
an array. `none`: an exception (`shape[0]` of an integer, `points[:, 0]` of `None`). -/
def triPoints (size : K × K) (isTuple : Bool) (shape : TriShape) (origo : Option (List K)) (random : Bool) (rx ry : List K) :
    Option (List (V3 K)) :=
  (triOrigo origo).bind fun o =>
    match shape with
    | .int _ => if random then some (triRandomPoints size rx ry o) else none
    | .default => if isTuple then some (triGridPoints size 1 1 o) else none
    | .pair n m => if isTuple then some (triGridPoints size n m o) else none

end

/-- `edges_tri` for one list of triangles, tri.py 485-504. -/
def edgesTri (triangles : Topo) : Option (List (List (List Nat))) :=
  triangles.mapM fun (t : List Nat) => edgeIdsT3.mapM fun (e : List Nat) => e.mapM fun q => t[q]?

/-- `edges_tri` for several lists of triangles, tri.py 507-514; every iteration of the parallel loop fills its own entry. -/
def edgesTriPop (pop : List Topo) : Option (List (List (List (List Nat)))) := pop.mapM edgesTri

/-- `triangulate(..., return_lines=True)`, triang.py 167-170: the edges and those of each triangle. -/
def triLines (triangles : Topo) : Option (List (List Nat) × List (List Nat)) := (edgesTri triangles).map uniqueTopoData

end PM
