import Verif.PropsShape

/-!
# Generated shape functions

`PolyCell.generate_class_functions`, cell.py 112-192. The inversion of the matrix of monomials (`numpy.linalg.inv`) is a
parameter. Numbers are rationals instead of floats, symbolic differentiation (sympy) is `PE.diff`. The generated
functions for several points apply the expressions to each point in turn.
-/

namespace PM

namespace Shp

open PE (r s t)

/-- `L3.lcoords`, cells/l3.py 47-55, doubled. -/
def lcL3 : List (V3 Int) := [⟨-2, 0, 0⟩, ⟨0, 0, 0⟩, ⟨2, 0, 0⟩]

/-- `L2.polybase`, cells/l2.py 50-52. -/
def baseL2 : List PE := [
  1, r]

/-- `L3.polybase`, cells/l3.py 42-44. -/
def baseL3 : List PE := [
  1, r, r^2]

/-- `T3.polybase`, cells/t3.py 47-49. -/
def baseT3 : List PE := [
  1, r, s]

/-- `T6.polybase`, cells/t6.py 49-51. -/
def baseT6 : List PE := [
  1, r, s, r^2, s^2, r * s]

/-- `Q4.polybase`, cells/q4.py 47-49. -/
def baseQ4 : List PE := [
  1, r, s, r * s]

/-- `Q9.polybase`, cells/q9.py 46-58. -/
def baseQ9 : List PE := [
  1, r, s, r * s, r^2, s^2, r * s^2, s * r^2, s^2 * r^2]

/-- `TET4.polybase`, cells/tet4.py 47-49. -/
def baseTET4 : List PE := [
  1, r, s, t, r * s, r * t, s * t, r^2, s^2, t^2]

/-- `TET10.polybase`, cells/tet10.py 42-44. -/
def baseTET10 : List PE := [
  1, r, s, t, r * s, r * t, s * t, r^2, s^2, t^2]

/-- `H8.polybase`, cells/h8.py 63-65. -/
def baseH8 : List PE := [
  1, r, s, t, r * s, r * t, s * t, r * s * t]

/-- `H27.polybase`, cells/h27.py 74-104. -/
def baseH27 : List PE := [
  1, r, s, t, s * t, r * t, r * s, r * s * t, r^2, s^2, t^2, r^2 * s, r * s^2, r * t^2, r^2 * t, s^2 * t, s *
  t^2, r^2 * s * t, r * s^2 * t, r * s * t^2, r^2 * s^2, s^2 * t^2, r^2 * t^2, r^2 * s^2 * t^2, r^2 * s^2 * t,
  r^2 * s * t^2, r * s^2 * t^2]

/-- `W6.polybase`, cells/w6.py 40-42. -/
def baseW6 : List PE := [
  1, r, s, t, r * t, s * t]

/-- `W18.polybase`, cells/w18.py 40-61. -/
def baseW18 : List PE := [
  1, r, s, r^2, s^2, r * s, t, t * r, t * s, t * r^2, t * s^2, t * r * s, t^2, t^2 * r, t^2 * s, t^2 * r^2, t^2
  * s^2, t^2 * r * s]

end Shp

/-- Master coordinates of nodes. -/
def nodesQ (lc : List (V3 Int)) : List (V3 ℚ) := lc.map fun p => ⟨mkRat p.x 2, mkRat p.y 2, mkRat p.z 2⟩

/-- The matrix `M`, cell.py 146-147: ones in the first column, the values of the other monomials beside it. -/
def genM (nodes : List (V3 ℚ)) (monoms : List PE) : List (List ℚ) :=
  nodes.map fun p => 1 :: monoms.tail.map fun m => m.evalQ p

/-- An entry of a table. -/
def ent (C : List (List ℚ)) (i j : Nat) : ℚ := (C.getD i []).getD j 0

/-- Shape function `i`, cell.py 150: `np.dot(coeffs[:, i], monoms)`. -/
def genShp (C : List (List ℚ)) (monoms : List PE) (i : Nat) : PE :=
  peSum ((List.range monoms.length).map fun k => .mul (.c (ent C k i)) (monoms.getD k (.c 0)))

/-- The shape functions and derivatives, cell.py 134-151. The assignment of the monomials to the matrix fails if their
number is not that of the nodes. -/
def generate (inv : List (List ℚ) → Option (List (List ℚ))) (nodes : List (V3 ℚ)) (monoms : List PE) (dirs : List Dir) :
    Option (List PE × List (List PE)) :=
  if monoms.length ≠ nodes.length then none else
  (inv (genM nodes monoms)).map fun C =>
    let shp := (List.range nodes.length).map (genShp C (.c 1 :: monoms.tail))
    (shp, shp.map fun f => dirs.map fun d => f.diff d)

end PM
