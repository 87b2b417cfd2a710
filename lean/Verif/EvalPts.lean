import Verif.GenShape
import Verif.ShapeFn
import Verif.Cells
import Verif.Jacobian
import Mathlib.Algebra.Order.Floor.Ring

/-!
# Model: shape functions at several points

`shape_function_values`, `shape_function_matrix` and `shape_function_derivatives` of the classes of cells, cell.py 195-278, with the compiled loops over
points in utils/cells/*.py and the generated ones, cell.py 154-180.
-/

namespace PM

open Shp

/-- What the three functions need of a class. -/
structure ShpClass where
  /-- `NDIM` -/
  nD : Nat
  /-- compiled functions (numba); otherwise generated with SymPy -/
  compiled : Bool
  /-- the compiled functions take the first two numbers of a point (`pcoord[:2]`) -/
  cut : Bool
  /-- the compiled derivatives do not look at the points -/
  blind : Bool
  N : List PE
  dN : List (List PE)
  /-- the size of the identity matrix, if it is fixed -/
  eye : Option Nat
  /-- the default of `ndof` -/
  dof : Nat

/-- `L2`, cells/l2.py 29-31, utils/cells/l2.py 21-60. -/
def clsL2 : ShpClass := ⟨1, true, false, true, shpL2, dshpL2, none, 2⟩
/-- `T3`, cells/t3.py 26-28, utils/cells/t3.py 20-59. -/
def clsT3 : ShpClass := ⟨2, true, false, true, shpT3, dshpT3, none, 2⟩
/-- `T6`, cells/t6.py 28-30, utils/cells/t6.py 30-79. -/
def clsT6 : ShpClass := ⟨2, true, true, false, shpT6, dshpT6, none, 2⟩
/-- `Q4`, cells/q4.py 26-28, utils/cells/q4.py 41-89. -/
def clsQ4 : ShpClass := ⟨2, true, true, false, shpQ4, dshpQ4, none, 2⟩
/-- `Q9`, cells/q9.py 25-27, utils/cells/q9.py 67-152. -/
def clsQ9 : ShpClass := ⟨2, true, true, false, shpQ9, dshpQ9, none, 2⟩
/-- `TET4`, cells/tet4.py 26-28, utils/cells/tet4.py 52-93. -/
def clsTET4 : ShpClass := ⟨3, true, false, true, shpTET4, dshpTET4, none, 3⟩
/-- `H8`, cells/h8.py 42-44, utils/cells/h8.py 142-225. -/
def clsH8 : ShpClass := ⟨3, true, false, false, shpH8, dshpH8, some 3, 3⟩
/-- `H27`, cells/h27.py 52-54, utils/cells/h27.py 301-938. -/
def clsH27 : ShpClass := ⟨3, true, false, false, shpH27, dshpH27, none, 3⟩

/-- A class whose functions are generated, cell.py 107-193; `NDOFN` is not set by any class. -/
def genCls (inv : List (List ℚ) → Option (List (List ℚ))) (nD : Nat) (lc : List (V3 Int)) (base : List PE) : Option ShpClass :=
  (generate inv (nodesQ lc) base ([Dir.r, Dir.s, Dir.t].take nD)).map fun g => ⟨nD, false, false, false, g.1, g.2, none, 3⟩

/-- `np.array(pcoords)` with one or two axes; `int` tells if its numbers are of an integer type. -/
inductive PArr (K : Type)
  | vec (int : Bool) (a : List K)
  | mat (int : Bool) (a : List (List K))

section
variable {K : Type}

def PArr.isInt : PArr K → Bool
  | .vec i _ => i
  | .mat i _ => i

/-- `len(pcoords)` -/
def PArr.len : PArr K → Nat
  | .vec _ a => a.length
  | .mat _ a => a.length

/-- `atleast2d(pcoords, front=True)` of solids, cell.py 214-216. -/
def PArr.front (nD : Nat) : PArr K → PArr K
  | .vec i a => if nD = 3 then .mat i [a] else .vec i a
  | .mat i a => .mat i a

variable [Field K]

/-- `r, s, t = pcoord`, and with less variables for less dimensions; another number of coordinates is an error. -/
def ShpClass.point? (c : ShpClass) (a : List K) : Option (V3 K) :=
  match c.nD, (if c.cut then a.take 2 else a) with
  | 1, [r] => some ⟨r, 0, 0⟩
  | 2, [r, s] => some ⟨r, s, 0⟩
  | 3, [r, s, t] => some ⟨r, s, t⟩
  | _, _ => none

/-- The points of the loop. The compiled functions of `L2` take numbers, the other ones arrays; the generated ones take arrays for lines also, and
`np.stack` needs at least one point. -/
def ShpClass.points? (c : ShpClass) : PArr K → Option (List (V3 K))
  | .vec _ a => if c.compiled = true ∧ c.nD = 1 then some (a.map fun r => ⟨r, 0, 0⟩) else none
  | .mat _ a => if c.compiled = true ∧ c.nD = 1 then none else if c.compiled = false ∧ a = [] then none else a.mapM c.point?

variable [LinearOrder K] [FloorRing K]

/-- The conversion to an integer type, towards zero. -/
def truncK (x : K) : K := if 0 ≤ x then (⌊x⌋ : ℤ) else (⌈x⌉ : ℤ)

/-- The results of the compiled functions are arrays of the type of the points (`dtype=pcoords.dtype`). -/
def ShpClass.store (c : ShpClass) (int : Bool) (x : K) : K := if c.compiled = true ∧ int = true then truncK x else x

/-- `shape_function_values`, cell.py 195-218. -/
def shapeValues (c : ShpClass) (p : PArr K) : Option (List (List K)) :=
  (c.points? (p.front c.nD)).map fun P => P.map fun x => c.N.map fun e => c.store p.isInt (e.eval x)

/-- `shape_function_derivatives`, cell.py 256-278. (Those of `L2` come without the last axis.) -/
def shapeDerivs (c : ShpClass) (p : PArr K) : Option (List (List (List K))) :=
  if c.blind then
    some (List.replicate (p.front c.nD).len (c.dN.map fun row => row.map fun e => c.store p.isInt (e.eval ⟨0, 0, 0⟩)))
  else (c.points? (p.front c.nD)).map fun P => P.map fun x => c.dN.map fun row => row.map fun e => c.store p.isInt (e.eval x)

/-- The number of unknowns per node, cell.py 239-253; no `N` and `N=0` stand for the default of the functions. -/
def ShpClass.dofs (c : ShpClass) : Option Nat → Nat
  | none => c.dof
  | some 0 => c.dof
  | some n => n

/-- `shape_function_matrix`, cell.py 221-253. -/
def shapeMatrices (c : ShpClass) (N : Option Nat) (p : PArr K) : Option (List (List (List K))) :=
  (shapeValues c p).bind fun V => V.mapM fun shp =>
    (shpMatWrites (c.dofs N) (c.dofs N) (c.eye.getD (c.dofs N)) shp).map fun w => shpMat (c.dofs N) c.N.length w

end

end PM
