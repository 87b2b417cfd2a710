import Verif.PropsGenShape

/-!
# Centres of the master cells

`lcenter` of the classes of cells (cells/*.py), and the default of `PolyCell` (cell.py 86-96) and of `PolyCell2d` (cell.py 776-786), which
use `cell_center` (utils.py 345-364) and `cell_center_2d` (utils.py 324-342) of `lcoords`.
-/

namespace PM

/-- The arrays returned by `lcenter`: some classes return a vector, others a matrix with one row. -/
inductive CenterArr where
  | vec (l : List ℚ)
  | rows (l : List (List ℚ))
deriving DecidableEq

/-- A class of cells: its name, dimension, doubled `lcoords` and `lcenter`. -/
structure MasterClass where
  name : String
  dim : Nat
  lc : List (V3 Int)
  center : CenterArr

/-- cells/l2.py 65-74 -/
def classL2 : MasterClass := ⟨"L2", 1, lcL2, .vec [0]⟩
/-- cells/l3.py 57-66 -/
def classL3 : MasterClass := ⟨"L3", 1, Shp.lcL3, .vec [0]⟩
/-- cells/t3.py 62-71 -/
def classT3 : MasterClass := ⟨"T3", 2, lcT3, .rows [[1 / 3, 1 / 3]]⟩
/-- cells/t6.py 66-75 -/
def classT6 : MasterClass := ⟨"T6", 2, lcT6, .rows [[1 / 3, 1 / 3]]⟩
/-- cells/q4.py 62-71 -/
def classQ4 : MasterClass := ⟨"Q4", 2, lcQ4, .vec [0, 0]⟩
/-- cells/q9.py 83-92 -/
def classQ9 : MasterClass := ⟨"Q9", 2, lcQ9, .vec [0, 0]⟩
/-- cells/tet4.py 57-59 -/
def classTET4 : MasterClass := ⟨"TET4", 3, lcTET4, .rows [[1 / 3, 1 / 3, 1 / 3]]⟩
/-- cells/tet10.py 63-65 -/
def classTET10 : MasterClass := ⟨"TET10", 3, lcTET10, .rows [[1 / 3, 1 / 3, 1 / 3]]⟩
/-- cells/h8.py 89-98 -/
def classH8 : MasterClass := ⟨"H8", 3, lcH8, .vec [0, 0, 0]⟩
/-- cells/h27.py 148-157 -/
def classH27 : MasterClass := ⟨"H27", 3, lcH27, .vec [0, 0, 0]⟩
/-- cells/w6.py 57-59 -/
def classW6 : MasterClass := ⟨"W6", 3, lcW6, .rows [[1 / 3, 1 / 3, 0]]⟩
/-- cells/w18.py 88-90 -/
def classW18 : MasterClass := ⟨"W18", 3, lcW18, .rows [[1 / 3, 1 / 3, 0]]⟩

/-- The classes of the package `cells`. -/
def masterClasses : List MasterClass :=
  [classL2, classL3, classT3, classT6, classQ4, classQ9, classTET4, classTET10, classH8, classH27, classW6, classW18]

/-- `np.mean` of a column; `none`: not a number. -/
def lcMean (l : List ℚ) : Option ℚ := if l.isEmpty then none else some (l.sum / l.length)

/-- The default of two-dimensional cells, cell.py 786 with utils.py 324-342. -/
def lcenter2d (nodes : List (V3 ℚ)) : Option CenterArr :=
  (lcMean (nodes.map V3.x)).bind fun a => (lcMean (nodes.map V3.y)).map fun b => .vec [a, b]

/-- The default of other cells, cell.py 96 with utils.py 345-370: three columns are read. -/
def lcenter3d (nodes : List (V3 ℚ)) : Option CenterArr :=
  (lcMean (nodes.map V3.x)).bind fun a => (lcMean (nodes.map V3.y)).bind fun b => (lcMean (nodes.map V3.z)).map fun c => .vec [a, b, c]

end PM
