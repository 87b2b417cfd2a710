import Verif.GenShape
import Mathlib.Analysis.Real.Sqrt

/-!
# Quadrature rules, areas and volumes

`utils/cells/gauss.py` and the loops computing areas and volumes from them. A rule is the list of its points with
weights. The rules on intervals and their products (`neumann.numint.gauss_points`) come from another library and are
parameters. Numbers are reals instead of floats. Rules for triangles have third coordinate 0.
-/

namespace PM

/-- A point of a quadrature rule with its weight. -/
structure QP where
  p : V3 ℝ
  w : ℝ

noncomputable section

/-- `Gauss_Legendre_Tri_1`, gauss.py 16-17. -/
def gaussTri1 : List QP := [⟨⟨1 / 3, 1 / 3, 0⟩, 1 / 2⟩]

/-- `Gauss_Legendre_Tri_3a`, gauss.py 20-23. -/
def gaussTri3a : List QP := [⟨⟨1 / 6, 1 / 6, 0⟩, 1 / 6⟩, ⟨⟨2 / 3, 1 / 6, 0⟩, 1 / 6⟩, ⟨⟨1 / 6, 2 / 3, 0⟩, 1 / 6⟩]

/-- `Gauss_Legendre_Tri_3b`, gauss.py 26-29. -/
def gaussTri3b : List QP := [⟨⟨1 / 2, 1 / 2, 0⟩, 1 / 6⟩, ⟨⟨0, 1 / 2, 0⟩, 1 / 6⟩, ⟨⟨1 / 2, 0, 0⟩, 1 / 6⟩]

/-- `Gauss_Legendre_Tet_1`, gauss.py 55-58. -/
def gaussTet1 : List QP := [⟨⟨1 / 4, 1 / 4, 1 / 4⟩, 1 / 6⟩]

/-- `a` of `Gauss_Legendre_Tet_4`, gauss.py 62. -/
def tet4a : ℝ := (5 + 3 * Real.sqrt 5) / 20

/-- `b` of `Gauss_Legendre_Tet_4`, gauss.py 63. -/
def tet4b : ℝ := (5 - Real.sqrt 5) / 20

/-- `Gauss_Legendre_Tet_4`, gauss.py 61-66. -/
def gaussTet4 : List QP := [⟨⟨tet4a, tet4b, tet4b⟩, 1 / 24⟩, ⟨⟨tet4b, tet4a, tet4b⟩, 1 / 24⟩,
  ⟨⟨tet4b, tet4b, tet4a⟩, 1 / 24⟩, ⟨⟨tet4b, tet4b, tet4b⟩, 1 / 24⟩]

/-- `Gauss_Legendre_Tet_5`, gauss.py 69-80. -/
def gaussTet5 : List QP := [⟨⟨1 / 4, 1 / 4, 1 / 4⟩, -4 / 30⟩, ⟨⟨1 / 2, 1 / 6, 1 / 6⟩, 9 / 120⟩,
  ⟨⟨1 / 6, 1 / 2, 1 / 6⟩, 9 / 120⟩, ⟨⟨1 / 6, 1 / 6, 1 / 2⟩, 9 / 120⟩, ⟨⟨1 / 6, 1 / 6, 1 / 6⟩, 9 / 120⟩]

/-- `a` of `Gauss_Legendre_Tet_11`, gauss.py 84. -/
def tet11a : ℝ := (1 + 3 * Real.sqrt (5 / 15)) / 4

/-- `b` of `Gauss_Legendre_Tet_11`, gauss.py 85. -/
def tet11b : ℝ := (1 - Real.sqrt (5 / 14)) / 4

/-- `Gauss_Legendre_Tet_11`, gauss.py 83-116. -/
def gaussTet11 : List QP := [⟨⟨1 / 4, 1 / 4, 1 / 4⟩, -74 / 5625⟩, ⟨⟨11 / 14, 1 / 14, 1 / 14⟩, 343 / 45000⟩,
  ⟨⟨1 / 14, 11 / 14, 1 / 14⟩, 343 / 45000⟩, ⟨⟨1 / 14, 1 / 14, 11 / 14⟩, 343 / 45000⟩,
  ⟨⟨1 / 14, 1 / 14, 1 / 14⟩, 343 / 45000⟩, ⟨⟨tet11a, tet11a, tet11b⟩, 56 / 2250⟩,
  ⟨⟨tet11a, tet11b, tet11a⟩, 56 / 2250⟩, ⟨⟨tet11a, tet11b, tet11b⟩, 56 / 2250⟩,
  ⟨⟨tet11b, tet11a, tet11a⟩, 56 / 2250⟩, ⟨⟨tet11b, tet11a, tet11b⟩, 56 / 2250⟩,
  ⟨⟨tet11b, tet11b, tet11a⟩, 56 / 2250⟩]

/-- `Gauss_Legendre_Wedge_3x2`, gauss.py 131-142, from the rule on the interval with two points: both layers are at the
height of the first of them. -/
def gaussWedge3x2 (line : List (ℝ × ℝ)) : Option (List QP) :=
  match line with
  | [p0, p1] => some ((gaussTri3a.map fun q => ⟨⟨q.p.x, q.p.y, p0.1⟩, q.w * p0.2⟩) ++
      gaussTri3a.map fun q => ⟨⟨q.p.x, q.p.y, p0.1⟩, q.w * p1.2⟩)
  | _ => none

/-- `Gauss_Legendre_Wedge_3x3`, gauss.py 145-155. -/
def gaussWedge3x3 (line : List (ℝ × ℝ)) : List QP :=
  line.flatMap fun l => gaussTri3a.map fun q => ⟨⟨q.p.x, q.p.y, l.1⟩, q.w * l.2⟩

/-- The product of rules on intervals, `gauss_points(n, m, k)` of `neumann`, used for quadrilaterals and hexahedra,
gauss.py 35-49, 122-125. -/
def gaussHex (lx ly lz : List (ℝ × ℝ)) : List QP :=
  lx.flatMap fun a => ly.flatMap fun b => lz.map fun c => ⟨⟨a.1, b.1, c.1⟩, a.2 * b.2 * c.2⟩

end

/-! ## areas and volumes -/

section
variable {K : Type} [Field K]

/-- Column `d` of `ecoords.T @ dshp`: the derivative of the position in a local direction, from the nodes of the cell
and the values of the derivatives of shape functions. -/
def jacCol (X : List (V3 K)) (dN : List (List K)) (d : Nat) : V3 K :=
  (X.zip dN).foldr (fun q acc => (q.2.getD d 0) • q.1 + acc) 0

/-- `det(ecoords.T @ dshp)` in space, utils/cells/utils.py 18-19, h8.py, h27.py. -/
def jacDet3 (X : List (V3 K)) (dN : List (List K)) : K :=
  V3.det3 (jacCol X dN 0) (jacCol X dN 1) (jacCol X dN 2)

/-- The same in the plane, t6.py 91-92. -/
def jacDet2 (X : List (V3 K)) (dN : List (List K)) : K :=
  (jacCol X dN 0).x * (jacCol X dN 1).y - (jacCol X dN 1).x * (jacCol X dN 0).y

/-- Values of a table of derivatives. -/
def dshpVals (dN : List (List PE)) (x : V3 K) : List (List K) := dN.map fun row => row.map fun e => e.eval x

end

/-- `volumes`, utils/cells/utils.py 10-21; `volumes_H8`, h8.py 228-239; `volumes_H27`, h27.py 941-952, for one cell:
the loop over the points of the rule adds the weighted determinants. -/
noncomputable def volumeQ (dN : List (List PE)) (rule : List QP) (X : List (V3 ℝ)) : ℝ :=
  rule.foldl (fun acc q => acc + q.w * jacDet3 X (dshpVals dN q.p)) 0

/-- `areas_T6`, t6.py 82-94, for one cell. -/
noncomputable def areaQ (dN : List (List PE)) (rule : List QP) (X : List (V3 ℝ)) : ℝ :=
  rule.foldl (fun acc q => acc + q.w * jacDet2 X (dshpVals dN q.p)) 0

end PM
