import Verif.Quadrature
import Verif.Topo

/-!
# Areas and volumes of blocks by quadrature

The loops of `volumes` (utils/cells/utils.py 10-21), `volumes_H8` (utils/cells/h8.py 228-239), `volumes_H27` (utils/cells/h27.py 941-952) and
`areas_T6` (utils/cells/t6.py 82-94), and the methods of the classes that call them: `T6.areas` (cells/t6.py 77-89), `TET10.volumes`
(cells/tet10.py 67-77), `H8.volumes` (cells/h8.py 100-112), `H27.volumes` (cells/h27.py 159-173), `W6.volumes` (cells/w6.py 61-67),
`W18.volumes` (cells/w18.py 92-98).
-/

namespace PM

section
variable {K : Type} [Field K]

/-- `np.linalg.det(ecoords[i].T @ dshp)` in space, utils/cells/utils.py 18-19; `none`: the shapes do not fit or the product is not square. -/
def detSpace? (X : List (V3 K)) (d : List (List K)) : Option K :=
  if X.length = d.length ∧ ∀ r ∈ d, r.length = 3 then some (jacDet3 X d) else none

/-- The same in the plane, utils/cells/t6.py 91-92, for the first two coordinates (cells/t6.py 87). -/
def detPlane? (X : List (V3 K)) (d : List (List K)) : Option K :=
  if X.length = d.length ∧ ∀ r ∈ d, r.length = 2 then some (jacDet2 X d) else none

/-- One iteration of the inner loop, utils/cells/utils.py 18-20: `volumes[i] += qweight[iQ] * djac`. -/
def addSize (det : List (V3 K) → List (List K) → Option K) (ecoords : List (List (V3 K))) (d : List (List K)) (w : K) (acc : List K)
    (i : Nat) : Option (List K) :=
  (ecoords[i]?).bind fun X => (det X d).bind fun x => (acc[i]?).map fun a => acc.set i (a + w * x)

/-- One iteration of the outer loop, utils/cells/utils.py 15-20: the inner parallel loop in the order `order`. -/
def addSizes (det : List (V3 K) → List (List K) → Option K) (ecoords : List (List (V3 K))) (dshp : List (List (List K))) (qweight : List K)
    (order : Nat → List Nat → List Nat) (acc : List K) (iQ : Nat) : Option (List K) :=
  (dshp[iQ]?).bind fun d => (qweight[iQ]?).bind fun w => (order iQ (List.range ecoords.length)).foldlM (addSize det ecoords d w) acc

/-- `volumes`, utils/cells/utils.py 10-21 (also h8.py 228-239, h27.py 941-952, t6.py 82-94). -/
def sizesRun (det : List (V3 K) → List (List K) → Option K) (order : Nat → List Nat → List Nat) (ecoords : List (List (V3 K)))
    (dshp : List (List (List K))) (qweight : List K) : Option (List K) :=
  (List.range qweight.length).foldlM (addSizes det ecoords dshp qweight order) (List.replicate ecoords.length 0)

end

/-- The methods of the classes, cells/tet10.py 67-77, h8.py 100-112, h27.py 159-173, w6.py 61-67, w18.py 92-98, t6.py 77-89: coordinates of the
cells, derivatives at the points of the rule, sums. `none` also stands for a node without a point. -/
noncomputable def sizesOfBlock (det : List (V3 ℝ) → List (List ℝ) → Option ℝ) (order : Nat → List Nat → List Nat) (dN : List (List PE))
    (rule : List QP) (coords : List (V3 ℝ)) (topo : Topo) : Option (List ℝ) :=
  (topo.mapM fun row => gather? coords row).bind fun ec =>
    sizesRun det order ec (rule.map fun q => dshpVals dN q.p) (rule.map QP.w)

end PM
