import Verif.Recipes
import Verif.Elevate

/-!
# Model: perforated cubes of first and second order (`recipes.py` 386-406)
-/

namespace PM

noncomputable section

/-- Rows of three coordinates as points. -/
def cubePts (C : List (List ℝ)) : Option (List (V3 ℝ)) :=
  C.mapM fun (r : List ℝ) => match r with
    | [x, y, z] => some ⟨x, y, z⟩
    | _ => none

/-- `perforated_cube(..., order=order)`, recipes.py 391-406; orders other than 1 and 2 raise. -/
def perforatedCubeOrder (delaunay : List (ℝ × ℝ) → Topo) (lx ly lz radius : ℝ) (nangles : Option Nat) (lmax : Option ℝ)
    (prismatic : Bool) (order : Int) : Option (List (V3 ℝ) × Topo) :=
  (perforatedCube delaunay lx ly lz radius nangles lmax prismatic).bind fun m => (cubePts m.1).bind fun C =>
    if order = 1 then some (C, m.2)
    else if order = 2 then (if prismatic then w6ToW18 C m.2 else tet4ToTet10 C m.2)
    else none

end

end PM
