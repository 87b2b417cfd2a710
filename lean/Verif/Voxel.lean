import Verif.Plate
import Verif.Topo
import Mathlib.Analysis.Real.Sqrt

/-!
# Model: voxels of a cylinder, `voxelize.py` and `recipes.py` 83-150

The frame is the default one: the centres are those of the coordinates of the grid. Numbers of subdivisions that are not
positive count as errors.
-/

namespace PM

section
variable {K : Type} [Field K]

/-- The argument `radius`: an integer, a float, or two numbers (a tuple, a list or an array). -/
inductive RadiusArg (K : Type) where
  | int (n : Int)
  | float (x : K)
  | pair (r0 r1 : K)

/-- voxelize.py 17-20 (recipes.py 140-143 is the same): a float becomes an array without axes; the later `radius[1]` raises. -/
def RadiusArg.get : RadiusArg K → Option (K × K)
  | .int n => some (0, (n : K))
  | .float _ => none
  | .pair r0 r1 => some (r0, r1)

variable [LinearOrder K] [FloorRing K]

/-- voxelize.py 21-26: the grid of the bounding box. -/
def voxelGrid (r1 height size : K) : Option (List (List K) × Topo) :=
  if size = 0 then none
  else
    let nXY := ⌈2 * r1 / size⌉
    let nZ := ⌈height / size⌉
    if nXY ≤ 0 ∨ nZ ≤ 0 then none
    else (grid { size := some [2 * r1, 2 * r1, height], shape := some [nXY.toNat, nXY.toNat, nZ.toNat], centralize := true }
        (.name "H8") none).map fun (g : List (List K) × List (List Int)) => (g.1, g.2.map (List.map Int.toNat))

/-- voxelize.py 27-32 for a condition on the centres. -/
def voxelizeWith (r1 height size : K) (keep : List K → Bool) : Option (List (List K) × Topo) := do
  let g ← voxelGrid r1 height size
  let centers ← cellCentersBulk g.1 g.2 3
  detachMeshBulk g.1 (maskRows g.2 centers keep)

end

/-- voxelize.py 29-30. -/
noncomputable def ringKeep (r0 r1 : ℝ) (c : List ℝ) : Bool :=
  decide (Real.sqrt (c.getD 0 0 ^ 2 + c.getD 1 0 ^ 2) ≤ r1) && decide (r0 ≤ Real.sqrt (c.getD 0 0 ^ 2 + c.getD 1 0 ^ 2))

/-- `voxelize_cylinder`, voxelize.py 14-32. -/
noncomputable def voxelizeCylinder (radius : RadiusArg ℝ) (height size : ℝ) : Option (List (List ℝ) × Topo) := do
  let r ← radius.get
  voxelizeWith r.2 height size (ringKeep r.1 r.2)

/-- The argument `size` of `cylinder`. -/
inductive SizeArg (K : Type) where
  | int (n : Int)
  | float (x : K)

/-- recipes.py 146-149. Division by the integer 0 gives infinity and an error in the end. -/
noncomputable def SizeArg.get (r : ℝ × ℝ) : SizeArg ℝ → Option ℝ
  | .int n => if n = 0 then none else some ((r.2 - r.1) / (n : ℝ))
  | .float x => some x

/-- `cylinder` with `voxelize=True`, recipes.py 132-150; the angle is ignored. -/
noncomputable def cylinderVoxels (radius : RadiusArg ℝ) (height : ℝ) (size : SizeArg ℝ) : Option (List (List ℝ) × Topo) :=
  radius.get.bind fun r => (size.get r).bind fun s => voxelizeCylinder (.pair r.1 r.2) height s

end PM
