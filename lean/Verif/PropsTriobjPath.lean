import Verif.PropsSection
import Verif.PropsVolumes

/-!
# C14: what the path of `TriMesh.to_triobj` does

The path is right for triangles whose nodes `3`, `4`, `5` are opposite to the corners `0`, `1`, `2` (the order of `sectionproperties`); with the
order of the class `T6` one triangle of each cell keeps its orientation and three are turned over.
-/

namespace PM

open V3

section
variable {K : Type} [Field K] [LinearOrder K] [IsStrictOrderedRing K]

/-- **C14** on six-noded triangles with mid-side nodes opposite to the corners the path of `TriMesh.to_triobj` tiles the triangle with triangles of the
same orientation. -/
theorem C14_triobj_partial : Tiles K lcSection [0, 1, 2] pathTriobj 3 ∧
    ∀ A : Aff K, 0 < A.det → ∀ t ∈ pathTriobj, PosPiece2 (fun i => A.app (half (lcSection.getD i 0))) A.c t lcT3 :=
  ⟨tiles_section K, fun A hA => posPiece2_of (m := triMap) (by decide) A hA⟩

end

section
variable {K : Type} [Field K] [CharZero K]

/-- **C14** on straight-sided triangles in the order of `T6` the first three triangles of the path are turned over and the last one is not: each has a
quarter of the area of the cell up to sign, and together they have minus half of it. -/
theorem C14_triobj_exact (c : V3 K) (X : Nat → V3 K) (h3 : X 3 = mid (X 0) (X 1)) (h4 : X 4 = mid (X 1) (X 2)) (h5 : X 5 = mid (X 2) (X 0)) :
    (pathTriobj.map fun t => triSum c X [t]) =
      [-(area2 c (X 0) (X 1) (X 2) / 4), -(area2 c (X 0) (X 1) (X 2) / 4), -(area2 c (X 0) (X 1) (X 2) / 4), area2 c (X 0) (X 1) (X 2) / 4] ∧
    triSum c X pathTriobj = -(area2 c (X 0) (X 1) (X 2) / 2) := by
  refine ⟨?_, ?_⟩
  · simp only [pathTriobj, List.map_cons, List.map_nil, triSum, List.sum_cons, List.sum_nil, List.cons.injEq, and_true]
    refine ⟨?_, ?_, ?_, ?_⟩ <;> simp [area2, sub, h3, h4, h5, mid, det3] <;> ring
  · simp [pathTriobj, triSum, area2, sub, h3, h4, h5, mid, det3]; ring

end

end PM
