import Verif.Cells

/-!
# Property C14 (splitting of cells): the pieces tile the parent
-/

set_option linter.unnecessarySeqFocus false
set_option linter.unusedTactic false
set_option linter.unreachableTactic false

namespace PM
open V3

/-! ## C14 -/

/-- **C14** `T6_to_T3` -/
theorem C14_tiles_T6_to_T3 (K : Type) [Field K] [LinearOrder K] [IsStrictOrderedRing K] :
    Tiles K lcT6 [0, 1, 2] pathT6T3 3 := by
  refine tiles_of_master (by decide +kernel) fun ξ hξ => ?_
  have b0 := hull_bound (⟨1, 0, 0⟩, 0) (by decide) hξ
  have b1 := hull_bound (⟨0, 1, 0⟩, 0) (by decide) hξ
  have b2 := hull_bound (⟨-1, -1, 0⟩, 2) (by decide) hξ
  have b3 := hull_bound (⟨0, 0, 1⟩, 0) (by decide) hξ
  have b4 := hull_bound (⟨0, 0, -1⟩, 0) (by decide) hξ
  norm_num at b0 b1 b2 b3 b4
  rcases le_total 0 (2 * ξ.x - 1 : K) with h | h
  · exact ⟨[3, 1, 4], by decide, hull_nil3 _ _ _ ((-2) * ξ.x + (-2) * ξ.y + (2)) ((2) * ξ.x + (-1)) ((2) * ξ.y)
      (by linarith) (by linarith) (by linarith) (by ring) ξ
      (by simp [half, lcT6, lcT3] <;> linarith) (by simp [half, lcT6, lcT3] <;> linarith) (by simp [half, lcT6, lcT3] <;> linarith)⟩
  · rcases le_total 0 (2 * ξ.y - 1 : K) with h | h
    · exact ⟨[5, 4, 2], by decide, hull_nil3 _ _ _ ((-2) * ξ.x + (-2) * ξ.y + (2)) ((2) * ξ.x) ((2) * ξ.y + (-1))
        (by linarith) (by linarith) (by linarith) (by ring) ξ
        (by simp [half, lcT6, lcT3] <;> linarith) (by simp [half, lcT6, lcT3] <;> linarith) (by simp [half, lcT6, lcT3] <;> linarith)⟩
    · rcases le_total 0 (1 - 2 * ξ.x - 2 * ξ.y : K) with h | h
      · exact ⟨[0, 3, 5], by decide, hull_nil3 _ _ _ ((-2) * ξ.x + (-2) * ξ.y + (1)) ((2) * ξ.x) ((2) * ξ.y)
          (by linarith) (by linarith) (by linarith) (by ring) ξ
          (by simp [half, lcT6, lcT3] <;> linarith) (by simp [half, lcT6, lcT3] <;> linarith) (by simp [half, lcT6, lcT3] <;> linarith)⟩
      · exact ⟨[5, 3, 4], by decide, hull_nil3 _ _ _ ((-2) * ξ.x + (1)) ((-2) * ξ.y + (1)) ((2) * ξ.x + (2) * ξ.y + (-1))
          (by linarith) (by linarith) (by linarith) (by ring) ξ
          (by simp [half, lcT6, lcT3] <;> linarith) (by simp [half, lcT6, lcT3] <;> linarith) (by simp [half, lcT6, lcT3] <;> linarith)⟩

/-- **C14** `Q4_to_T3` -/
theorem C14_tiles_Q4_to_T3 (K : Type) [Field K] [LinearOrder K] [IsStrictOrderedRing K] :
    Tiles K lcQ4 [0, 1, 2, 3] pathQ4T3 3 := by
  refine tiles_of_master (by decide +kernel) fun ξ hξ => ?_
  have b0 := hull_bound (⟨1, 0, 0⟩, 2) (by decide) hξ
  have b1 := hull_bound (⟨-1, 0, 0⟩, 2) (by decide) hξ
  have b2 := hull_bound (⟨0, 1, 0⟩, 2) (by decide) hξ
  have b3 := hull_bound (⟨0, -1, 0⟩, 2) (by decide) hξ
  have b4 := hull_bound (⟨0, 0, 1⟩, 0) (by decide) hξ
  have b5 := hull_bound (⟨0, 0, -1⟩, 0) (by decide) hξ
  norm_num at b0 b1 b2 b3 b4 b5
  rcases le_total 0 (ξ.x - ξ.y : K) with h | h
  · exact ⟨[0, 1, 2], by decide, hull_nil3 _ _ _ ((-1/2) * ξ.x + (1/2)) ((1/2) * ξ.x + (-1/2) * ξ.y) ((1/2) * ξ.y + (1/2))
      (by linarith) (by linarith) (by linarith) (by ring) ξ
      (by simp [half, lcQ4] <;> linarith) (by simp [half, lcQ4] <;> linarith) (by simp [half, lcQ4] <;> linarith)⟩
  · exact ⟨[0, 2, 3], by decide, hull_nil3 _ _ _ ((-1/2) * ξ.y + (1/2)) ((1/2) * ξ.x + (1/2)) ((-1/2) * ξ.x + (1/2) * ξ.y)
      (by linarith) (by linarith) (by linarith) (by ring) ξ
      (by simp [half, lcQ4] <;> linarith) (by simp [half, lcQ4] <;> linarith) (by simp [half, lcQ4] <;> linarith)⟩

/-- **C14** `Q4_to_T3(path="grid")` on cells of a grid -/
theorem C14_tiles_Q4_to_T3_grid (K : Type) [Field K] [LinearOrder K] [IsStrictOrderedRing K] :
    Tiles K lcGrid4 [0, 1, 2, 3] pathQ4T3Grid 3 := by
  refine tiles_of_master (by decide +kernel) fun ξ hξ => ?_
  have b0 := hull_bound (⟨1, 0, 0⟩, 2) (by decide) hξ
  have b1 := hull_bound (⟨-1, 0, 0⟩, 2) (by decide) hξ
  have b2 := hull_bound (⟨0, 1, 0⟩, 2) (by decide) hξ
  have b3 := hull_bound (⟨0, -1, 0⟩, 2) (by decide) hξ
  have b4 := hull_bound (⟨0, 0, 1⟩, 0) (by decide) hξ
  have b5 := hull_bound (⟨0, 0, -1⟩, 0) (by decide) hξ
  norm_num at b0 b1 b2 b3 b4 b5
  rcases le_total 0 (ξ.x - ξ.y : K) with h | h
  · exact ⟨[0, 2, 3], by decide, hull_nil3 _ _ _ ((-1/2) * ξ.x + (1/2)) ((1/2) * ξ.x + (-1/2) * ξ.y) ((1/2) * ξ.y + (1/2))
      (by linarith) (by linarith) (by linarith) (by ring) ξ
      (by simp [half, lcGrid4] <;> linarith) (by simp [half, lcGrid4] <;> linarith) (by simp [half, lcGrid4] <;> linarith)⟩
  · exact ⟨[0, 3, 1], by decide, hull_nil3 _ _ _ ((-1/2) * ξ.y + (1/2)) ((1/2) * ξ.x + (1/2)) ((-1/2) * ξ.x + (1/2) * ξ.y)
      (by linarith) (by linarith) (by linarith) (by ring) ξ
      (by simp [half, lcGrid4] <;> linarith) (by simp [half, lcGrid4] <;> linarith) (by simp [half, lcGrid4] <;> linarith)⟩

/-- **C14** `Q8_to_T3` -/
theorem C14_tiles_Q8_to_T3 (K : Type) [Field K] [LinearOrder K] [IsStrictOrderedRing K] :
    Tiles K lcQ8 [0, 1, 2, 3] pathQ8T3 3 := by
  refine tiles_of_master (by decide +kernel) fun ξ hξ => ?_
  have b0 := hull_bound (⟨1, 0, 0⟩, 2) (by decide) hξ
  have b1 := hull_bound (⟨-1, 0, 0⟩, 2) (by decide) hξ
  have b2 := hull_bound (⟨0, 1, 0⟩, 2) (by decide) hξ
  have b3 := hull_bound (⟨0, -1, 0⟩, 2) (by decide) hξ
  have b4 := hull_bound (⟨0, 0, 1⟩, 0) (by decide) hξ
  have b5 := hull_bound (⟨0, 0, -1⟩, 0) (by decide) hξ
  norm_num at b0 b1 b2 b3 b4 b5
  rcases le_total 0 (-1 - ξ.x - ξ.y : K) with h | h
  · exact ⟨[0, 4, 7], by decide, hull_nil3 _ _ _ ((-1) * ξ.x + (-1) * ξ.y + (-1)) ((1) * ξ.x + (1)) ((1) * ξ.y + (1))
      (by linarith) (by linarith) (by linarith) (by ring) ξ
      (by simp [half, lcQ8, lcQ4] <;> linarith) (by simp [half, lcQ8, lcQ4] <;> linarith) (by simp [half, lcQ8, lcQ4] <;> linarith)⟩
  · rcases le_total 0 (ξ.x - ξ.y - 1 : K) with h | h
    · exact ⟨[4, 1, 5], by decide, hull_nil3 _ _ _ ((-1) * ξ.x + (1)) ((1) * ξ.x + (-1) * ξ.y + (-1)) ((1) * ξ.y + (1))
        (by linarith) (by linarith) (by linarith) (by ring) ξ
        (by simp [half, lcQ8, lcQ4] <;> linarith) (by simp [half, lcQ8, lcQ4] <;> linarith) (by simp [half, lcQ8, lcQ4] <;> linarith)⟩
    · rcases le_total 0 (ξ.x + ξ.y - 1 : K) with h | h
      · exact ⟨[5, 2, 6], by decide, hull_nil3 _ _ _ ((-1) * ξ.y + (1)) ((1) * ξ.x + (1) * ξ.y + (-1)) ((-1) * ξ.x + (1))
          (by linarith) (by linarith) (by linarith) (by ring) ξ
          (by simp [half, lcQ8, lcQ4] <;> linarith) (by simp [half, lcQ8, lcQ4] <;> linarith) (by simp [half, lcQ8, lcQ4] <;> linarith)⟩
      · rcases le_total 0 (ξ.y - ξ.x - 1 : K) with h | h
        · exact ⟨[6, 3, 7], by decide, hull_nil3 _ _ _ ((1) * ξ.x + (1)) ((-1) * ξ.x + (1) * ξ.y + (-1)) ((-1) * ξ.y + (1))
            (by linarith) (by linarith) (by linarith) (by ring) ξ
            (by simp [half, lcQ8, lcQ4] <;> linarith) (by simp [half, lcQ8, lcQ4] <;> linarith) (by simp [half, lcQ8, lcQ4] <;> linarith)⟩
        · rcases le_total 0 (-ξ.x : K) with h | h
          · exact ⟨[4, 6, 7], by decide, hull_nil3 _ _ _ ((1/2) * ξ.x + (-1/2) * ξ.y + (1/2)) ((1/2) * ξ.x + (1/2) * ξ.y + (1/2)) ((-1) * ξ.x)
              (by linarith) (by linarith) (by linarith) (by ring) ξ
              (by simp [half, lcQ8, lcQ4] <;> linarith) (by simp [half, lcQ8, lcQ4] <;> linarith) (by simp [half, lcQ8, lcQ4] <;> linarith)⟩
          · exact ⟨[4, 5, 6], by decide, hull_nil3 _ _ _ ((-1/2) * ξ.x + (-1/2) * ξ.y + (1/2)) ((1) * ξ.x) ((-1/2) * ξ.x + (1/2) * ξ.y + (1/2))
              (by linarith) (by linarith) (by linarith) (by ring) ξ
              (by simp [half, lcQ8, lcQ4] <;> linarith) (by simp [half, lcQ8, lcQ4] <;> linarith) (by simp [half, lcQ8, lcQ4] <;> linarith)⟩

/-- **C14** triangles of 9-noded quadrilaterals (`trimap`) -/
theorem C14_tiles_Q9_trimap (K : Type) [Field K] [LinearOrder K] [IsStrictOrderedRing K] :
    Tiles K lcQ9 [0, 1, 2, 3] trimapQ9 3 := by
  refine tiles_of_master (by decide +kernel) fun ξ hξ => ?_
  have b0 := hull_bound (⟨1, 0, 0⟩, 2) (by decide) hξ
  have b1 := hull_bound (⟨-1, 0, 0⟩, 2) (by decide) hξ
  have b2 := hull_bound (⟨0, 1, 0⟩, 2) (by decide) hξ
  have b3 := hull_bound (⟨0, -1, 0⟩, 2) (by decide) hξ
  have b4 := hull_bound (⟨0, 0, 1⟩, 0) (by decide) hξ
  have b5 := hull_bound (⟨0, 0, -1⟩, 0) (by decide) hξ
  norm_num at b0 b1 b2 b3 b4 b5
  rcases le_total 0 (ξ.x : K) with h | h
  · rcases le_total 0 (ξ.y : K) with h | h
    · rcases le_total 0 (ξ.x - ξ.y : K) with h | h
      · exact ⟨[8, 5, 2], by decide, hull_nil3 _ _ _ ((-1) * ξ.x + (1)) ((1) * ξ.x + (-1) * ξ.y) ((1) * ξ.y)
          (by linarith) (by linarith) (by linarith) (by ring) ξ
          (by simp [half, lcQ9, lcQ8, lcQ4] <;> linarith) (by simp [half, lcQ9, lcQ8, lcQ4] <;> linarith) (by simp [half, lcQ9, lcQ8, lcQ4] <;> linarith)⟩
      · exact ⟨[8, 2, 6], by decide, hull_nil3 _ _ _ ((-1) * ξ.y + (1)) ((1) * ξ.x) ((-1) * ξ.x + (1) * ξ.y)
          (by linarith) (by linarith) (by linarith) (by ring) ξ
          (by simp [half, lcQ9, lcQ8, lcQ4] <;> linarith) (by simp [half, lcQ9, lcQ8, lcQ4] <;> linarith) (by simp [half, lcQ9, lcQ8, lcQ4] <;> linarith)⟩
    · rcases le_total 0 (ξ.x - 1 - ξ.y : K) with h | h
      · exact ⟨[4, 1, 5], by decide, hull_nil3 _ _ _ ((-1) * ξ.x + (1)) ((1) * ξ.x + (-1) * ξ.y + (-1)) ((1) * ξ.y + (1))
          (by linarith) (by linarith) (by linarith) (by ring) ξ
          (by simp [half, lcQ9, lcQ8, lcQ4] <;> linarith) (by simp [half, lcQ9, lcQ8, lcQ4] <;> linarith) (by simp [half, lcQ9, lcQ8, lcQ4] <;> linarith)⟩
      · exact ⟨[4, 5, 8], by decide, hull_nil3 _ _ _ ((-1) * ξ.y) ((1) * ξ.x) ((-1) * ξ.x + (1) * ξ.y + (1))
          (by linarith) (by linarith) (by linarith) (by ring) ξ
          (by simp [half, lcQ9, lcQ8, lcQ4] <;> linarith) (by simp [half, lcQ9, lcQ8, lcQ4] <;> linarith) (by simp [half, lcQ9, lcQ8, lcQ4] <;> linarith)⟩
  · rcases le_total 0 (ξ.y : K) with h | h
    · rcases le_total 0 (ξ.x + 1 - ξ.y : K) with h | h
      · exact ⟨[7, 8, 6], by decide, hull_nil3 _ _ _ ((-1) * ξ.x) ((1) * ξ.x + (-1) * ξ.y + (1)) ((1) * ξ.y)
          (by linarith) (by linarith) (by linarith) (by ring) ξ
          (by simp [half, lcQ9, lcQ8, lcQ4] <;> linarith) (by simp [half, lcQ9, lcQ8, lcQ4] <;> linarith) (by simp [half, lcQ9, lcQ8, lcQ4] <;> linarith)⟩
      · exact ⟨[7, 6, 3], by decide, hull_nil3 _ _ _ ((-1) * ξ.y + (1)) ((1) * ξ.x + (1)) ((-1) * ξ.x + (1) * ξ.y + (-1))
          (by linarith) (by linarith) (by linarith) (by ring) ξ
          (by simp [half, lcQ9, lcQ8, lcQ4] <;> linarith) (by simp [half, lcQ9, lcQ8, lcQ4] <;> linarith) (by simp [half, lcQ9, lcQ8, lcQ4] <;> linarith)⟩
    · rcases le_total 0 (ξ.x - ξ.y : K) with h | h
      · exact ⟨[0, 4, 8], by decide, hull_nil3 _ _ _ ((-1) * ξ.x) ((1) * ξ.x + (-1) * ξ.y) ((1) * ξ.y + (1))
          (by linarith) (by linarith) (by linarith) (by ring) ξ
          (by simp [half, lcQ9, lcQ8, lcQ4] <;> linarith) (by simp [half, lcQ9, lcQ8, lcQ4] <;> linarith) (by simp [half, lcQ9, lcQ8, lcQ4] <;> linarith)⟩
      · exact ⟨[0, 8, 7], by decide, hull_nil3 _ _ _ ((-1) * ξ.y) ((1) * ξ.x + (1)) ((-1) * ξ.x + (1) * ξ.y)
          (by linarith) (by linarith) (by linarith) (by ring) ξ
          (by simp [half, lcQ9, lcQ8, lcQ4] <;> linarith) (by simp [half, lcQ9, lcQ8, lcQ4] <;> linarith) (by simp [half, lcQ9, lcQ8, lcQ4] <;> linarith)⟩

/-- **C14** `Q9_to_T6` on cells numbered as in `grid`. Missing: 9-noded cells in the order of the
`Q9` class, for which the claim fails (`C14_Q9_to_T6_false`). -/
theorem C14_tiles_Q9_to_T6_partial (K : Type) [Field K] [LinearOrder K] [IsStrictOrderedRing K] :
    Tiles K lcGrid9 [0, 2, 6, 8] pathQ9T6 3 := by
  refine tiles_of_master (by decide +kernel) fun ξ hξ => ?_
  have b0 := hull_bound (⟨1, 0, 0⟩, 2) (by decide) hξ
  have b1 := hull_bound (⟨-1, 0, 0⟩, 2) (by decide) hξ
  have b2 := hull_bound (⟨0, 1, 0⟩, 2) (by decide) hξ
  have b3 := hull_bound (⟨0, -1, 0⟩, 2) (by decide) hξ
  have b4 := hull_bound (⟨0, 0, 1⟩, 0) (by decide) hξ
  have b5 := hull_bound (⟨0, 0, -1⟩, 0) (by decide) hξ
  norm_num at b0 b1 b2 b3 b4 b5
  rcases le_total 0 (ξ.y - ξ.x : K) with h | h
  · exact ⟨[0, 8, 2, 4, 5, 1], by decide, hull_nil3 _ _ _ ((-1/2) * ξ.y + (1/2)) ((1/2) * ξ.x + (1/2)) ((-1/2) * ξ.x + (1/2) * ξ.y)
      (by linarith) (by linarith) (by linarith) (by ring) ξ
      (by simp [half, lcGrid9] <;> linarith) (by simp [half, lcGrid9] <;> linarith) (by simp [half, lcGrid9] <;> linarith)⟩
  · exact ⟨[0, 6, 8, 3, 7, 4], by decide, hull_nil3 _ _ _ ((-1/2) * ξ.x + (1/2)) ((1/2) * ξ.x + (-1/2) * ξ.y) ((1/2) * ξ.y + (1/2))
      (by linarith) (by linarith) (by linarith) (by ring) ξ
      (by simp [half, lcGrid9] <;> linarith) (by simp [half, lcGrid9] <;> linarith) (by simp [half, lcGrid9] <;> linarith)⟩

/-- **C14** `H8_to_TET4` -/
theorem C14_tiles_H8_to_TET4 (K : Type) [Field K] [LinearOrder K] [IsStrictOrderedRing K] :
    Tiles K lcH8 [0, 1, 2, 3, 4, 5, 6, 7] pathH8TET4 4 := by
  refine tiles_of_master (by decide +kernel) fun ξ hξ => ?_
  have b0 := hull_bound (⟨1, 0, 0⟩, 2) (by decide) hξ
  have b1 := hull_bound (⟨-1, 0, 0⟩, 2) (by decide) hξ
  have b2 := hull_bound (⟨0, 1, 0⟩, 2) (by decide) hξ
  have b3 := hull_bound (⟨0, -1, 0⟩, 2) (by decide) hξ
  have b4 := hull_bound (⟨0, 0, 1⟩, 2) (by decide) hξ
  have b5 := hull_bound (⟨0, 0, -1⟩, 2) (by decide) hξ
  norm_num at b0 b1 b2 b3 b4 b5
  rcases le_total 0 (ξ.x - ξ.y - ξ.z - 1 : K) with h | h
  · exact ⟨[1, 2, 0, 5], by decide, hull_nil4 _ _ _ _ ((1/2) * ξ.x + (-1/2) * ξ.y + (-1/2) * ξ.z + (-1/2)) ((1/2) * ξ.y + (1/2)) ((-1/2) * ξ.x + (1/2)) ((1/2) * ξ.z + (1/2))
      (by linarith) (by linarith) (by linarith) (by linarith) (by ring) ξ
      (by simp [half, lcH8] <;> linarith) (by simp [half, lcH8] <;> linarith) (by simp [half, lcH8] <;> linarith)⟩
  · rcases le_total 0 (-ξ.x + ξ.y - ξ.z - 1 : K) with h | h
    · exact ⟨[3, 0, 2, 7], by decide, hull_nil4 _ _ _ _ ((-1/2) * ξ.x + (1/2) * ξ.y + (-1/2) * ξ.z + (-1/2)) ((-1/2) * ξ.y + (1/2)) ((1/2) * ξ.x + (1/2)) ((1/2) * ξ.z + (1/2))
        (by linarith) (by linarith) (by linarith) (by linarith) (by ring) ξ
        (by simp [half, lcH8] <;> linarith) (by simp [half, lcH8] <;> linarith) (by simp [half, lcH8] <;> linarith)⟩
    · rcases le_total 0 (ξ.z - ξ.x - ξ.y - 1 : K) with h | h
      · exact ⟨[5, 4, 7, 0], by decide, hull_nil4 _ _ _ _ ((1/2) * ξ.x + (1/2)) ((-1/2) * ξ.x + (-1/2) * ξ.y + (1/2) * ξ.z + (-1/2)) ((1/2) * ξ.y + (1/2)) ((-1/2) * ξ.z + (1/2))
          (by linarith) (by linarith) (by linarith) (by linarith) (by ring) ξ
          (by simp [half, lcH8] <;> linarith) (by simp [half, lcH8] <;> linarith) (by simp [half, lcH8] <;> linarith)⟩
      · rcases le_total 0 (ξ.x + ξ.y + ξ.z - 1 : K) with h | h
        · exact ⟨[6, 5, 7, 2], by decide, hull_nil4 _ _ _ _ ((1/2) * ξ.x + (1/2) * ξ.y + (1/2) * ξ.z + (-1/2)) ((-1/2) * ξ.y + (1/2)) ((-1/2) * ξ.x + (1/2)) ((-1/2) * ξ.z + (1/2))
            (by linarith) (by linarith) (by linarith) (by linarith) (by ring) ξ
            (by simp [half, lcH8] <;> linarith) (by simp [half, lcH8] <;> linarith) (by simp [half, lcH8] <;> linarith)⟩
        · exact ⟨[0, 2, 7, 5], by decide, hull_nil4 _ _ _ _ ((-1/4) * ξ.x + (-1/4) * ξ.y + (-1/4) * ξ.z + (1/4)) ((1/4) * ξ.x + (1/4) * ξ.y + (-1/4) * ξ.z + (1/4)) ((-1/4) * ξ.x + (1/4) * ξ.y + (1/4) * ξ.z + (1/4)) ((1/4) * ξ.x + (-1/4) * ξ.y + (1/4) * ξ.z + (1/4))
            (by linarith) (by linarith) (by linarith) (by linarith) (by ring) ξ
            (by simp [half, lcH8] <;> linarith) (by simp [half, lcH8] <;> linarith) (by simp [half, lcH8] <;> linarith)⟩

/-- **C14** `H27_to_TET10` -/
theorem C14_tiles_H27_to_TET10 (K : Type) [Field K] [LinearOrder K] [IsStrictOrderedRing K] :
    Tiles K lcH27 [0, 1, 2, 3, 4, 5, 6, 7] pathH27TET10 4 := by
  refine tiles_of_master (by decide +kernel) fun ξ hξ => ?_
  have b0 := hull_bound (⟨1, 0, 0⟩, 2) (by decide) hξ
  have b1 := hull_bound (⟨-1, 0, 0⟩, 2) (by decide) hξ
  have b2 := hull_bound (⟨0, 1, 0⟩, 2) (by decide) hξ
  have b3 := hull_bound (⟨0, -1, 0⟩, 2) (by decide) hξ
  have b4 := hull_bound (⟨0, 0, 1⟩, 2) (by decide) hξ
  have b5 := hull_bound (⟨0, 0, -1⟩, 2) (by decide) hξ
  norm_num at b0 b1 b2 b3 b4 b5
  rcases le_total 0 (ξ.x - ξ.y - ξ.z - 1 : K) with h | h
  · exact ⟨[1, 2, 0, 5, 9, 24, 8, 17, 21, 22], by decide, hull_nil4 _ _ _ _ ((1/2) * ξ.x + (-1/2) * ξ.y + (-1/2) * ξ.z + (-1/2)) ((1/2) * ξ.y + (1/2)) ((-1/2) * ξ.x + (1/2)) ((1/2) * ξ.z + (1/2))
      (by linarith) (by linarith) (by linarith) (by linarith) (by ring) ξ
      (by simp [half, lcH27, lcH8] <;> linarith) (by simp [half, lcH27, lcH8] <;> linarith) (by simp [half, lcH27, lcH8] <;> linarith)⟩
  · rcases le_total 0 (-ξ.x + ξ.y - ξ.z - 1 : K) with h | h
    · exact ⟨[3, 0, 2, 7, 11, 24, 10, 19, 20, 23], by decide, hull_nil4 _ _ _ _ ((-1/2) * ξ.x + (1/2) * ξ.y + (-1/2) * ξ.z + (-1/2)) ((-1/2) * ξ.y + (1/2)) ((1/2) * ξ.x + (1/2)) ((1/2) * ξ.z + (1/2))
        (by linarith) (by linarith) (by linarith) (by linarith) (by ring) ξ
        (by simp [half, lcH27, lcH8] <;> linarith) (by simp [half, lcH27, lcH8] <;> linarith) (by simp [half, lcH27, lcH8] <;> linarith)⟩
    · rcases le_total 0 (ξ.z - ξ.x - ξ.y - 1 : K) with h | h
      · exact ⟨[5, 4, 7, 0, 12, 15, 25, 22, 16, 20], by decide, hull_nil4 _ _ _ _ ((1/2) * ξ.x + (1/2)) ((-1/2) * ξ.x + (-1/2) * ξ.y + (1/2) * ξ.z + (-1/2)) ((1/2) * ξ.y + (1/2)) ((-1/2) * ξ.z + (1/2))
          (by linarith) (by linarith) (by linarith) (by linarith) (by ring) ξ
          (by simp [half, lcH27, lcH8] <;> linarith) (by simp [half, lcH27, lcH8] <;> linarith) (by simp [half, lcH27, lcH8] <;> linarith)⟩
      · rcases le_total 0 (ξ.x + ξ.y + ξ.z - 1 : K) with h | h
        · exact ⟨[6, 5, 7, 2, 13, 25, 14, 18, 21, 23], by decide, hull_nil4 _ _ _ _ ((1/2) * ξ.x + (1/2) * ξ.y + (1/2) * ξ.z + (-1/2)) ((-1/2) * ξ.y + (1/2)) ((-1/2) * ξ.x + (1/2)) ((-1/2) * ξ.z + (1/2))
            (by linarith) (by linarith) (by linarith) (by linarith) (by ring) ξ
            (by simp [half, lcH27, lcH8] <;> linarith) (by simp [half, lcH27, lcH8] <;> linarith) (by simp [half, lcH27, lcH8] <;> linarith)⟩
        · exact ⟨[0, 2, 7, 5, 24, 23, 20, 22, 21, 25], by decide, hull_nil4 _ _ _ _ ((-1/4) * ξ.x + (-1/4) * ξ.y + (-1/4) * ξ.z + (1/4)) ((1/4) * ξ.x + (1/4) * ξ.y + (-1/4) * ξ.z + (1/4)) ((-1/4) * ξ.x + (1/4) * ξ.y + (1/4) * ξ.z + (1/4)) ((1/4) * ξ.x + (-1/4) * ξ.y + (1/4) * ξ.z + (1/4))
            (by linarith) (by linarith) (by linarith) (by linarith) (by ring) ξ
            (by simp [half, lcH27, lcH8] <;> linarith) (by simp [half, lcH27, lcH8] <;> linarith) (by simp [half, lcH27, lcH8] <;> linarith)⟩

section
variable {K : Type} [Field K] [LinearOrder K] [IsStrictOrderedRing K]

/-- Points of a parallelogram, by the weights of bilinear interpolation. -/
theorem hull_quad (p q r s : V3 K) (a b : K) (ha : 0 ≤ a) (ha' : a ≤ 1) (hb : 0 ≤ b) (hb' : b ≤ 1) (ξ : V3 K)
    (hx : (1 - a) * (1 - b) * p.x + a * (1 - b) * q.x + a * b * r.x + (1 - a) * b * s.x = ξ.x)
    (hy : (1 - a) * (1 - b) * p.y + a * (1 - b) * q.y + a * b * r.y + (1 - a) * b * s.y = ξ.y)
    (hz : (1 - a) * (1 - b) * p.z + a * (1 - b) * q.z + a * b * r.z + (1 - a) * b * s.z = ξ.z) :
    Hull [p, q, r, s] ξ :=
  hull_nil4 p q r s _ _ _ _ (mul_nonneg (by linarith) (by linarith)) (mul_nonneg ha (by linarith))
    (mul_nonneg ha hb) (mul_nonneg (by linarith) hb) (by ring) ξ hx hy hz

end

/-- **C14** `Q9_to_Q4` -/
theorem C14_tiles_Q9_to_Q4 (K : Type) [Field K] [LinearOrder K] [IsStrictOrderedRing K] :
    Tiles K lcQ9 [0, 1, 2, 3] pathQ9Q4 4 := by
  refine tiles_of_master (by decide +kernel) fun ξ hξ => ?_
  have b0 := hull_bound (⟨1, 0, 0⟩, 2) (by decide) hξ
  have b1 := hull_bound (⟨-1, 0, 0⟩, 2) (by decide) hξ
  have b2 := hull_bound (⟨0, 1, 0⟩, 2) (by decide) hξ
  have b3 := hull_bound (⟨0, -1, 0⟩, 2) (by decide) hξ
  have b4 := hull_bound (⟨0, 0, 1⟩, 0) (by decide) hξ
  have b5 := hull_bound (⟨0, 0, -1⟩, 0) (by decide) hξ
  norm_num at b0 b1 b2 b3 b4 b5
  have hz : ξ.z = 0 := by linarith
  rcases le_total 0 ξ.x with h | h <;> rcases le_total 0 ξ.y with h' | h'
  · exact ⟨[8, 5, 2, 6], by decide, hull_quad _ _ _ _ (ξ.x) (ξ.y) (by linarith) (by linarith) (by linarith) (by linarith) ξ
      (by simp [half, lcQ9, lcQ8, lcQ4]; try ring) (by simp [half, lcQ9, lcQ8, lcQ4]; try ring)
      (by simp [half, lcQ9, lcQ8, lcQ4]; try linarith)⟩
  · exact ⟨[4, 1, 5, 8], by decide, hull_quad _ _ _ _ (ξ.x) (ξ.y + 1) (by linarith) (by linarith) (by linarith) (by linarith) ξ
      (by simp [half, lcQ9, lcQ8, lcQ4]; try ring) (by simp [half, lcQ9, lcQ8, lcQ4]; try ring)
      (by simp [half, lcQ9, lcQ8, lcQ4]; try linarith)⟩
  · exact ⟨[7, 8, 6, 3], by decide, hull_quad _ _ _ _ (ξ.x + 1) (ξ.y) (by linarith) (by linarith) (by linarith) (by linarith) ξ
      (by simp [half, lcQ9, lcQ8, lcQ4]; try ring) (by simp [half, lcQ9, lcQ8, lcQ4]; try ring)
      (by simp [half, lcQ9, lcQ8, lcQ4]; try linarith)⟩
  · exact ⟨[0, 4, 8, 7], by decide, hull_quad _ _ _ _ (ξ.x + 1) (ξ.y + 1) (by linarith) (by linarith) (by linarith) (by linarith) ξ
      (by simp [half, lcQ9, lcQ8, lcQ4]; try ring) (by simp [half, lcQ9, lcQ8, lcQ4]; try ring)
      (by simp [half, lcQ9, lcQ8, lcQ4]; try linarith)⟩

/-- **C14** `Q9_to_Q4(path="grid")` on cells of a grid -/
theorem C14_tiles_Q9_to_Q4_grid (K : Type) [Field K] [LinearOrder K] [IsStrictOrderedRing K] :
    Tiles K lcGrid9 [0, 2, 6, 8] pathQ9Q4Grid 4 := by
  refine tiles_of_master (by decide +kernel) fun ξ hξ => ?_
  have b0 := hull_bound (⟨1, 0, 0⟩, 2) (by decide) hξ
  have b1 := hull_bound (⟨-1, 0, 0⟩, 2) (by decide) hξ
  have b2 := hull_bound (⟨0, 1, 0⟩, 2) (by decide) hξ
  have b3 := hull_bound (⟨0, -1, 0⟩, 2) (by decide) hξ
  have b4 := hull_bound (⟨0, 0, 1⟩, 0) (by decide) hξ
  have b5 := hull_bound (⟨0, 0, -1⟩, 0) (by decide) hξ
  norm_num at b0 b1 b2 b3 b4 b5
  have hz : ξ.z = 0 := by linarith
  rcases le_total 0 ξ.x with h | h <;> rcases le_total 0 ξ.y with h' | h'
  · exact ⟨[4, 7, 8, 5], by decide, hull_quad _ _ _ _ (ξ.x) (ξ.y) (by linarith) (by linarith) (by linarith) (by linarith) ξ
      (by simp [half, lcGrid9]; try ring) (by simp [half, lcGrid9]; try ring)
      (by simp [half, lcGrid9]; try linarith)⟩
  · exact ⟨[3, 6, 7, 4], by decide, hull_quad _ _ _ _ (ξ.x) (ξ.y + 1) (by linarith) (by linarith) (by linarith) (by linarith) ξ
      (by simp [half, lcGrid9]; try ring) (by simp [half, lcGrid9]; try ring)
      (by simp [half, lcGrid9]; try linarith)⟩
  · exact ⟨[1, 4, 5, 2], by decide, hull_quad _ _ _ _ (ξ.x + 1) (ξ.y) (by linarith) (by linarith) (by linarith) (by linarith) ξ
      (by simp [half, lcGrid9]; try ring) (by simp [half, lcGrid9]; try ring)
      (by simp [half, lcGrid9]; try linarith)⟩
  · exact ⟨[0, 3, 4, 1], by decide, hull_quad _ _ _ _ (ξ.x + 1) (ξ.y + 1) (by linarith) (by linarith) (by linarith) (by linarith) ξ
      (by simp [half, lcGrid9]; try ring) (by simp [half, lcGrid9]; try ring)
      (by simp [half, lcGrid9]; try linarith)⟩

/-- **C14** `H27_to_H8` -/
theorem C14_tiles_H27_to_H8 (K : Type) [Field K] [LinearOrder K] [IsStrictOrderedRing K] :
    Tiles K lcH27 [0, 1, 2, 3, 4, 5, 6, 7] pathH27H8 8 := by
  refine tiles_of_master (by decide +kernel) fun ξ hξ => ?_
  have b0 := hull_bound (⟨1, 0, 0⟩, 2) (by decide) hξ
  have b1 := hull_bound (⟨-1, 0, 0⟩, 2) (by decide) hξ
  have b2 := hull_bound (⟨0, 1, 0⟩, 2) (by decide) hξ
  have b3 := hull_bound (⟨0, -1, 0⟩, 2) (by decide) hξ
  have b4 := hull_bound (⟨0, 0, 1⟩, 2) (by decide) hξ
  have b5 := hull_bound (⟨0, 0, -1⟩, 2) (by decide) hξ
  norm_num at b0 b1 b2 b3 b4 b5
  have key : ∀ (ids bot : List Nat) (c : K) (hc : c ≤ ξ.z) (hc' : ξ.z ≤ c + 1), ids ∈ pathH27H8 →
      masterPts K lcH27 (ids.take 8) = masterPts K lcH27 bot ++ (masterPts K lcH27 bot).map (· + ⟨0, 0, 1⟩) →
      Hull (masterPts K lcH27 bot) ⟨ξ.x, ξ.y, c⟩ → ∃ t ∈ pathH27H8, Hull (masterPts K lcH27 (t.take 8)) ξ := by
    intro ids bot c hc hc' hm he hh
    refine ⟨ids, hm, ?_⟩
    rw [he]
    refine hull_sweep (l := ξ.z - c) (by linarith) (by linarith) ?_
    convert hh using 1
    ext <;> simp
  rcases le_total 0 ξ.x with h | h <;> rcases le_total 0 ξ.y with h' | h' <;> rcases le_total 0 ξ.z with h'' | h''
  · exact key [26, 21, 18, 23, 25, 13, 6, 14] [26, 21, 18, 23] (0) (by linarith) (by linarith) (by decide)
      (by simp [masterPts, half, lcH27, lcH8] <;> (constructorm* _ ∧ _) <;> (ext <;> simp <;> norm_num))
      (hull_quad _ _ _ _ (ξ.x) (ξ.y) (by linarith) (by linarith) (by linarith) (by linarith) _
      (by simp [half, lcH27, lcH8]; try ring) (by simp [half, lcH27, lcH8]; try ring) (by simp [half, lcH27, lcH8]; try ring))
  · exact key [24, 9, 2, 10, 26, 21, 18, 23] [24, 9, 2, 10] (-1) (by linarith) (by linarith) (by decide)
      (by simp [masterPts, half, lcH27, lcH8] <;> (constructorm* _ ∧ _) <;> (ext <;> simp <;> norm_num))
      (hull_quad _ _ _ _ (ξ.x) (ξ.y) (by linarith) (by linarith) (by linarith) (by linarith) _
      (by simp [half, lcH27, lcH8]; try ring) (by simp [half, lcH27, lcH8]; try ring) (by simp [half, lcH27, lcH8]; try ring))
  · exact key [22, 17, 21, 26, 12, 5, 13, 25] [22, 17, 21, 26] (0) (by linarith) (by linarith) (by decide)
      (by simp [masterPts, half, lcH27, lcH8] <;> (constructorm* _ ∧ _) <;> (ext <;> simp <;> norm_num))
      (hull_quad _ _ _ _ (ξ.x) (ξ.y + 1) (by linarith) (by linarith) (by linarith) (by linarith) _
      (by simp [half, lcH27, lcH8]; try ring) (by simp [half, lcH27, lcH8]; try ring) (by simp [half, lcH27, lcH8]; try ring))
  · exact key [8, 1, 9, 24, 22, 17, 21, 26] [8, 1, 9, 24] (-1) (by linarith) (by linarith) (by decide)
      (by simp [masterPts, half, lcH27, lcH8] <;> (constructorm* _ ∧ _) <;> (ext <;> simp <;> norm_num))
      (hull_quad _ _ _ _ (ξ.x) (ξ.y + 1) (by linarith) (by linarith) (by linarith) (by linarith) _
      (by simp [half, lcH27, lcH8]; try ring) (by simp [half, lcH27, lcH8]; try ring) (by simp [half, lcH27, lcH8]; try ring))
  · exact key [20, 26, 23, 19, 15, 25, 14, 7] [20, 26, 23, 19] (0) (by linarith) (by linarith) (by decide)
      (by simp [masterPts, half, lcH27, lcH8] <;> (constructorm* _ ∧ _) <;> (ext <;> simp <;> norm_num))
      (hull_quad _ _ _ _ (ξ.x + 1) (ξ.y) (by linarith) (by linarith) (by linarith) (by linarith) _
      (by simp [half, lcH27, lcH8]; try ring) (by simp [half, lcH27, lcH8]; try ring) (by simp [half, lcH27, lcH8]; try ring))
  · exact key [11, 24, 10, 3, 20, 26, 23, 19] [11, 24, 10, 3] (-1) (by linarith) (by linarith) (by decide)
      (by simp [masterPts, half, lcH27, lcH8] <;> (constructorm* _ ∧ _) <;> (ext <;> simp <;> norm_num))
      (hull_quad _ _ _ _ (ξ.x + 1) (ξ.y) (by linarith) (by linarith) (by linarith) (by linarith) _
      (by simp [half, lcH27, lcH8]; try ring) (by simp [half, lcH27, lcH8]; try ring) (by simp [half, lcH27, lcH8]; try ring))
  · exact key [16, 22, 26, 20, 4, 12, 25, 15] [16, 22, 26, 20] (0) (by linarith) (by linarith) (by decide)
      (by simp [masterPts, half, lcH27, lcH8] <;> (constructorm* _ ∧ _) <;> (ext <;> simp <;> norm_num))
      (hull_quad _ _ _ _ (ξ.x + 1) (ξ.y + 1) (by linarith) (by linarith) (by linarith) (by linarith) _
      (by simp [half, lcH27, lcH8]; try ring) (by simp [half, lcH27, lcH8]; try ring) (by simp [half, lcH27, lcH8]; try ring))
  · exact key [0, 8, 24, 11, 16, 22, 26, 20] [0, 8, 24, 11] (-1) (by linarith) (by linarith) (by decide)
      (by simp [masterPts, half, lcH27, lcH8] <;> (constructorm* _ ∧ _) <;> (ext <;> simp <;> norm_num))
      (hull_quad _ _ _ _ (ξ.x + 1) (ξ.y + 1) (by linarith) (by linarith) (by linarith) (by linarith) _
      (by simp [half, lcH27, lcH8]; try ring) (by simp [half, lcH27, lcH8]; try ring) (by simp [half, lcH27, lcH8]; try ring))

/-- **C14** `W18_to_W6` -/
theorem C14_tiles_W18_to_W6 (K : Type) [Field K] [LinearOrder K] [IsStrictOrderedRing K] :
    Tiles K lcW18 [0, 1, 2, 3, 4, 5] pathW18W6 6 := by
  refine tiles_of_master (by decide +kernel) fun ξ hξ => ?_
  have b0 := hull_bound (⟨1, 0, 0⟩, 0) (by decide) hξ
  have b1 := hull_bound (⟨0, 1, 0⟩, 0) (by decide) hξ
  have b2 := hull_bound (⟨-1, -1, 0⟩, 2) (by decide) hξ
  have b3 := hull_bound (⟨0, 0, 1⟩, 2) (by decide) hξ
  have b4 := hull_bound (⟨0, 0, -1⟩, 2) (by decide) hξ
  norm_num at b0 b1 b2 b3 b4
  have key : ∀ (ids bot : List Nat) (c : K) (hc : c ≤ ξ.z) (hc' : ξ.z ≤ c + 1), ids ∈ pathW18W6 →
      masterPts K lcW18 (ids.take 6) = masterPts K lcW18 bot ++ (masterPts K lcW18 bot).map (· + ⟨0, 0, 1⟩) →
      Hull (masterPts K lcW18 bot) ⟨ξ.x, ξ.y, c⟩ → ∃ t ∈ pathW18W6, Hull (masterPts K lcW18 (t.take 6)) ξ := by
    intro ids bot c hc hc' hm he hh
    refine ⟨ids, hm, ?_⟩
    rw [he]
    refine hull_sweep (l := ξ.z - c) (by linarith) (by linarith) ?_
    convert hh using 1
    ext <;> simp
  rcases le_total 0 ξ.z with h'' | h''
  · rcases le_total 0 (2 * ξ.x - 1) with h | h
    · exact key [15, 13, 16, 9, 4, 10] [15, 13, 16] (0) (by linarith) (by linarith) (by decide)
        (by simp [masterPts, half, lcW18, lcW6] <;> (constructorm* _ ∧ _) <;> (ext <;> simp <;> norm_num))
        (hull_nil3 _ _ _ ((-2) * ξ.x + (-2) * ξ.y + (2)) ((2) * ξ.x + (-1)) ((2) * ξ.y)
        (by linarith) (by linarith) (by linarith) (by ring) _
        (by simp [half, lcW18, lcW6] <;> linarith) (by simp [half, lcW18, lcW6] <;> linarith) (by simp [half, lcW18, lcW6] <;> linarith))
    · rcases le_total 0 (2 * ξ.y - 1) with h' | h'
      · exact key [17, 16, 14, 11, 10, 5] [17, 16, 14] (0) (by linarith) (by linarith) (by decide)
          (by simp [masterPts, half, lcW18, lcW6] <;> (constructorm* _ ∧ _) <;> (ext <;> simp <;> norm_num))
          (hull_nil3 _ _ _ ((-2) * ξ.x + (-2) * ξ.y + (2)) ((2) * ξ.x) ((2) * ξ.y + (-1))
          (by linarith) (by linarith) (by linarith) (by ring) _
          (by simp [half, lcW18, lcW6] <;> linarith) (by simp [half, lcW18, lcW6] <;> linarith) (by simp [half, lcW18, lcW6] <;> linarith))
      · rcases le_total 0 (1 - 2 * ξ.x - 2 * ξ.y) with g | g
        · exact key [12, 15, 17, 3, 9, 11] [12, 15, 17] (0) (by linarith) (by linarith) (by decide)
            (by simp [masterPts, half, lcW18, lcW6] <;> (constructorm* _ ∧ _) <;> (ext <;> simp <;> norm_num))
            (hull_nil3 _ _ _ ((-2) * ξ.x + (-2) * ξ.y + (1)) ((2) * ξ.x) ((2) * ξ.y)
            (by linarith) (by linarith) (by linarith) (by ring) _
            (by simp [half, lcW18, lcW6] <;> linarith) (by simp [half, lcW18, lcW6] <;> linarith) (by simp [half, lcW18, lcW6] <;> linarith))
        · exact key [17, 15, 16, 11, 9, 10] [17, 15, 16] (0) (by linarith) (by linarith) (by decide)
            (by simp [masterPts, half, lcW18, lcW6] <;> (constructorm* _ ∧ _) <;> (ext <;> simp <;> norm_num))
            (hull_nil3 _ _ _ ((-2) * ξ.x + (1)) ((-2) * ξ.y + (1)) ((2) * ξ.x + (2) * ξ.y + (-1))
            (by linarith) (by linarith) (by linarith) (by ring) _
            (by simp [half, lcW18, lcW6] <;> linarith) (by simp [half, lcW18, lcW6] <;> linarith) (by simp [half, lcW18, lcW6] <;> linarith))
  · rcases le_total 0 (2 * ξ.x - 1) with h | h
    · exact key [6, 1, 7, 15, 13, 16] [6, 1, 7] (-1) (by linarith) (by linarith) (by decide)
        (by simp [masterPts, half, lcW18, lcW6] <;> (constructorm* _ ∧ _) <;> (ext <;> simp <;> norm_num))
        (hull_nil3 _ _ _ ((-2) * ξ.x + (-2) * ξ.y + (2)) ((2) * ξ.x + (-1)) ((2) * ξ.y)
        (by linarith) (by linarith) (by linarith) (by ring) _
        (by simp [half, lcW18, lcW6] <;> linarith) (by simp [half, lcW18, lcW6] <;> linarith) (by simp [half, lcW18, lcW6] <;> linarith))
    · rcases le_total 0 (2 * ξ.y - 1) with h' | h'
      · exact key [8, 7, 2, 17, 16, 14] [8, 7, 2] (-1) (by linarith) (by linarith) (by decide)
          (by simp [masterPts, half, lcW18, lcW6] <;> (constructorm* _ ∧ _) <;> (ext <;> simp <;> norm_num))
          (hull_nil3 _ _ _ ((-2) * ξ.x + (-2) * ξ.y + (2)) ((2) * ξ.x) ((2) * ξ.y + (-1))
          (by linarith) (by linarith) (by linarith) (by ring) _
          (by simp [half, lcW18, lcW6] <;> linarith) (by simp [half, lcW18, lcW6] <;> linarith) (by simp [half, lcW18, lcW6] <;> linarith))
      · rcases le_total 0 (1 - 2 * ξ.x - 2 * ξ.y) with g | g
        · exact key [8, 0, 6, 17, 12, 15] [8, 0, 6] (-1) (by linarith) (by linarith) (by decide)
            (by simp [masterPts, half, lcW18, lcW6] <;> (constructorm* _ ∧ _) <;> (ext <;> simp <;> norm_num))
            (hull_nil3 _ _ _ ((2) * ξ.y) ((-2) * ξ.x + (-2) * ξ.y + (1)) ((2) * ξ.x)
            (by linarith) (by linarith) (by linarith) (by ring) _
            (by simp [half, lcW18, lcW6] <;> linarith) (by simp [half, lcW18, lcW6] <;> linarith) (by simp [half, lcW18, lcW6] <;> linarith))
        · exact key [8, 6, 7, 17, 15, 16] [8, 6, 7] (-1) (by linarith) (by linarith) (by decide)
            (by simp [masterPts, half, lcW18, lcW6] <;> (constructorm* _ ∧ _) <;> (ext <;> simp <;> norm_num))
            (hull_nil3 _ _ _ ((-2) * ξ.x + (1)) ((-2) * ξ.y + (1)) ((2) * ξ.x + (2) * ξ.y + (-1))
            (by linarith) (by linarith) (by linarith) (by ring) _
            (by simp [half, lcW18, lcW6] <;> linarith) (by simp [half, lcW18, lcW6] <;> linarith) (by simp [half, lcW18, lcW6] <;> linarith))

end PM
