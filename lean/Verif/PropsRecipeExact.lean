import Verif.PropsRecipeOrder

/-!
# C77: the numbers of points, cells and layers of perforated cubes

`lmax` is not an upper bound (`C77_lmax_false`). These are the numbers which it gives.
-/

namespace PM

/-- `n` is the largest number of equal pieces of `L` that are not shorter than `l`, but at least `k`. -/
structure PiecesAtLeast (L l : ℝ) (k n : Nat) : Prop where
  least : k ≤ n
  next : L < (n + 1) * l
  long : n = k ∨ n * l ≤ L

theorem pieces_max {L l : ℝ} (hL : 0 ≤ L) (hl : 0 < l) (k : Nat) : PiecesAtLeast L l k (max (pyInt (L / l)) k).toNat := by
  have hd : 0 ≤ L / l := div_nonneg hL hl.le
  have hf : 0 ≤ ⌊L / l⌋ := Int.floor_nonneg.2 hd
  have e : ((max (pyInt (L / l)) k).toNat : ℤ) = max ⌊L / l⌋ k := by
    rw [pyInt, if_pos hd]
    exact Int.toNat_of_nonneg (le_max_of_le_left hf)
  generalize (max (pyInt (L / l)) k).toNat = n at e
  have e' : (n : ℝ) = ((max ⌊L / l⌋ k : ℤ) : ℝ) := by exact_mod_cast e
  refine ⟨by omega, ?_, ?_⟩
  · have h1 : L / l < (n : ℝ) + 1 := by
      have h2 := Int.lt_floor_add_one (L / l)
      have h3 : ((⌊L / l⌋ : ℤ) : ℝ) ≤ n := by rw [e']; exact_mod_cast le_max_left _ _
      linarith
    exact (div_lt_iff₀ hl).1 h1
  · rcases le_total ⌊L / l⌋ (k : ℤ) with h | h
    · left; omega
    · right
      rw [max_eq_left h] at e'
      rw [e', ← le_div_iff₀ hl]
      exact Int.floor_le _

/-- **C77** (numbers): without `lmax` there are 4 by 4 cells of the lattice, 4 layers and 16 points around the hole. With `lmax` there are as
many as possible with pieces not shorter than `lmax`, at least 4 by 4 cells and 8 points, perhaps no layer. A number of points that is given
is the number of points. -/
theorem C77_numbers {lx ly lz radius l : ℝ} (hx : 0 ≤ lx) (hy : 0 ≤ ly) (hz : 0 ≤ lz) (hr : 0 ≤ radius) (hl : 0 < l) :
    (∃ a b, cubeShape lx ly (some l) = some (a, b) ∧ PiecesAtLeast lx l 4 a ∧ PiecesAtLeast ly l 4 b) ∧
    PiecesAtLeast lz l 0 (cubeLayers lz (some l)) ∧ PiecesAtLeast (2 * Real.pi * radius) l 8 (cubeAngles radius none (some l)) ∧
    (∀ n lmax, cubeAngles radius (some n) lmax = n) ∧
    cubeShape lx ly none = some (4, 4) ∧ cubeLayers lz none = 4 ∧ cubeAngles radius none none = 16 := by
  refine ⟨⟨_, _, if_neg hl.ne', pieces_max hx hl 4, pieces_max hy hl 4⟩, ?_, pieces_max (by positivity) hl 8, fun n lmax => rfl, rfl, rfl, rfl⟩
  have h := pieces_max hz hl 0
  have hd : 0 ≤ lz / l := div_nonneg hz hl.le
  have hf : 0 ≤ pyInt (lz / l) := by rw [pyInt, if_pos hd]; exact Int.floor_nonneg.2 hd
  rwa [Nat.cast_zero, max_eq_left hf] at h

/-- The number is the only one. -/
theorem PiecesAtLeast.unique {L l : ℝ} (hl : 0 < l) {k n m : Nat} (h : PiecesAtLeast L l k n) (h' : PiecesAtLeast L l k m) : n = m := by
  have key : ∀ {n m : Nat}, PiecesAtLeast L l k n → PiecesAtLeast L l k m → n ≤ m := by
    intro n m h h'
    rcases h.long with e | e
    · rw [e]; exact h'.least
    · have := lt_of_le_of_lt e h'.next
      have := lt_of_mul_lt_mul_right this hl.le
      exact Nat.lt_succ_iff.1 (by exact_mod_cast this)
  exact le_antisymm (key h h') (key h' h)

/-- A case: a cube of 10 by 3 by 2 with pieces of length 1 has 10 by 4 cells and 2 layers. -/
example : cubeShape 10 3 (some 1) = some (10, 4) ∧ cubeLayers 2 (some 1) = 2 := by
  obtain ⟨⟨a, b, h, ha, hb⟩, hz, -⟩ := C77_numbers (lx := 10) (ly := 3) (lz := 2) (radius := 1) (l := 1) (by norm_num) (by norm_num) (by norm_num)
    (by norm_num) (by norm_num)
  have e1 : a = 10 := ha.unique one_pos ⟨by norm_num, by norm_num, by norm_num⟩
  have e2 : b = 4 := hb.unique one_pos ⟨by norm_num, by norm_num, by norm_num⟩
  have e3 : cubeLayers 2 (some 1) = 2 := hz.unique one_pos ⟨by norm_num, by norm_num, by norm_num⟩
  exact ⟨by rw [h, e1, e2], e3⟩

end PM
