import Verif.PropsRecipes
import Verif.PropsJacobian

/-!
# C72, C76: exactly when points of disks coincide and which shape function matrices are right
-/

namespace PM

/-- **C76** no two points of the disk coincide exactly if the inner radius is not zero, or if there is at most one angle. -/
theorem C76_distinct_exact {n m : Nat} (hm : 2 ≤ m) {rmin rmax : ℝ} (h0 : 0 ≤ rmin) (h1 : rmin < rmax) :
    (diskPoints n m rmin rmax).Nodup ↔ 0 < rmin ∨ n ≤ 1 := by
  obtain ⟨hl, hg, hr0, -⟩ := C76_points (n := n) hm rmin rmax
  have hm1 : (0 : ℝ) < (m : ℝ) - 1 := by
    have : (2 : ℝ) ≤ m := by exact_mod_cast hm
    linarith
  have hd : 0 < (rmax - rmin) / ((m : ℝ) - 1) := div_pos (by linarith) hm1
  have hpos : ∀ j, 0 ≤ diskRadius rmin rmax m j := fun j => by
    unfold diskRadius
    have : (0 : ℝ) ≤ (j : ℝ) := by positivity
    have := mul_nonneg this hd.le
    linarith
  constructor
  · intro h
    by_contra hc
    push Not at hc
    obtain ⟨hr, hn⟩ := hc
    have hr : rmin = 0 := le_antisymm hr h0
    rw [List.nodup_iff_getElem?_ne_getElem?] at h
    have hlt : m < n * m := by nlinarith
    apply h 0 m (by omega) (by rw [hl]; exact hlt)
    have e0 := hg 0 0 (by omega) (by omega)
    have e1 := hg 1 0 (by omega) (by omega)
    rw [Nat.zero_mul, Nat.zero_add] at e0
    rw [Nat.one_mul, Nat.add_zero] at e1
    rw [e0, e1, hr0, hr]
    simp [polarPt]
  · rintro (h | hn)
    · exact C76_distinct hm h h1
    rw [List.nodup_iff_getElem?_ne_getElem?]
    intro i j hij hj heq
    rw [hl] at hj
    have hn1 : n = 1 := by
      rcases (by omega : n = 0 ∨ n = 1) with rfl | h
      · simp at hj
      · exact h
    subst hn1
    rw [one_mul] at hj
    have e0 := hg 0 i (by omega) (by omega)
    have e1 := hg 0 j (by omega) (by omega)
    rw [Nat.zero_mul, Nat.zero_add] at e0 e1
    rw [e0, e1] at heq
    have hr := congrArg hypot (Option.some.inj heq)
    rw [hypot_polar (hpos i), hypot_polar (hpos j)] at hr
    have : (i : ℝ) = j := by
      unfold diskRadius at hr
      exact mul_right_cancel₀ hd.ne' (add_left_cancel hr)
    have : i = j := by exact_mod_cast this
    omega

example : ¬ (diskPoints 3 2 0 1).Nodup ∧ (diskPoints 3 2 1 2).Nodup ∧ (diskPoints 1 4 0 1).Nodup := by
  rw [C76_distinct_exact (le_refl _) (le_refl _) one_pos, C76_distinct_exact (le_refl _) zero_le_one one_lt_two,
    C76_distinct_exact (by norm_num) (le_refl _) one_pos]
  norm_num

section
variable {K : Type} [Field K]

theorem shapeMatrix_one {a b c : K} (h : IsShapeMatrix 1 [a, b, c] [[a, a, a]]) : a = b ∧ b = c := by
  have h1 := h.apply 0 [a, a, a] (fun i => if i = 1 then 1 else 0) rfl
  have h2 := h.apply 0 [a, a, a] (fun i => if i = 2 then 1 else 0) rfl
  simp at h1 h2
  exact ⟨h1, by rw [← h1, h2]⟩

/-- **C72** the matrix of `shape_function_matrix_tri_loc` is right exactly for three unknowns per node, and for one unknown if the three shape functions have
the same value (and, with no rows at all, for none). -/
theorem C72_tri_loc_exact (a b c : K) (ndof : Nat) :
    (∃ w, shpMatWrites ndof 3 ndof [a, b, c] = some w ∧ IsShapeMatrix ndof [a, b, c] (shpMat ndof 3 w)) ↔
      ndof = 0 ∨ ndof = 3 ∨ (ndof = 1 ∧ a = b ∧ b = c) := by
  obtain ⟨h1, w1, hw1, hm1⟩ := C72_tri_loc_false a b c
  constructor
  · rintro ⟨w, hw, hM⟩
    by_cases h3 : ndof = 3
    · exact Or.inr (Or.inl h3)
    by_cases h2 : 2 ≤ ndof
    · rw [h1 ndof h2 h3] at hw; cases hw
    rcases (by omega : ndof = 0 ∨ ndof = 1) with rfl | rfl
    · exact Or.inl rfl
    · rw [hw1] at hw
      obtain rfl := Option.some.inj hw
      rw [hm1] at hM
      exact Or.inr (Or.inr ⟨rfl, shapeMatrix_one hM⟩)
  · rintro (rfl | rfl | ⟨rfl, rfl, rfl⟩)
    · refine ⟨[], by simp [shpMatWrites], ⟨by simp [shpMat, toRows], by simp [shpMat, toRows], ?_⟩⟩
      intro d r U h
      simp [shpMat, toRows] at h
    · obtain ⟨w, hw, hM⟩ := C72_matrix 3 [a, b, c]
      exact ⟨w, hw, hM w (.refl _)⟩
    · refine ⟨w1, hw1, ?_⟩
      rw [hm1]
      refine ⟨rfl, by simp, ?_⟩
      intro d r U h
      cases d with
      | zero =>
        obtain rfl := Option.some.inj h
        simp [Finset.sum_range_succ]
      | succ d => simp at h

/-- **C72** hexahedra (H8): the matrix is right exactly for three unknowns per node; otherwise there is none. -/
theorem C72_H8_exact {shp : List K} (hs : shp.length = 8) (ndof : Nat) :
    (∃ w, shpMatWrites ndof ndof 3 shp = some w ∧ IsShapeMatrix ndof shp (shpMat ndof 8 w)) ↔ ndof = 3 := by
  constructor
  · rintro ⟨w, hw, -⟩
    by_contra h
    rw [C72_H8_false h hs] at hw
    cases hw
  · rintro rfl
    obtain ⟨w, hw, hM⟩ := C72_matrix 3 shp
    exact ⟨w, hw, hs ▸ hM w (.refl _)⟩

end

end PM
