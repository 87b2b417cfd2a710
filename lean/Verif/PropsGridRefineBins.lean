import Verif.PropsGridRefine

/-!
# C107: refining grids with bins
-/

namespace PM

section
variable {K : Type} [Field K] [CharZero K]

/-- **C107** refining a grid with bins: `H8_to_H27`, then `H27_to_H8`, gives the grid whose bins also have the means of neighbouring values, up to
the order of the points and of the cells. -/
theorem C107_refine_H8_bins {bx bY bz bx' bY' bz' : List K} (s0 s1 s2 : K) (h : 2 ≤ bx.length ∧ 2 ≤ bY.length ∧ 2 ≤ bz.length)
    (hbx : HalvedBins bx bx') (hbY : HalvedBins bY bY') (hbz : HalvedBins bz bz') :
    ∃ C T C' T' c t F, gridH8 (argsB3 bx bY bz s0 s1 s2 0) = some (C, T) ∧ gridH8 (argsB3 bx' bY' bz' s0 s1 s2 0) = some (C', T') ∧
      h8ToH27 (C.map rowPt) (asTopo T) = some (c, t) ∧ transformTopology t pathH27H8 8 0 = some F ∧
      RenumberedCells c F (C'.map rowPt) (asTopo T') := by
  obtain ⟨C2, T2, T3, F', a1, a2, a3, a4⟩ := C107_H27_to_H8_bins s0 s1 s2 h hbx hbY hbz
  obtain ⟨C, T, C2', T2', c, t, b1, b2, b3, b4⟩ := C107_H8_to_H27_bins s0 s1 s2 h
  rw [b2, Option.some.injEq, Prod.mk.injEq] at a1
  obtain ⟨rfl, rfl⟩ := a1
  obtain ⟨F, f1, f2⟩ := renumbered_cut (w := 27) (by
    intro r hr
    obtain ⟨_, σ, _, _, e⟩ := b4
    have hm : r.map σ ∈ asTopo T2' := by rw [e]; exact List.mem_map_of_mem hr
    obtain ⟨C4, T4, g1, g2⟩ := C21_gridH27_bins bx bY bz s0 s1 s2 0 h
    rw [b2, Option.some.injEq, Prod.mk.injEq] at g1
    obtain ⟨rfl, rfl⟩ := g1
    obtain ⟨r', hr', e'⟩ := List.mem_map.1 hm
    have := congrArg List.length e'
    rw [List.length_map, List.length_map, g2.2.1 r' hr'] at this
    exact this.symm) (by decide) b4 a3 a4
  exact ⟨C, T, C2', T3, c, t, F, b1, a2, b3, f1, f2⟩

/-- **C107** refining a plane grid with bins: `Q4_to_Q9`, then `Q9_to_Q4`. -/
theorem C107_refine_Q4_bins {bx bY bx' bY' : List K} (s0 s1 : K) (h : 2 ≤ bx.length ∧ 2 ≤ bY.length)
    (hbx : HalvedBins bx bx') (hbY : HalvedBins bY bY') :
    ∃ C T C' T' c t F, gridQ4 (argsB2 bx bY s0 s1 0) = some (C, T) ∧ gridQ4 (argsB2 bx' bY' s0 s1 0) = some (C', T') ∧
      q4ToQ9 (C.map rowPt) (asTopo T) = some (c, t) ∧ transformTopology t pathQ9Q4 4 0 = some F ∧
      RenumberedCells c F (C'.map rowPt) (asTopo T') := by
  obtain ⟨C2, T2, T3, F', a1, a2, a3, a4⟩ := C107_Q9_to_Q4_bins s0 s1 h hbx hbY
  obtain ⟨C, T, C2', T2', c, t, b1, b2, b3, b4⟩ := C107_Q4_to_Q9_bins s0 s1 h
  rw [b2, Option.some.injEq, Prod.mk.injEq] at a1
  obtain ⟨rfl, rfl⟩ := a1
  obtain ⟨F, f1, f2⟩ := renumbered_cut (w := 9) (by
    intro r hr
    obtain ⟨_, σ, _, _, e⟩ := b4
    have hm : r.map σ ∈ asTopo T2' := by rw [e]; exact List.mem_map_of_mem hr
    obtain ⟨C4, T4, g1, g2⟩ := C21_gridQ9_bins bx bY s0 s1 0 h
    rw [b2, Option.some.injEq, Prod.mk.injEq] at g1
    obtain ⟨rfl, rfl⟩ := g1
    obtain ⟨r', hr', e'⟩ := List.mem_map.1 hm
    have := congrArg List.length e'
    rw [List.length_map, List.length_map, g2.2.1 r' hr'] at this
    exact this.symm) (by decide) b4 a3 a4
  exact ⟨C, T, C2', T3, c, t, F, b1, a2, b3, f1, f2⟩

end

/-- The bins with the means of neighbours. -/
def halveBins {K : Type} [Field K] : List K → List K
  | v :: w :: l => v :: (v + w) / 2 :: halveBins (w :: l)
  | l => l

/-- For all bins there are refined ones. -/
theorem halvedBins_halveBins {K : Type} [Field K] (b : List K) : HalvedBins b (halveBins b) := by
  induction b with
  | nil => simp [HalvedBins, halveBins]
  | cons v l ih =>
    cases l with
    | nil =>
      refine ⟨rfl, fun i u h => ?_, fun i u w _ h => by simp at h⟩
      cases i with
      | zero => exact h
      | succ i => simp at h
    | cons w l =>
      obtain ⟨h1, h2, h3⟩ := ih
      rw [halveBins]
      refine ⟨by simp only [List.length_cons] at h1 ⊢; omega, fun i u h => ?_, fun i u x hu hx => ?_⟩
      · cases i with
        | zero => exact h
        | succ i => exact h2 i u h
      · cases i with
        | zero =>
          simp only [List.getElem?_cons_zero, List.getElem?_cons_succ, Option.some.injEq, Nat.zero_add] at hu hx
          rw [hu, hx]; rfl
        | succ i => exact h3 i u x hu hx

example : halveBins ([0, 1, 3] : List ℚ) = [0, 1 / 2, 1, 2, 3] := by decide +kernel

end PM
