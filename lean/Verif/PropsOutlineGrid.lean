import Verif.PropsOutline

/-!
# C141, C142: grids
-/

namespace PM

theorem edges_of_box {K : Type} [Field K] {C : List (List K)} {lo hi : List K} {F : Topo} (h2 : ∀ f ∈ F, f.length = 2 ∧ f.Nodup)
    (h : ∀ f ∈ F, (OnBox C lo hi f ∧ occ F f = 1) ∨ (¬ OnBox C lo hi f ∧ occ F f = 2 ∧ f.reverse ∈ F)) : EdgesFit F := by
  intro f hf
  refine (h f hf).imp (·.2) ?_
  rintro ⟨-, ho, hg⟩
  have hfg : f ≠ f.reverse := by
    obtain ⟨hl, hn⟩ := h2 f hf
    obtain ⟨a, b, rfl⟩ := List.length_eq_two.1 hl
    intro e
    simp at e hn
    exact hn e.1
  have hocc : (F.filter fun t => f.isPerm t).length = 2 := by rw [← ho]; exact List.countP_eq_length_filter.symm
  have h1 : f ∈ F.filter fun t => f.isPerm t := List.mem_filter.2 ⟨hf, List.isPerm_iff.2 (.refl f)⟩
  have h3 : f.reverse ∈ F.filter fun t => f.isPerm t := List.mem_filter.2 ⟨hg, List.isPerm_iff.2 (List.reverse_perm f).symm⟩
  generalize f.reverse = g at *
  obtain ⟨x, y, e⟩ := List.length_eq_two.1 hocc
  rw [e] at h1 h3 ⊢
  simp only [List.mem_cons, List.not_mem_nil, or_false] at h1 h3
  rcases h1 with rfl | rfl <;> rcases h3 with rfl | rfl
  · exact absurd rfl hfg
  · exact .refl _
  · exact List.Perm.swap _ _ _
  · exact absurd rfl hfg

theorem latRow2_nodup {a b : Nat} {p : Nat × Nat} (hp : p ∈ latCells2 a b) : ((latCell2 p.1 p.2).map (latNo2 b)).Nodup := by
  obtain ⟨h1, h2⟩ := mem_latCells2.1 hp
  obtain ⟨i, j⟩ := p
  simp only at h1 h2 ⊢
  refine List.Nodup.map_on (fun x hx y hy e => ?_) (by simp [latCell2])
  have hin : ∀ z ∈ latCell2 i j, InLat2 a b z := by
    intro z hz
    simp only [latCell2, List.mem_cons, List.not_mem_nil, or_false] at hz
    rcases hz with rfl | rfl | rfl | rfl <;> simp only [InLat2] <;> omega
  exact latNo2_inj (hin x hx) (hin y hy) e

theorem grid_outline {a b : Nat} {T : Topo} (hT : T = (latCells2 a b).map fun p => (latCell2 p.1 p.2).map (latNo2 b))
    {K : Type} [Field K] {C : List (List K)} {lo hi : List K} (h : BoxEdges C lo hi a b (facesOf edgeIdsQ4 T)) :
    ∃ G, edgesQ4 T = some G ∧ EdgesFit G.flatten ∧ ClosedLines (outer G.flatten) ∧ (outer G.flatten).length = 2 * (a + b) := by
  have h4 : ∀ r ∈ T, r.length = 4 ∧ r.Nodup := by
    intro r hr
    rw [hT] at hr
    obtain ⟨p, hp, rfl⟩ := List.mem_map.1 hr
    exact ⟨rfl, latRow2_nodup hp⟩
  have hG := edgesQ4_rows fun r hr => (h4 r hr).1
  have e := flatten_entities edgeIdsQ4 T
  have hfit : EdgesFit (T.map fun r => entities edgeIdsQ4 r 0).flatten := by
    refine edges_of_box (fun f hf => ?_) (e ▸ h.sides)
    obtain ⟨r, hr, p, hp, rfl⟩ := mem_faces.1 hf
    have := (by decide : ∀ p ∈ edgeIdsQ4, p.length = 2 ∧ p.Nodup ∧ ∀ q ∈ p, q < 4) p hp
    exact ⟨by rw [List.length_map]; exact this.1, entity_nodup (h4 r hr).2 this.2.1 fun q hq => by rw [(h4 r hr).1]; exact this.2.2 q hq⟩
  refine ⟨_, hG, hfit, C142_closed_Q4 (fun r hr => (h4 r hr).1) hG hfit, ?_⟩
  rw [← h.outer, outer, ← List.countP_eq_length_filter, e]

/-- **C142** (uniform grids): the edges of the cells of `gridQ4` fit, and the `2 (nx + ny)` outer ones are closed lines. -/
theorem C142_grid {K : Type} [Field K] [CharZero K] {lX lY : K} {nx ny : Nat} (s0 s1 : K) (h : 1 ≤ nx ∧ 1 ≤ ny) (hl : lX ≠ 0 ∧ lY ≠ 0) :
    ∃ C T F, gridQ4 (args2 lX lY nx ny s0 s1 0) = some (C, T) ∧ edgesQ4 (asTopo T) = some F ∧ EdgesFit F.flatten ∧
      ClosedLines (outer F.flatten) ∧ (outer F.flatten).length = 2 * (nx + ny) := by
  obtain ⟨T, h1, _⟩ := vtk2_closed 2 le_rfl tabQ4 (uniAxis lX nx 2 s0) (uniAxis lY ny 2 s1) rfl rfl 0
  obtain ⟨C', T', hg, hB⟩ := C99_gridQ4 s0 s1 h hl
  have hT : asTopo T' = asTopo T := by
    have e : gridCore (args2 lX lY nx ny s0 s1 0) [2, 2] true none = some (rgrid2 lX lY nx ny 2 2 s0 s1 0) := rfl
    rw [gridQ4, gridNamed, e] at hg
    simp only [Option.bind_eq_bind, Option.bind_some] at hg
    rw [rgrid2, rgrid2_closed lX lY s0 s1 0 h ⟨le_rfl, le_rfl⟩ (.refl _) (.refl _), h1] at hg
    simp only [Option.map_some, Option.some.injEq, Prod.mk.injEq] at hg
    rw [← hg.2]
  obtain ⟨G, hG, h2, h3, h4⟩ := grid_outline (hT.trans (quadTopo _ _ rfl rfl h1)) hB
  exact ⟨C', T', G, hg, hG, h2, h3, h4⟩

/-- **C142** (grids with bins): the same. -/
theorem C142_grid_bins {K : Type} [Field K] [CharZero K] {bx bY : List K} (s0 s1 : K) (h : 2 ≤ bx.length ∧ 2 ≤ bY.length) (hb : bx.Nodup ∧ bY.Nodup) :
    ∃ C T F, gridQ4 (argsB2 bx bY s0 s1 0) = some (C, T) ∧ edgesQ4 (asTopo T) = some F ∧ EdgesFit F.flatten ∧
      ClosedLines (outer F.flatten) ∧ (outer F.flatten).length = 2 * (bx.length - 1 + (bY.length - 1)) := by
  obtain ⟨T, h1, _⟩ := vtk2_closed 2 le_rfl tabQ4 (binAxis bx 2 s0) (binAxis bY 2 s1) rfl rfl 0
  obtain ⟨C', T', hg, hB⟩ := C99_gridQ4_bins s0 s1 h hb
  have hT : asTopo T' = asTopo T := by
    have e : gridCore (argsB2 bx bY s0 s1 0) [2, 2] true none = some (gridBins2 bx bY 2 2 s0 s1 0) := rfl
    rw [gridQ4, gridNamed, e] at hg
    simp only [Option.bind_eq_bind, Option.bind_some] at hg
    rw [gridBins2, bins2_closed s0 s1 0 h ⟨le_rfl, le_rfl⟩ (.refl _) (.refl _), h1] at hg
    simp only [Option.map_some, Option.some.injEq, Prod.mk.injEq] at hg
    rw [← hg.2]
  obtain ⟨G, hG, h2, h3, h4⟩ := grid_outline (hT.trans (quadTopo _ _ rfl rfl h1)) hB
  exact ⟨C', T', G, hg, hG, h2, h3, h4⟩

/-- **C141** (grids with bins): the faces of the cells of `gridH8` fit, and the outer ones are a closed surface. -/
theorem C141_grid_bins {K : Type} [Field K] [CharZero K] {bx bY bz : List K} (s0 s1 s2 : K) (h : 2 ≤ bx.length ∧ 2 ≤ bY.length ∧ 2 ≤ bz.length)
    (hb : bx.Nodup ∧ bY.Nodup ∧ bz.Nodup) :
    ∃ C T F, gridH8 (argsB3 bx bY bz s0 s1 s2 0) = some (C, T) ∧ facesH8 (asTopo T) = some F ∧ FacesFit F.flatten ∧
      ClosedSurface (outer F.flatten) := by
  obtain ⟨T, h1, _⟩ := vtk3_closed 2 le_rfl tabH8 (binAxis bx 2 s0) (binAxis bY 2 s1) (binAxis bz 2 s2) rfl rfl rfl 0
  obtain ⟨C', T', F', hg, hF, hB⟩ := C99_gridH8_bins s0 s1 s2 h hb
  have hT : asTopo T' = asTopo T := by
    have e : gridCore (argsB3 bx bY bz s0 s1 s2 0) [2, 2, 2] true none = some (gridBins3 bx bY bz 2 2 2 s0 s1 s2 0) := rfl
    rw [gridH8, gridNamed, e] at hg
    simp only [Option.bind_eq_bind, Option.bind_some] at hg
    rw [gridBins3, bins3_closed s0 s1 s2 0 h ⟨le_rfl, le_rfl, le_rfl⟩ (.refl _) (.refl _), h1] at hg
    simp only [Option.map_some, Option.some.injEq, Prod.mk.injEq] at hg
    rw [← hg.2]
  obtain ⟨G, hG, h2, h3⟩ := grid_closed (hT.trans (hexTopo _ _ _ rfl rfl rfl h1)) hF hB.sides
  exact ⟨C', T', G, hg, hG, h2, h3⟩

example : ∃ C T F, gridQ4 (args2 (3 : ℚ) 2 4 2 0 5 0) = some (C, T) ∧ edgesQ4 (asTopo T) = some F ∧ EdgesFit F.flatten ∧
    ClosedLines (outer F.flatten) ∧ (outer F.flatten).length = 2 * (4 + 2) := C142_grid _ _ (by decide) (by norm_num)

end PM
