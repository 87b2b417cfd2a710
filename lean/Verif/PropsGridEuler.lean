import Verif.PropsGridRefine
import Verif.PropsGridFaces
import Verif.PropsCellTables

/-!
# C134: numbers of edges, faces and cells of grids

The numbers of different edges and faces that `unique_topo_data` finds among those listed by `edges_H8` and `faces_H8` for the cells of
`gridH8`, and by `edges_Q4` for those of `gridQ4`. They fulfil Euler's formula for a ball and a disk.
-/

namespace PM

/-! ## specification -/

/-- What is claimed of a mesh of hexahedra with `V` points that is a box of `a` by `b` by `c` cells. -/
def BoxCounts (V : Nat) (T : Topo) (a b c : Nat) : Prop :=
  ∃ E F, edgesH8 T = some E ∧ facesH8 T = some F ∧
    V = (a + 1) * (b + 1) * (c + 1) ∧
    (uniqueTopoData E).1.length = a * (b + 1) * (c + 1) + (a + 1) * b * (c + 1) + (a + 1) * (b + 1) * c ∧
    (uniqueTopoData F).1.length = (a + 1) * b * c + a * (b + 1) * c + a * b * (c + 1) ∧
    T.length = a * b * c ∧
    V + (uniqueTopoData F).1.length = (uniqueTopoData E).1.length + T.length + 1

/-- What is claimed of a mesh of quadrilaterals with `V` points that is a rectangle of `a` by `b` cells. -/
def RectCounts (V : Nat) (T : Topo) (a b : Nat) : Prop :=
  ∃ E, edgesQ4 T = some E ∧ V = (a + 1) * (b + 1) ∧ (uniqueTopoData E).1.length = a * (b + 1) + (a + 1) * b ∧ T.length = a * b ∧
    V + T.length = (uniqueTopoData E).1.length + 1

/-! ## the points made by the elevation -/

section
variable {K : Type} [Field K]

theorem cellCols_entities {A B w : Nat} {ws : List (Nat × Nat × Nat)} {ids : List (List Nat)} {topo : Topo}
    (hws : (ws.all fun w => w.1 < A && w.2.1 < B) = true) (hw : ∀ r ∈ topo, r.length = w)
    (h : ∀ r : List Nat, r.length = w → cellCols1 A B ws r = some (ids.map fun f => f.map fun q => r.getD q 0)) :
    cellCols A B ws topo = some (topo.map fun r => ids.map fun f => f.map fun q => r.getD q 0) := by
  rw [cellCols, if_pos hws]
  exact mapM_some fun r hr => h r (hw r hr)

theorem edgesH8_eq {topo : Topo} (h : ∀ r ∈ topo, r.length = 8) :
    edgesH8 topo = some (topo.map fun r => edgeIdsH8.map fun f => f.map fun q => r.getD q 0) := by
  refine cellCols_entities (w := 8) (by decide) h fun r hr => ?_
  obtain ⟨a, b, c, d, e, f, g, i, rfl⟩ := len8 hr
  rfl

theorem facesH8_eq {topo : Topo} (h : ∀ r ∈ topo, r.length = 8) :
    facesH8 topo = some (topo.map fun r => faceIdsH8.map fun f => f.map fun q => r.getD q 0) := by
  refine cellCols_entities (w := 8) (by decide) h fun r hr => ?_
  obtain ⟨a, b, c, d, e, f, g, i, rfl⟩ := len8 hr
  rfl

theorem edgesQ4_eq {topo : Topo} (h : ∀ r ∈ topo, r.length = 4) :
    edgesQ4 topo = some (topo.map fun r => edgeIdsQ4.map fun f => f.map fun q => r.getD q 0) := by
  refine cellCols_entities (w := 4) (by decide) h fun r hr => ?_
  obtain ⟨a, b, c, d, rfl⟩ := len4 hr
  rfl

theorem meanRows_length {coords : List (V3 K)} {rows : List (List Nat)} {p : List (V3 K)} (h : meanRows coords rows = some p) :
    p.length = rows.length := (mapM_length h)

theorem elevStep_length {coords : List (V3 K)} {topo : Topo} {table : List (List Nat)} {nP w : Nat} {c : List (V3 K)} {t : Topo}
    (hw : ∀ r ∈ topo, r.length = w) (ht : ∀ f ∈ table, ∀ q ∈ f, q < w) (h : elevStep coords topo table nP = some (c, t)) :
    c.length = (uniqueTopoData (topo.map fun r => table.map fun f => f.map fun q => r.getD q 0)).1.length := by
  have e : topo.mapM (cellEntities table) = some (topo.map fun r => table.map fun f => f.map fun q => r.getD q 0) :=
    mapM_some fun r hr => cellEntities_eq fun f hf q hq => by rw [hw r hr]; exact ht f hf q hq
  unfold elevStep at h
  rw [e] at h
  simp only [Option.bind_eq_bind, Option.bind_some, Option.bind_eq_some_iff, Option.pure_def, Option.some.injEq, Prod.mk.injEq] at h
  obtain ⟨p, hp, rfl, _⟩ := h
  exact meanRows_length hp

/-- The points of the elevated mesh: those there were, one for every different edge, one for every different face, one for every cell. -/
theorem h8ToH27_length {coords : List (V3 K)} {topo : Topo} {c : List (V3 K)} {t : Topo} (hw : ∀ r ∈ topo, r.length = 8)
    (h : h8ToH27 coords topo = some (c, t)) :
    c.length = coords.length + (uniqueTopoData (topo.map fun r => edgeIdsH8.map fun f => f.map fun q => r.getD q 0)).1.length +
      (uniqueTopoData (topo.map fun r => faceIdsH8.map fun f => f.map fun q => r.getD q 0)).1.length + topo.length := by
  unfold h8ToH27 elevateC elevate at h
  simp only [elevGo, Option.bind_eq_bind, Option.bind_some, Option.bind_eq_some_iff, Option.pure_def, Option.some.injEq, Prod.mk.injEq,
    Prod.exists] at h
  obtain ⟨c1, t1, ⟨c2, t2, ⟨c3, t3, h3, c4, t4, ⟨c5, t5, h5, rfl, _⟩, rfl, _⟩, rfl, _⟩, p, hp, rfl, _⟩ := h
  have e1 := elevStep_length hw (by decide) h3
  have e2 := elevStep_length hw (by decide) h5
  have e3 := meanRows_length hp
  simp only [List.length_append, List.append_nil, e1, e2, e3]
  omega

end

/-- The numbers of edges and faces of a box of cells. -/
theorem latCounts {a b c : Nat} (h : 1 ≤ a ∧ 1 ≤ b ∧ 1 ≤ c) :
    BoxCounts ((a + 1) * (b + 1) * (c + 1)) ((latCells a b c).map fun p => (latCell p.1 p.2.1 p.2.2).map (latNo b c)) a b c := by
  obtain ⟨T, h1, v1⟩ := vtk3_closed 2 le_rfl tabH8 (uniAxis (1 : ℚ) a 2 0) (uniAxis 1 b 2 0) (uniAxis 1 c 2 0) rfl rfl rfl 0
  obtain ⟨T', h1', v1'⟩ := vtk3_closed 3 (by omega) tabH27 (uniAxis (1 : ℚ) a 3 0) (uniAxis 1 b 3 0) (uniAxis 1 c 3 0) rfl rfl rfl 0
  obtain ⟨pc, pt, e, r⟩ := elevate_grid27 rfl rfl rfl rfl rfl rfl h h1' h1 v1' v1
  have eT := hexTopo _ _ _ rfl rfl rfl h1
  simp only [uniAxis] at eT
  have hw : ∀ r ∈ (latCells a b c).map fun p => (latCell p.1 p.2.1 p.2.2).map (latNo b c), r.length = 8 := by
    intro r hr
    obtain ⟨q, _, rfl⟩ := List.mem_map.1 hr
    rfl
  rw [eT] at e
  have hl := h8ToH27_length hw e
  have hb := boxFaces_grid (uniAxis (1 : ℚ) a 2 0) (uniAxis 1 b 2 0) (uniAxis 1 c 2 0) rfl rfl rfl (uniAxis_sep one_ne_zero h.1)
      (uniAxis_sep one_ne_zero h.2.1) (uniAxis_sep one_ne_zero h.2.2) h.1 h.2.1 h.2.2
  have hF := hb.distinct (((latCells a b c).map fun p => (latCell p.1 p.2.1 p.2.2).map (latNo b c)).map
    fun r => faceIdsH8.map fun f => f.map fun q => r.getD q 0) (by
      rw [← List.flatMap_def]
      rfl)
  simp only [uniAxis] at hF
  have hC : ((latCells a b c).map fun p => (latCell p.1 p.2.1 p.2.2).map (latNo b c)).length = a * b * c := by
    have := v1.1
    simp only [uniAxis] at this
    rw [← this, ← eT, asTopo, List.length_map]
  have l1 : ((gridCoords [uniAxis (1 : ℚ) a 2 0, uniAxis 1 b 2 0, uniAxis 1 c 2 0]).map rowPt).length = (a + 1) * (b + 1) * (c + 1) := by
    rw [List.length_map, gridCoords, length_gridL]
    simp [uniAxis, Axis.pts, mul_assoc]
  have l2 : ((gridCoords [uniAxis (1 : ℚ) a 3 0, uniAxis 1 b 3 0, uniAxis 1 c 3 0]).map rowPt).length =
      (2 * a + 1) * (2 * b + 1) * (2 * c + 1) := by
    rw [List.length_map, gridCoords, length_gridL]
    simp only [uniAxis, Axis.pts, List.map_cons, List.map_nil, List.prod_cons, List.prod_nil]
    ring
  have l1' : (List.map rowPt (gridCoords [(⟨(uniAxis (1 : ℚ) a 3 0).n, 2, (uniAxis (1 : ℚ) a 3 0).b⟩ : Axis ℚ),
      ⟨(uniAxis (1 : ℚ) b 3 0).n, 2, (uniAxis (1 : ℚ) b 3 0).b⟩, ⟨(uniAxis (1 : ℚ) c 3 0).n, 2, (uniAxis (1 : ℚ) c 3 0).b⟩])).length =
      (a + 1) * (b + 1) * (c + 1) := l1
  rw [l1', r.1.trans l2, hF, hC] at hl
  have hE : (uniqueTopoData (((latCells a b c).map fun p => (latCell p.1 p.2.1 p.2.2).map (latNo b c)).map
    fun r => edgeIdsH8.map fun f => f.map fun q => r.getD q 0)).1.length =
      a * (b + 1) * (c + 1) + (a + 1) * b * (c + 1) + (a + 1) * (b + 1) * c := by
    generalize (uniqueTopoData (((latCells a b c).map fun p => (latCell p.1 p.2.1 p.2.2).map (latNo b c)).map
      fun r => edgeIdsH8.map fun f => f.map fun q => r.getD q 0)).1.length = E at hl
    zify at hl ⊢
    linear_combination -hl
  refine ⟨_, _, edgesH8_eq hw, facesH8_eq hw, rfl, hE, hF.trans (by ring), hC, ?_⟩
  rw [hE, hF, hC]
  ring

/-- The number of edges of a rectangle of cells. -/
theorem latCounts2 {a b : Nat} (h : 1 ≤ a ∧ 1 ≤ b) :
    RectCounts ((a + 1) * (b + 1)) ((latCells2 a b).map fun p => (latCell2 p.1 p.2).map (latNo2 b)) a b := by
  obtain ⟨T, h1, v1⟩ := vtk2_closed 2 le_rfl tabQ4 (uniAxis (1 : ℚ) a 2 0) (uniAxis 1 b 2 0) rfl rfl 0
  have eT := quadTopo (uniAxis (1 : ℚ) a 2 0) (uniAxis 1 b 2 0) rfl rfl h1
  simp only [uniAxis] at eT
  have hw : ∀ r ∈ (latCells2 a b).map fun p => (latCell2 p.1 p.2).map (latNo2 b), r.length = 4 := by
    intro r hr
    obtain ⟨q, _, rfl⟩ := List.mem_map.1 hr
    rfl
  have hb := boxEdges_grid (uniAxis (1 : ℚ) a 2 0) (uniAxis 1 b 2 0) rfl rfl (uniAxis_sep one_ne_zero h.1) (uniAxis_sep one_ne_zero h.2) h.1 h.2
  have hE := hb.distinct (((latCells2 a b).map fun p => (latCell2 p.1 p.2).map (latNo2 b)).map
    fun r => edgeIdsQ4.map fun f => f.map fun q => r.getD q 0) (by
      rw [← List.flatMap_def]
      rfl)
  simp only [uniAxis] at hE
  have hC : ((latCells2 a b).map fun p => (latCell2 p.1 p.2).map (latNo2 b)).length = a * b := by
    have := v1.1
    simp only [uniAxis] at this
    rw [← this, ← eT, asTopo, List.length_map]
  refine ⟨_, edgesQ4_eq hw, rfl, hE.trans (by ring), hC, ?_⟩
  rw [hE, hC]
  ring

section
variable {K : Type} [Field K] [CharZero K]

/-- **C134** `gridH8`: the numbers of points, edges, faces and cells, and Euler's formula. -/
theorem C134_gridH8 (lX lY lZ : K) {nx ny nz : Nat} (s0 s1 s2 : K) (h : 1 ≤ nx ∧ 1 ≤ ny ∧ 1 ≤ nz) :
    ∃ C T, gridH8 (args3 lX lY lZ nx ny nz s0 s1 s2 0) = some (C, T) ∧ BoxCounts C.length (asTopo T) nx ny nz := by
  obtain ⟨T, h1, _⟩ := vtk3_closed 2 le_rfl tabH8 (uniAxis lX nx 2 s0) (uniAxis lY ny 2 s1) (uniAxis lZ nz 2 s2) rfl rfl rfl 0
  refine ⟨_, T, gridNamed_uni3 2 le_rfl lX lY lZ s0 s1 s2 h h1, ?_⟩
  rw [hexTopo _ _ _ rfl rfl rfl h1, gridCoords, length_gridL]
  have := latCounts h
  simpa [uniAxis, Axis.pts, mul_assoc] using this

/-- **C134** with bins, also with repeated ones. -/
theorem C134_gridH8_bins {bx bY bz : List K} (s0 s1 s2 : K) (h : 2 ≤ bx.length ∧ 2 ≤ bY.length ∧ 2 ≤ bz.length) :
    ∃ C T, gridH8 (argsB3 bx bY bz s0 s1 s2 0) = some (C, T) ∧
      BoxCounts C.length (asTopo T) (bx.length - 1) (bY.length - 1) (bz.length - 1) := by
  obtain ⟨T, h1, _⟩ := vtk3_closed 2 le_rfl tabH8 (binAxis bx 2 s0) (binAxis bY 2 s1) (binAxis bz 2 s2) rfl rfl rfl 0
  refine ⟨_, T, gridNamed_bins3 2 le_rfl s0 s1 s2 h h1, ?_⟩
  rw [hexTopo _ _ _ rfl rfl rfl h1, gridCoords, length_gridL]
  have := latCounts (a := bx.length - 1) (b := bY.length - 1) (c := bz.length - 1) (by omega)
  simpa [binAxis, Axis.pts, mul_assoc] using this

/-- **C134** `gridQ4`: the numbers of points, edges and cells, and Euler's formula. -/
theorem C134_gridQ4 (lX lY : K) {nx ny : Nat} (s0 s1 : K) (h : 1 ≤ nx ∧ 1 ≤ ny) :
    ∃ C T, gridQ4 (args2 lX lY nx ny s0 s1 0) = some (C, T) ∧ RectCounts C.length (asTopo T) nx ny := by
  obtain ⟨T, h1, _⟩ := vtk2_closed 2 le_rfl tabQ4 (uniAxis lX nx 2 s0) (uniAxis lY ny 2 s1) rfl rfl 0
  refine ⟨_, T, gridNamed_uni2 2 le_rfl lX lY s0 s1 h h1, ?_⟩
  rw [quadTopo _ _ rfl rfl h1, gridCoords, length_gridL]
  have := latCounts2 h
  simpa [uniAxis, Axis.pts] using this

/-- **C134** with bins, also with repeated ones. -/
theorem C134_gridQ4_bins {bx bY : List K} (s0 s1 : K) (h : 2 ≤ bx.length ∧ 2 ≤ bY.length) :
    ∃ C T, gridQ4 (argsB2 bx bY s0 s1 0) = some (C, T) ∧ RectCounts C.length (asTopo T) (bx.length - 1) (bY.length - 1) := by
  obtain ⟨T, h1, _⟩ := vtk2_closed 2 le_rfl tabQ4 (binAxis bx 2 s0) (binAxis bY 2 s1) rfl rfl 0
  refine ⟨_, T, gridNamed_bins2 2 le_rfl s0 s1 h h1, ?_⟩
  rw [quadTopo _ _ rfl rfl h1, gridCoords, length_gridL]
  have := latCounts2 (a := bx.length - 1) (b := bY.length - 1) (by omega)
  simpa [binAxis, Axis.pts] using this

end

/-- Two cells side by side: 12 points, 20 edges, 11 faces. -/
example : (edgesH8 [[0, 1, 2, 3, 4, 5, 6, 7], [1, 8, 9, 2, 5, 10, 11, 6]]).map (fun E => (uniqueTopoData E).1.length) = some 20 ∧
    (facesH8 [[0, 1, 2, 3, 4, 5, 6, 7], [1, 8, 9, 2, 5, 10, 11, 6]]).map (fun F => (uniqueTopoData F).1.length) = some 11 := by
  decide +kernel

end PM
