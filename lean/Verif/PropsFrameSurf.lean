import Verif.FrameSurf
import Verif.PropsFrameCells
import Verif.PropsExchange
import Verif.PropsSkin
import Verif.PropsCollect

/-!
# C118: blocks of meshes with frames as VTK grids, and their surfaces
-/

namespace PM

section
variable {K : Type} [Field K]

/-- **C118** the grid of a block has the type of its cells, and VTK reads cells from it whose corners are at the places of the corners of
the cells of the block, one after the other. Without `detach` points and numbers are those of the source, with it no point is unused. -/
theorem C118_vtk {m : List (FBlock K)} (hm : (m.map FBlock.path).Nodup) {p : List Nat} {b : FBlock K} (hb : ClosestFPts m p b)
    {c : FCloud K} (hc : framedPoints m b.path = some c) {t : Topo} (hin : ∀ n, UsesNode t n → n < c.x.length) {w : Nat}
    (hw : ∀ row ∈ t, row.length = w) (type : Option Nat) (detach : Bool) :
    ∃ g T, blockVtk m p t w type detach = some g ∧ g.type = type ∧ vtkRead g.ncells g.cells = some (T, []) ∧
      T.map List.length = t.map List.length ∧
      (∀ i j n, nodeAt t i j = some n → ∃ k, nodeAt T i j = some k ∧ g.points[k]? = (c.show none)[n]?) ∧
      (detach = false → T = t ∧ g.points = c.show none) ∧ (detach = true → ∀ k, UsesNode T k ↔ k < g.points.length) := by
  cases detach with
  | false =>
    obtain ⟨g, h1, h2, h3, h4⟩ := C92_array (FCloud.show c none) t w type hw
    refine ⟨g, t, ?_, h3, h4, rfl, fun i j n h => ⟨n, h, by rw [h2]⟩, fun _ => ⟨rfl, h2⟩, by simp⟩
    simp [blockVtk, fSource_closest hm hb, hc, h1]
  | true =>
    have hin' : ∀ n, UsesNode t n → n < (FCloud.show c none).length := fun n hn => by
      simpa [FCloud.show] using hin n hn
    obtain ⟨X, T, -, d1, -, -, -, -, d6, d7, d8⟩ := C04_detach (FCloud.show c none) t hin'
    have hw' : ∀ row ∈ T, row.length = w := by
      intro row hr
      have : row.length ∈ t.map List.length := d6 ▸ List.mem_map.2 ⟨row, hr, rfl⟩
      obtain ⟨r, hr', e⟩ := List.mem_map.1 this
      rw [← e, hw r hr']
    obtain ⟨g, h1, h2, h3, h4⟩ := C92_array X T w type hw'
    refine ⟨g, T, ?_, h3, h4, d6, fun i j n h => by rw [h2]; exact d8 i j n h, by simp, fun _ => by rw [h2]; exact d7⟩
    have : detachMeshBulk (FCloud.show c none) t = some (X, T) := d1
    simp [blockVtk, fSource_closest hm hb, hc, this, h1]

end

/-! ## surfaces of blocks -/

/-- What the library has to find for the grid of a block: the skin of the cells with the faces `faces`, in ambient space. -/
def SurfOf (surf : VtkGrid (V3 ℝ) → PvSurf) (c : FCloud ℝ) (t : Topo) (w : Nat) (type : Option Nat) (faces : Topo) : Prop :=
  ∀ g : VtkGrid (V3 ℝ), g.points = c.show none → g.type = type → vtkRead g.ncells g.cells = some (t, []) → (∀ row ∈ t, row.length = w) →
    VtkSurface (c.show none) faces (surf g)

/-- **C118** the detached surface of a block is the skin of its cells, at its place in ambient space. -/
theorem C118_detached {query : List (V3 ℝ) → V3 ℝ → Option Nat} {surf : VtkGrid (V3 ℝ) → PvSurf} {m : List (FBlock ℝ)}
    (hm : (m.map FBlock.path).Nodup) {p : List Nat} {b : FBlock ℝ} (hb : ClosestFPts m p b)
    {c : FCloud ℝ} (hc : framedPoints m b.path = some c) {t : Topo} (hin : ∀ n, UsesNode t n → n < c.x.length) {w : Nat}
    (hw : ∀ row ∈ t, row.length = w) {type : Option Nat} {faces : Topo} (hs : SurfOf surf c t w type faces) (own : Option (List (V3 ℝ))) :
    ∃ X T, blockSurface query surf m p own t w type true = some (X, T) ∧ VtkSurface (c.show none) faces ⟨X, T⟩ := by
  obtain ⟨g, T, h1, h2, h3, -, -, h6, -⟩ := C118_vtk hm hb hc hin hw type false
  obtain ⟨rfl, h7⟩ := h6 rfl
  have hsrc : ∃ x, fSourceCoords m p own = some x := by
    cases own with
    | some x => exact ⟨x, rfl⟩
    | none => exact ⟨FCloud.show c none, by simp [fSourceCoords, fSource_closest hm hb, hc]⟩
  obtain ⟨x, hx⟩ := hsrc
  exact ⟨(surf g).pts, (surf g).tris, by simp [blockSurface, hx, h1, extractSurfaceDetached], hs g h7 h2 h3 hw⟩

/-- **C118** the surface of a block with the numbers of the points of the source, for cells that do not know their points, or for points
stored with their places in ambient space. -/
theorem C118_block_partial {query : List (V3 ℝ) → V3 ℝ → Option Nat} (hq : NearestQuery query) {surf : VtkGrid (V3 ℝ) → PvSurf}
    {m : List (FBlock ℝ)} (hm : (m.map FBlock.path).Nodup) {p : List Nat} {b : FBlock ℝ} (hb : ClosestFPts m p b)
    {c : FCloud ℝ} (hc : framedPoints m b.path = some c) (hnd : (c.show none).Nodup) (hne : c.x ≠ [])
    {t : Topo} (hin : ∀ n, UsesNode t n → n < c.x.length) {w : Nat}
    (hw : ∀ row ∈ t, row.length = w) {type : Option Nat} {faces : Topo} (hs : SurfOf surf c t w type faces) {own : Option (List (V3 ℝ))}
    (hown : own = none ∨ own = some (c.show none)) :
    ∃ T, blockSurface query surf m p own t w type false = some (c.show none, T) ∧ IsSkinTri faces T := by
  obtain ⟨g, T, h1, h2, h3, -, -, h6, -⟩ := C118_vtk hm hb hc hin hw type false
  obtain ⟨rfl, h7⟩ := h6 rfl
  have hsrc : fSourceCoords m p own = some (FCloud.show c none) := by
    rcases hown with rfl | rfl
    · simp [fSourceCoords, fSource_closest hm hb, hc]
    · rfl
  obtain ⟨T', h8, -, h9⟩ := C59_block hq hnd (by simpa [FCloud.show] using hne) (hs g h7 h2 h3 hw)
  exact ⟨T', by simp [blockSurface, hsrc, h1, h8], h9⟩

/-! ## surfaces of meshes -/

theorem mapM_option_map {α β γ : Type} (f : α → Option β) (h : β → γ) (l : List α) :
    l.mapM (fun x => (f x).map h) = (l.mapM f).map (List.map h) := by
  induction l with
  | nil => rfl
  | cons a l ih =>
    rw [List.mapM_cons, List.mapM_cons, ih]
    cases f a with
    | none => rfl
    | some b => cases l.mapM f <;> rfl

/-- The blocks of cells at or beneath a path, each with its path. -/
def CellsAt (m : List (FBlock ℝ)) (p : List Nat) : List (List Nat × Topo) :=
  m.flatMap fun b => if p <:+ b.path then (b.topo.map fun t => (b.path, t)).toList else []

theorem cellBlocksAt_eq (m : List (FBlock ℝ)) (p : List Nat) : cellBlocksAt m p = CellsAt m p := by
  induction m with
  | nil => rfl
  | cons b m ih =>
    rw [CellsAt, List.flatMap_cons, ← CellsAt, ← ih, cellBlocksAt, cellBlocksAt, List.filter_cons]
    by_cases h : p <:+ b.path
    · cases hb : b.topo <;> simp [h, hb]
    · simp [h]

/-- **C118** the surface of a mesh in the ambient frame whose cells do not know their points: a mesh with the points of the source, at
their places, and with the triangles of the skins of all blocks. -/
theorem C118_surface_partial {query : List (V3 ℝ) → V3 ℝ → Option Nat} (hq : NearestQuery query) {surf : VtkGrid (V3 ℝ) → PvSurf}
    {own : List Nat → Option (List (V3 ℝ))} {cls : List Nat → Nat × Option Nat} {faces : List Nat → Topo}
    {m : List (FBlock ℝ)} (hm : (m.map FBlock.path).Nodup) {p : List Nat} {b : FBlock ℝ} (hb : ClosestFPts m p b)
    {c : FCloud ℝ} (hc : framedPoints m b.path = some c) (hnd : (c.show none).Nodup) (hne : c.x ≠ []) (hF : frameOf m b.path = some ambFrame)
    (hcells : CellsAt m p ≠ [])
    (hblocks : ∀ d ∈ CellsAt m p, ClosestFPts m d.1 b ∧ (∀ n, UsesNode d.2 n → n < c.x.length) ∧
      (∀ row ∈ d.2, row.length = (cls d.1).1) ∧ SurfOf surf c d.2 (cls d.1).1 (cls d.1).2 (faces d.1) ∧
      (own d.1 = none ∨ own d.1 = some (c.show none))) :
    ∃ (S : FBlock ℝ) (e : FCloud ℝ) (T : Topo), frameSurface query surf own cls m p = some [S] ∧ framedPoints [S] [] = some e ∧
      e.show none = c.show none ∧ S.topo = some T ∧
      (∀ r ∈ T, ∃ d ∈ CellsAt m p, ∃ f part, occ (faces d.1) f = 1 ∧ IsTriang f part ∧ r ∈ part) ∧
      ∀ d ∈ CellsAt m p, ∀ s, occ (faces d.1) s = 1 → ∃ f part, s.Perm f ∧ IsTriang f part ∧ ∀ r ∈ part, r ∈ T := by
  rw [← cellBlocksAt_eq] at *
  classical
  have hX : FCloud.show c none ≠ [] := by simpa [FCloud.show] using hne
  -- the grids
  let G : List Nat × Topo → VtkGrid (V3 ℝ) := fun d => ⟨FCloud.show c none, d.2.length, vtkArray (cls d.1).1 d.2, (cls d.1).2⟩
  have hG : ∀ d ∈ cellBlocksAt m p, blockVtk m d.1 d.2 (cls d.1).1 (cls d.1).2 false = some (G d) ∧
      vtkRead (G d).ncells (G d).cells = some (d.2, []) := by
    intro d hd
    obtain ⟨h1, h2, h3, -, -⟩ := hblocks d hd
    have hall : (d.2.all fun row => decide (row.length = (cls d.1).1)) = true := by simpa using h3
    constructor
    · simp only [blockVtk, fSource_closest hm h1, hc, Option.bind_some, vtkGrid]
      simp only [hall, if_true, Bool.false_eq_true, if_false]
      rfl
    · have := vtkRead_array (cls d.1).1 d.2 h3 []
      rwa [List.append_nil] at this
  have hsurf : List.Forall₂ (VtkSurface (FCloud.show c none)) ((cellBlocksAt m p).map fun d => faces d.1)
      ((cellBlocksAt m p).map fun d => surf (G d)) := by
    rw [List.forall₂_map_left_iff, List.forall₂_map_right_iff, List.forall₂_same]
    intro d hd
    obtain ⟨-, -, h3, h4, -⟩ := hblocks d hd
    exact h4 (G d) rfl rfl (hG d hd).2 h3
  obtain ⟨T, h1, h2, h3⟩ := C59_blocks hq hnd hX (blocks := (cellBlocksAt m p).map fun d => surf (G d)) (by simpa using hcells) hsurf
  have hl : ((cellBlocksAt m p).mapM fun d =>
      (blockSurface query surf m d.1 (own d.1) d.2 (cls d.1).1 (cls d.1).2 false).map Prod.snd) =
      ((cellBlocksAt m p).mapM fun d => extractSurface query (FCloud.show c none) (surf (G d))).map (List.map Prod.snd) := by
    rw [← mapM_option_map]
    apply mapM_congr'
    intro d hd
    obtain ⟨hcl, -, -, -, h5⟩ := hblocks d hd
    have hsrc : fSourceCoords m d.1 (own d.1) = some (FCloud.show c none) := by
      rcases h5 with h5 | h5
      · simp [h5, fSourceCoords, fSource_closest hm hcl, hc]
      · rw [h5]; rfl
    simp [blockSurface, hsrc, (hG d hd).1]
  have hT : ((((cellBlocksAt m p).mapM fun d => extractSurface query (FCloud.show c none) (surf (G d))).map (List.map Prod.snd)).bind
      fun l => uniqueRows l) = some T := by
    unfold meshSurface at h1
    rw [mapM_map'] at h1
    cases hr : (cellBlocksAt m p).mapM fun d => extractSurface query (FCloud.show c none) (surf (G d)) with
    | none => rw [hr] at h1; simp at h1
    | some r =>
      rw [hr] at h1
      simp only [Option.bind_some] at h1
      cases hu : uniqueRows (r.map Prod.snd) with
      | none => rw [hu] at h1; simp at h1
      | some u =>
        rw [hu] at h1
        simp only [Option.map_some, Option.some.injEq, Prod.mk.injEq, true_and] at h1
        simp [hu, h1]
  have hamb : ∀ l : List (V3 ℝ), l.map (pcShow ambFrame none) = l := fun l => by
    rw [map_pcShow_none]
    conv_rhs => rw [← List.map_id l]
    exact List.map_congr_left fun x _ => ambFrame_place x
  let S : FBlock ℝ := ⟨[], some ambFrame, some ⟨FCloud.show c none, List.range (FCloud.show c none).length, some ambFrame⟩, some T⟩
  have hS : frameSurface query surf own cls m p = some [S] := by
    unfold frameSurface
    simp only [fSource_closest hm hb, hc, hF, Option.bind_some]
    rw [hl]
    rw [Option.bind_eq_some_iff] at hT
    obtain ⟨l, hl1, hl2⟩ := hT
    rw [hl1, Option.bind_some, hl2, Option.bind_some]
    simp only [storeCoords, Option.getD_some, hamb, Option.bind_some]
    rfl
  obtain ⟨e, e1, -, -, e4⟩ := C83_points_partial (m := [S]) (by simp) (p := []) ambFrame_ortho rfl
    ⟨S, List.mem_singleton.2 rfl, List.suffix_refl _, rfl⟩ (fun _ => ambFrame)
    (by
      intro d hd _
      rw [List.mem_singleton.1 hd]
      exact Or.inl rfl)
    (by intros; rfl)
  refine ⟨S, e, T, hS, e1, ?_, rfl, ?_, ?_⟩
  · rw [e4]
    simp only [perBlock, S, List.filter_cons, List.suffix_refl, decide_true, if_true, List.filter_nil, List.flatMap_cons, List.flatMap_nil,
      List.append_nil]
    rw [← map_pcShow_none, hamb]
  · intro r hr
    obtain ⟨A, hA, f, part, h4⟩ := h2 r hr
    obtain ⟨d, hd, rfl⟩ := List.mem_map.1 hA
    exact ⟨d, hd, f, part, h4⟩
  · intro d hd s hs
    exact h3 _ (List.mem_map.2 ⟨d, hd, rfl⟩) s hs

/-! ## witnesses -/

/-- The ambient axes at another origin. -/
noncomputable def farFrame : CFrame ℝ := ⟨⟨1, 0, 0⟩, ⟨0, 1, 0⟩, ⟨0, 0, 1⟩, ⟨10, 0, 0⟩⟩

/-- The corners of a tetrahedron. -/
noncomputable def farX : List (V3 ℝ) := [⟨0, 0, 0⟩, ⟨1, 0, 0⟩, ⟨0, 1, 0⟩, ⟨0, 0, 1⟩]

/-- A tetrahedron in a frame `F`. -/
noncomputable def farTetMesh (F : CFrame ℝ) : List (FBlock ℝ) :=
  [⟨[], some F, some ⟨farX, [0, 1, 2, 3], none⟩, some [[0, 1, 2, 3]]⟩]

/-- The surface of a tetrahedron. -/
noncomputable def tetSurf (g : VtkGrid (V3 ℝ)) : PvSurf := ⟨g.points, [[0, 1, 3], [1, 2, 3], [2, 0, 3], [0, 2, 1]]⟩

theorem tetMesh_points {F : CFrame ℝ} (hF : F.Ortho) :
    ∃ c, framedPoints (farTetMesh F) [] = some c ∧ c.frame = F ∧ c.show none = farX.map F.place ∧ c.x.length = 4 := by
  obtain ⟨c, h1, h2, -, h4⟩ := C83_points_partial (m := farTetMesh F) (by simp [farTetMesh]) (p := []) hF rfl
    ⟨_, List.mem_singleton.2 rfl, List.suffix_refl _, rfl⟩ (fun _ => F)
    (by
      intro d hd _
      rw [List.mem_singleton.1 hd]
      exact Or.inl rfl)
    (by intros; rfl)
  have h5 : c.show none = farX.map F.place := by
    rw [h4]
    simp [perBlock, farTetMesh]
  refine ⟨c, h1, h2, h5, ?_⟩
  have := congrArg List.length h5
  simpa [FCloud.show, farX] using this

theorem tetMesh_closest (F : CFrame ℝ) : ClosestFPts (farTetMesh F) [] ⟨[], some F, some ⟨farX, [0, 1, 2, 3], none⟩, some [[0, 1, 2, 3]]⟩ :=
  ⟨List.mem_singleton.2 rfl, rfl, List.suffix_refl _, fun d hd _ _ => by rw [List.mem_singleton.1 hd]⟩

theorem tetSurf_ok (c : FCloud ℝ) (hl : c.x.length = 4) : SurfOf tetSurf c [[0, 1, 2, 3]] 4 (some 10) skinFaces1 := by
  intro g hg _ _ _
  refine ⟨[0, 1, 2, 3], ?_, ?_, ?_, isSkinTri_single (faces := skinFaces1) (by decide) (by decide)⟩
  · simp [tetSurf, hg, FCloud.show, hl]
  · intro k n x hk hx
    have : n = k := by
      match k with
      | 0 | 1 | 2 | 3 => simp at hk; omega
      | k + 4 => simp at hk
    rw [this]
    simpa [tetSurf, hg] using hx
  · simp [tetSurf, hg, FCloud.show, hl]

theorem farFrame_ortho : farFrame.Ortho := by
  constructor <;> simp [farFrame, V3.dot]

/-- The hypotheses of the theorems can be met. -/
example : ∃ T, blockSurface closestPoint tetSurf (farTetMesh farFrame) [] none [[0, 1, 2, 3]] 4 (some 10) false =
    some (farX.map farFrame.place, T) ∧ IsSkinTri skinFaces1 T := by
  obtain ⟨c, h1, -, h3, h4⟩ := tetMesh_points farFrame_ortho
  obtain ⟨T, h5, h6⟩ := C118_block_partial nearestQuery_closestPoint (by simp [farTetMesh]) (tetMesh_closest farFrame) h1
    (by rw [h3]; simp [farX, farFrame, CFrame.place, V3.ext_iff]) (by intro h; simp [h] at h4) (t := [[0, 1, 2, 3]]) (w := 4)
    (by rintro n ⟨r, hr, hn⟩; simp at hr; subst hr; rw [h4]; simp at hn; omega) (by simp) (tetSurf_ok c h4) (own := none) (Or.inl rfl)
  exact ⟨T, h3 ▸ h5, h6⟩

example : ∃ (S : FBlock ℝ) (e : FCloud ℝ) (T : Topo),
    frameSurface closestPoint tetSurf (fun _ => none) (fun _ => (4, some 10)) (farTetMesh ambFrame) [] = some [S] ∧
      framedPoints [S] [] = some e ∧ e.show none = farX ∧ S.topo = some T := by
  obtain ⟨c, h1, -, h3, h4⟩ := tetMesh_points ambFrame_ortho
  have h3' : c.show none = farX := by
    rw [h3]
    conv_rhs => rw [← List.map_id farX]
    exact List.map_congr_left fun x _ => ambFrame_place x
  have hcb : CellsAt (farTetMesh ambFrame) [] = [([], [[0, 1, 2, 3]])] := by simp [CellsAt, farTetMesh]
  obtain ⟨S, e, T, h5, h6, h7, h8, -⟩ := C118_surface_partial nearestQuery_closestPoint (surf := tetSurf) (own := fun _ => none)
    (cls := fun _ => (4, some 10)) (faces := fun _ => skinFaces1) (m := farTetMesh ambFrame) (by simp [farTetMesh]) (p := []) (tetMesh_closest ambFrame)
    h1 (by rw [h3']; simp [farX, V3.ext_iff]) (by intro h; simp [h] at h4) (by simp [frameOf, frameAt, farTetMesh, FBlock.ownFrame])
    (by rw [hcb]; simp) (by
      intro d hd
      rw [hcb, List.mem_singleton] at hd
      subst hd
      exact ⟨tetMesh_closest ambFrame, by rintro n ⟨r, hr, hn⟩; simp at hr; subst hr; rw [h4]; simp at hn; omega, by simp,
        tetSurf_ok c h4, Or.inl rfl⟩)
  exact ⟨S, e, T, h5, h6, h7.trans h3', h8⟩

theorem far_nearest {x : V3 ℝ} (hx : x ∈ farX.map farFrame.place) : ¬ IsNearest farX x 0 := by
  rintro ⟨q, hq, h⟩
  simp only [farX, List.getElem?_cons_zero, Option.some.injEq] at hq
  subst hq
  have h1 := h ⟨1, 0, 0⟩ (by simp [farX])
  unfold dist3 at h1
  rw [Real.sqrt_le_sqrt_iff (by positivity)] at h1
  have hge : 10 ≤ x.x := by
    obtain ⟨y, hy, rfl⟩ := List.mem_map.1 hx
    have : 0 ≤ y.x := by
      simp only [farX, List.mem_cons, List.not_mem_nil, or_false] at hy
      rcases hy with rfl | rfl | rfl | rfl <;> simp
    simp [CFrame.place, farFrame, this]
  simp only at h1
  nlinarith

/-- **C118** in a mesh with a frame, the triangles of the surface of a block that knows its points have wrong numbers. -/
theorem C118_block_false : ¬ ∀ (query : List (V3 ℝ) → V3 ℝ → Option Nat) (surf : VtkGrid (V3 ℝ) → PvSurf) (m : List (FBlock ℝ))
    (b : FBlock ℝ) (q : FPts ℝ) (c : FCloud ℝ) (t : Topo) (w : Nat) (type : Option Nat) (faces : Topo) (X : List (V3 ℝ)) (T : Topo),
    NearestQuery query → m = [b] → b.path = [] → b.pts = some q → framedPoints m [] = some c → (c.show none).Nodup →
    (∀ n, UsesNode t n → n < c.x.length) → (∀ row ∈ t, row.length = w) → SurfOf surf c t w type faces →
    blockSurface query surf m [] (some q.x) t w type false = some (X, T) → IsSkinTri faces T := by
  intro hall
  obtain ⟨c, h1, -, h3, h4⟩ := tetMesh_points farFrame_ortho
  have hin : ∀ n, UsesNode [[0, 1, 2, 3]] n → n < c.x.length := by
    rintro n ⟨r, hr, hn⟩; simp at hr; subst hr; rw [h4]; simp at hn; omega
  obtain ⟨g, T0, g1, g2, g3, -, -, g6, -⟩ := C118_vtk (by simp [farTetMesh]) (tetMesh_closest farFrame) h1 hin (w := 4) (by simp) (some 10) false
  obtain ⟨rfl, g7⟩ := g6 rfl
  obtain ⟨R, r1, r2, r3⟩ := C32_closest_many (targets := (tetSurf g).pts) nearestQuery_closestPoint (coords := farX) (by simp [farX])
  have hpts : (tetSurf g).pts = farX.map farFrame.place := by simp [tetSurf, g7, h3]
  have hR4 : R.length = 4 := by rw [r2, hpts]; simp [farX]
  have hR0 : ∀ k ∈ R, k ≠ 0 := by
    intro k hk h0
    subst h0
    obtain ⟨i, hi, hik⟩ := List.getElem_of_mem hk
    have hi' : i < (tetSurf g).pts.length := r2 ▸ hi
    refine far_nearest (hpts ▸ List.getElem_mem hi') (r3 i _ 0 (List.getElem?_eq_getElem hi') ?_)
    rw [List.getElem?_eq_getElem hi, hik]
  have hrem : remapTopo (tetSurf g).tris (.arr R) = some ((tetSurf g).tris.map (List.map fun k => R.getD k 0)) := by
    refine remapTopo_some (topo := (tetSurf g).tris) (imap := .arr R) (g := fun k => R.getD k 0) ?_
    intro row hr x hx
    have hx4 : x < R.length := by
      rw [hR4]
      exact (by decide : ∀ row ∈ [[0, 1, 3], [1, 2, 3], [2, 0, 3], [0, 2, 1]], ∀ x ∈ row, x < 4) row hr x hx
    simp [IMap.get?, List.getD, List.getElem?_eq_getElem hx4]
  have hbs : blockSurface closestPoint tetSurf (farTetMesh farFrame) [] (some farX) [[0, 1, 2, 3]] 4 (some 10) false =
      some (farX, (tetSurf g).tris.map (List.map fun k => R.getD k 0)) := by
    simp only [blockSurface, fSourceCoords, g1, Option.bind_some, extractSurface, r1, rewire, hrem, Bool.false_eq_true, if_false,
      Option.map_some]
  obtain ⟨polys, parts, p1, p2, p3⟩ := hall _ _ (farTetMesh farFrame) _ ⟨farX, [0, 1, 2, 3], none⟩ c _ 4 (some 10) skinFaces1 _ _
    nearestQuery_closestPoint rfl rfl rfl h1 (by rw [h3]; simp [farX, farFrame, CFrame.place, V3.ext_iff]) hin (by simp) (tetSurf_ok c h4) hbs
  -- a face with the node 0
  have hocc : 0 < occ polys [0, 2, 1] := by
    rw [p1 [0, 2, 1], if_pos (by decide)]; exact Nat.one_pos
  obtain ⟨f, hf, hperm⟩ := occ_pos.1 hocc
  obtain ⟨i, hi, hif⟩ := List.getElem_of_mem hf
  have hi' : i < parts.length := p2.length_eq ▸ hi
  have htri := (List.forall₂_iff_get.1 p2).2 i hi hi'
  simp only [List.get_eq_getElem, hif] at htri
  have hmem : f ∈ parts.flatten := by
    refine List.mem_flatten.2 ⟨parts[i], List.getElem_mem hi', ?_⟩
    have hl3 : f.length = 3 := hperm.length_eq.symm
    generalize parts[i] = part at htri
    cases htri with
    | tri a b c => simp
    | quad | quad' => simp at hl3
  obtain ⟨row, hrow, rfl⟩ := List.mem_map.1 (p3.mem_iff.2 hmem)
  obtain ⟨k, hk, hk0⟩ := List.mem_map.1 (hperm.mem_iff.1 (by simp : 0 ∈ [0, 2, 1]))
  have hk4 : k < R.length := by
    rw [hR4]
    exact (by decide : ∀ row ∈ [[0, 1, 3], [1, 2, 3], [2, 0, 3], [0, 2, 1]], ∀ x ∈ row, x < 4) row hrow k hk
  refine hR0 _ (List.getElem_mem hk4) ?_
  rw [List.getD_eq_getElem?_getD, List.getElem?_eq_getElem hk4, Option.getD_some] at hk0
  exact hk0

/-- **C118** the surface of a mesh with a frame is not where the mesh is. -/
theorem C118_surface_false : ¬ ∀ (query : List (V3 ℝ) → V3 ℝ → Option Nat) (surf : VtkGrid (V3 ℝ) → PvSurf) (cls : List Nat → Nat × Option Nat)
    (m S : List (FBlock ℝ)) (b : FBlock ℝ) (c e : FCloud ℝ) (t : Topo) (faces : Topo),
    NearestQuery query → m = [b] → b.path = [] → b.topo = some t → framedPoints m [] = some c → (c.show none).Nodup →
    (∀ n, UsesNode t n → n < c.x.length) → (∀ row ∈ t, row.length = (cls []).1) → SurfOf surf c t (cls []).1 (cls []).2 faces →
    frameSurface query surf (fun _ => none) cls m [] = some S → framedPoints S [] = some e → e.show none = c.show none := by
  intro hall
  obtain ⟨c, h1, -, h3, h4⟩ := tetMesh_points farFrame_ortho
  have hin : ∀ n, UsesNode [[0, 1, 2, 3]] n → n < c.x.length := by
    rintro n ⟨r, hr, hn⟩; simp at hr; subst hr; rw [h4]; simp at hn; omega
  have hnd : (FCloud.show c none).Nodup := by rw [h3]; simp [farX, farFrame, CFrame.place, V3.ext_iff]
  obtain ⟨T, h5, -⟩ := C118_block_partial nearestQuery_closestPoint (by simp [farTetMesh]) (tetMesh_closest farFrame) h1 hnd
    (by intro h; simp [h] at h4) hin (w := 4) (by simp) (tetSurf_ok c h4) (own := none) (Or.inl rfl)
  let S : FBlock ℝ := ⟨[], some farFrame, some ⟨(FCloud.show c none).map (pcShow farFrame none),
    List.range ((FCloud.show c none).map (pcShow farFrame none)).length, some farFrame⟩, some T⟩
  have hsrc : fSource (farTetMesh farFrame) [] = some [] := fSource_closest (by simp [farTetMesh]) (tetMesh_closest farFrame)
  have hfr : frameOf (farTetMesh farFrame) [] = some farFrame := by simp [frameOf, frameAt, farTetMesh, FBlock.ownFrame]
  have hcb : cellBlocksAt (farTetMesh farFrame) [] = [([], [[0, 1, 2, 3]])] := by simp [cellBlocksAt, farTetMesh]
  have hS : frameSurface closestPoint tetSurf (fun _ => none) (fun _ => (4, some 10)) (farTetMesh farFrame) [] = some [S] := by
    unfold frameSurface
    simp only [hsrc, h1, hfr, hcb, Option.bind_some, List.mapM_cons, List.mapM_nil, h5, Option.map_some, storeCoords, Option.getD_some]
    simp [uniqueRows, storeFrame, S]
  obtain ⟨e, e1, -, -, e4⟩ := C83_points_partial (m := [S]) (by simp) (p := []) farFrame_ortho rfl
    ⟨S, List.mem_singleton.2 rfl, List.suffix_refl _, rfl⟩ (fun _ => farFrame)
    (by
      intro d hd _
      rw [List.mem_singleton.1 hd]
      exact Or.inl rfl)
    (by intros; rfl)
  have := hall closestPoint tetSurf (fun _ => (4, some 10)) (farTetMesh farFrame) [S] _ c e [[0, 1, 2, 3]] skinFaces1 nearestQuery_closestPoint rfl rfl
    rfl h1 hnd hin (by simp) (tetSurf_ok c h4) hS e1
  rw [e4, h3] at this
  have h0 := congrArg (fun l : List (V3 ℝ) => (l.map V3.x).head?) this
  simp [perBlock, S, h3, farX, pcShow_none, CFrame.place, farFrame] at h0

end PM
