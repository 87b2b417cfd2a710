import Verif.Tetrahedralize
import Verif.PropsFrameMesh
import Verif.PropsElevate

/-!
# C105: tetrahedral meshes of bodies
-/

namespace PM

variable {K : Type} [Field K]

/-- Specification: the only block with cells at or beneath a path. -/
structure OnlyCells (m : List (FBlock K)) (p : List Nat) (b : FBlock K) : Prop where
  mem : b ∈ m
  beneath : p <:+ b.path
  has : b.topo.isSome
  only : ∀ c ∈ m, p <:+ c.path → c.topo.isSome → c = b

/-- Specification: a mesh of a single block that shows the points `X`, numbered in order, and has the cells `T`. -/
structure ShowsSolid (m : List (FBlock K)) (X : List (V3 K)) (T : Topo) : Prop where
  cells : m.map FBlock.topo = [some T]
  shown : ∃ c, framedPoints m [] = some c ∧ c.show none = X ∧ c.inds = List.range X.length

omit [Field K] in
theorem cellBlocks_only {m : List (FBlock K)} (hm : (m.map FBlock.path).Nodup) {p : List Nat} {b : FBlock K} :
    cellBlocks m p = [b] ↔ OnlyCells m p b := by
  have hmem : ∀ c, c ∈ cellBlocks m p ↔ c ∈ m ∧ p <:+ c.path ∧ c.topo.isSome := by
    intro c
    simp [cellBlocks, List.mem_filter]
  have hnd : (cellBlocks m p).Nodup := (List.Nodup.of_map _ hm).filter _
  constructor
  · intro h
    have hb := (hmem b).1 (by rw [h]; exact List.mem_singleton.2 rfl)
    exact ⟨hb.1, hb.2.1, hb.2.2, fun c h1 h2 h3 => List.mem_singleton.1 (h ▸ (hmem c).2 ⟨h1, h2, h3⟩)⟩
  · intro h
    have hb : b ∈ cellBlocks m p := (hmem b).2 ⟨h.mem, h.beneath, h.has⟩
    have hall : ∀ c ∈ cellBlocks m p, c = b := fun c hc => by
      obtain ⟨h1, h2, h3⟩ := (hmem c).1 hc
      exact h.only c h1 h2 h3
    cases hl : cellBlocks m p with
    | nil => rw [hl] at hb; cases hb
    | cons x l =>
      rw [hl] at hnd hall
      have hx := hall x List.mem_cons_self
      subst hx
      cases l with
      | nil => rfl
      | cons y l =>
        have hy := hall y (by simp)
        subst hy
        simp at hnd

theorem framedSolid_shows {F : CFrame K} (hF : F.Ortho) (X : List (V3 K)) (T : Topo) :
    ∃ r, framedSolid F X T = some r ∧ ShowsSolid r (X.map fun x => F.place (F.place x)) T ∧ frameOf r [] = some F := by
  have hm : framedSolid F X T =
      some [⟨[], some F, some ⟨X.map F.place, List.range (X.map F.place).length, some F⟩, some T⟩] := by
    unfold framedSolid
    simp only [storeCoords, Option.getD_some]
    rw [show pcShow F none = F.place from funext (pcShow_none F), Option.bind_some]
    rfl
  obtain ⟨c, h1, -, h3, h4⟩ := C83_points
    (m := [⟨[], some F, some ⟨X.map F.place, List.range (X.map F.place).length, some F⟩, some T⟩])
    (by simp) (p := []) hF rfl ⟨_, List.mem_singleton.2 rfl, List.suffix_refl _, rfl⟩ (fun _ => F)
    (by
      intro b hb _
      rw [List.mem_singleton.1 hb]
      exact Or.inl rfl)
  refine ⟨_, hm, ⟨rfl, c, h1, ?_, ?_⟩, rfl⟩
  · rw [h4]
    simp only [perBlock, List.filter_cons, List.suffix_refl, decide_true, if_true, List.filter_nil, List.flatMap_cons, List.flatMap_nil,
      List.append_nil, List.map_map]
    refine List.map_congr_left fun x _ => ?_
    ext <;> simp
  · rw [h3]
    simp [perBlock]

/-- **C105** orders below two: the cells are the tetrahedra of TetGen. With a frame the points are transformed twice. -/
theorem C105_linear {tetgen : FBlock K → Option (List (V3 K) × Topo)} {m : List (FBlock K)} (hm : (m.map FBlock.path).Nodup)
    {p : List Nat} {b : FBlock K} (hb : OnlyCells m p b) {X : List (V3 K)} {T : Topo} (ht : tetgen b = some (X, T))
    {F : CFrame K} (hF : F.Ortho) (hp : frameOf m p = some F) {order : Int} (ho : order < 2) :
    ∃ r, tetrahedralize tetgen order m p = some r ∧ ShowsSolid r (X.map fun x => F.place (F.place x)) T ∧ frameOf r [] = some F := by
  obtain ⟨r, h1, h2, h3⟩ := framedSolid_shows hF X T
  refine ⟨r, ?_, h2, h3⟩
  unfold tetrahedralize
  rw [(cellBlocks_only hm).2 hb]
  simp only [ht, Option.bind_some, tetOrder, hp]
  rw [if_neg (by omega), if_neg (by omega)]
  exact h1

/-- **C105** order two: the cells are the tetrahedra of TetGen with one new node on every edge, at its middle and shared by all cells
around the edge. With a frame the points are transformed twice. -/
theorem C105_quadratic [CharZero K] {tetgen : FBlock K → Option (List (V3 K) × Topo)} {m : List (FBlock K)}
    (hm : (m.map FBlock.path).Nodup)
    {p : List Nat} {b : FBlock K} (hb : OnlyCells m p b) {X : List (V3 K)} {T : Topo} (ht : tetgen b = some (X, T))
    (hX : MeshOK X T 4) {F : CFrame K} (hF : F.Ortho) (hp : frameOf m p = some F) :
    ∃ r Y U, tetrahedralize tetgen 2 m p = some r ∧
      ElevatedMesh X T lcTET4 [[[0, 1], [1, 2], [2, 0], [0, 3], [1, 3], [2, 3]]] lcTET10 Y U ∧
      ShowsSolid r (Y.map fun x => F.place (F.place x)) U ∧ frameOf r [] = some F := by
  obtain ⟨Y, U, e1, e2⟩ := C12_TET4_to_TET10 X T hX
  obtain ⟨r, h1, h2, h3⟩ := framedSolid_shows hF Y U
  refine ⟨r, Y, U, ?_, e2, h2, h3⟩
  unfold tetrahedralize
  rw [(cellBlocks_only hm).2 hb]
  simp only [ht, Option.bind_some, tetOrder, hp, if_true, e1]
  exact h1

/-- **C105** in the ambient frame the points are where TetGen has them. -/
theorem C105_linear_partial {tetgen : FBlock K → Option (List (V3 K) × Topo)} {m : List (FBlock K)} (hm : (m.map FBlock.path).Nodup)
    {p : List Nat} {b : FBlock K} (hb : OnlyCells m p b) {X : List (V3 K)} {T : Topo} (ht : tetgen b = some (X, T))
    (hp : frameOf m p = some ambFrame) : ∃ r, tetrahedralize tetgen 1 m p = some r ∧ ShowsSolid r X T := by
  obtain ⟨r, h1, h2, -⟩ := C105_linear hm hb ht ambFrame_ortho hp (order := 1) (by decide)
  simp only [ambFrame_place, List.map_id'] at h2
  exact ⟨r, h1, h2⟩

/-- **C105** in the ambient frame, quadratic tetrahedra. -/
theorem C105_quadratic_partial [CharZero K] {tetgen : FBlock K → Option (List (V3 K) × Topo)} {m : List (FBlock K)}
    (hm : (m.map FBlock.path).Nodup)
    {p : List Nat} {b : FBlock K} (hb : OnlyCells m p b) {X : List (V3 K)} {T : Topo} (ht : tetgen b = some (X, T))
    (hX : MeshOK X T 4) (hp : frameOf m p = some ambFrame) :
    ∃ r Y U, tetrahedralize tetgen 2 m p = some r ∧ ShowsSolid r Y U ∧
      ElevatedMesh X T lcTET4 [[[0, 1], [1, 2], [2, 0], [0, 3], [1, 3], [2, 3]]] lcTET10 Y U := by
  obtain ⟨r, Y, U, h1, h2, h3, -⟩ := C105_quadratic hm hb ht hX ambFrame_ortho hp
  simp only [ambFrame_place, List.map_id'] at h3
  exact ⟨r, Y, U, h1, h3, h2⟩

/-- **C105** orders above two are refused, and so are meshes that do not have exactly one block of cells. -/
theorem C105_refused {tetgen : FBlock K → Option (List (V3 K) × Topo)} {m : List (FBlock K)} (hm : (m.map FBlock.path).Nodup)
    {p : List Nat} {order : Int} (h : 2 < order ∨ ¬ ∃ b, OnlyCells m p b) : tetrahedralize tetgen order m p = none := by
  unfold tetrahedralize
  split
  · rename_i b hb
    rcases h with h | h
    · cases tetgen b with
      | none => rfl
      | some r =>
        simp only [Option.bind_some, tetOrder]
        rw [if_neg (by omega), if_pos h]
        rfl
    · exact absurd ⟨b, (cellBlocks_only hm).1 hb⟩ h
  · rfl

/-- A body of one block beneath points with the frame of the root. -/
def bodyMesh (F : CFrame ℚ) : List (FBlock ℚ) :=
  [⟨[], some F, some ⟨[⟨0, 0, 0⟩, ⟨2, 0, 0⟩, ⟨0, 2, 0⟩, ⟨0, 0, 2⟩], [0, 1, 2, 3], some F⟩, none⟩,
   ⟨[0], none, none, some [[0, 1, 2, 3]]⟩]

/-- TetGen for the body: the tetrahedron itself. -/
def bodyTetgen : FBlock ℚ → Option (List (V3 ℚ) × Topo) :=
  fun _ => some ([⟨0, 0, 0⟩, ⟨2, 0, 0⟩, ⟨0, 2, 0⟩, ⟨0, 0, 2⟩], [[0, 1, 2, 3]])

theorem bodyMesh_only (F : CFrame ℚ) : OnlyCells (bodyMesh F) [] ⟨[0], none, none, some [[0, 1, 2, 3]]⟩ := by
  refine ⟨by simp [bodyMesh], List.nil_suffix, rfl, ?_⟩
  intro c hc _ hs
  simp only [bodyMesh, List.mem_cons, List.not_mem_nil, or_false] at hc
  rcases hc with rfl | rfl
  · cases hs
  · rfl

example : (bodyMesh ambFrame).map FBlock.path = [[], [0]] ∧ frameOf (bodyMesh ambFrame) [] = some ambFrame := by decide +kernel
example : ∃ r, tetrahedralize bodyTetgen 1 (bodyMesh ambFrame) [] = some r ∧
    ShowsSolid r [⟨0, 0, 0⟩, ⟨2, 0, 0⟩, ⟨0, 2, 0⟩, ⟨0, 0, 2⟩] [[0, 1, 2, 3]] :=
  C105_linear_partial (by decide +kernel) (bodyMesh_only _) rfl (by decide +kernel)
example : (tetrahedralize bodyTetgen 2 (bodyMesh ambFrame) []).map (fun r => r.map FBlock.topo) =
    some [some [[0, 1, 2, 3, 4, 7, 5, 6, 8, 9]]] := by decide +kernel
example : (tetrahedralize bodyTetgen 3 (bodyMesh ambFrame) []).isNone := by decide +kernel

/-- **C105** the points are not where TetGen has them if the mesh has another frame. -/
theorem C105_frame_false : ¬ ∀ (tetgen : FBlock ℚ → Option (List (V3 ℚ) × Topo)) (m : List (FBlock ℚ)) (p : List Nat) (b : FBlock ℚ)
    (X : List (V3 ℚ)) (T : Topo) (F : CFrame ℚ), (m.map FBlock.path).Nodup → OnlyCells m p b → tetgen b = some (X, T) → F.Ortho →
    frameOf m p = some F → ∃ r, tetrahedralize tetgen 1 m p = some r ∧ ShowsSolid r X T := by
  intro h
  obtain ⟨r, h1, -, c, h2, h3, -⟩ := h bodyTetgen (bodyMesh turnedFrame) [] _ _ _ turnedFrame (by decide +kernel) (bodyMesh_only _) rfl
    turnedFrame_ortho (by decide +kernel)
  obtain ⟨r', e1, ⟨-, c', e2, e3, -⟩, -⟩ := C105_linear (tetgen := bodyTetgen) (m := bodyMesh turnedFrame) (by decide +kernel)
    (bodyMesh_only _) rfl turnedFrame_ortho (by decide +kernel) (order := 1) (by decide)
  rw [h1] at e1
  cases e1
  rw [h2] at e2
  cases e2
  rw [h3] at e3
  exact absurd e3 (by decide +kernel)

/-- **C105** orders other than one and two are not always refused, although the message says so. -/
theorem C105_order_false : ¬ ∀ (tetgen : FBlock ℚ → Option (List (V3 ℚ) × Topo)) (order : Int) (m : List (FBlock ℚ)) (p : List Nat),
    (tetrahedralize tetgen order m p).isSome → order = 1 ∨ order = 2 := by
  intro h
  exact absurd (h bodyTetgen 0 (bodyMesh ambFrame) [] (by decide +kernel)) (by decide)

end PM
