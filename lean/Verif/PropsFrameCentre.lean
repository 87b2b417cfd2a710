import Verif.FrameCentre
import Verif.PropsFrameMesh
import Mathlib.Tactic.FieldSimp
import Mathlib.Tactic.LinearCombination

/-!
# C115: centres of meshes and cells in given frames
-/

namespace PM

section
variable {K : Type} [Field K]

/-! ## specification -/

/-- The mean of some points, without a division. -/
structure MeanPt (l : List (V3 K)) (c : V3 K) : Prop where
  ne : l ≠ []
  x : (l.map V3.x).sum = l.length * c.x
  y : (l.map V3.y).sum = l.length * c.y
  z : (l.map V3.z).sum = l.length * c.z

/-- The points with the numbers in `row`. -/
def RowPoints (X : List (V3 K)) (row : List Nat) (P : List (V3 K)) : Prop := List.Forall₂ (fun n x => X[n]? = some x) row P

/-- The closest block with points, going upwards from `p`. -/
structure ClosestFPts (m : List (FBlock K)) (p : List Nat) (b : FBlock K) : Prop where
  mem : b ∈ m
  has : b.pts.isSome
  above : b.path <:+ p
  closest : ∀ c ∈ m, c.pts.isSome → c.path <:+ p → c.path.length ≤ b.path.length

/-- All cells beneath a block, block after block. -/
def CellsUnder (m : List (FBlock K)) (p : List Nat) : Topo := m.flatMap fun b => if p <:+ b.path then b.topo.getD [] else []

omit [Field K] in
theorem flatten_cellBlocksUnder (m : List (FBlock K)) (p : List Nat) : (cellBlocksUnder m p).flatten = CellsUnder m p := by
  induction m with
  | nil => rfl
  | cons b m ih =>
    rw [CellsUnder, List.flatMap_cons, ← CellsUnder, ← ih, cellBlocksUnder, cellBlocksUnder, List.filter_cons]
    by_cases h : p <:+ b.path
    · cases hb : b.topo <;> simp [h, hb]
    · simp [h]

/-! ## lemmas on means -/

theorem meanPt_meshCenter [CharZero K] {l : List (V3 K)} (h : l ≠ []) : MeanPt l (meshCenter l) := by
  have hl : (l.length : K) ≠ 0 := Nat.cast_ne_zero.2 (by simpa using h)
  refine ⟨h, ?_, ?_, ?_⟩ <;> simp only [meshCenter] <;> field_simp

theorem MeanPt.unique [CharZero K] {l : List (V3 K)} {a b : V3 K} (ha : MeanPt l a) (hb : MeanPt l b) : a = b := by
  have hl : (l.length : K) ≠ 0 := Nat.cast_ne_zero.2 (by simpa using ha.ne)
  exact V3.ext (mul_left_cancel₀ hl (ha.x.symm.trans hb.x)) (mul_left_cancel₀ hl (ha.y.symm.trans hb.y))
    (mul_left_cancel₀ hl (ha.z.symm.trans hb.z))

theorem fc_sum_affine (l : List (V3 K)) (d a b c : K) (f : V3 K → K) (hf : ∀ p, f p = d + (p.x * a + (p.y * b + p.z * c))) :
    (l.map f).sum = l.length * d + ((l.map V3.x).sum * a + ((l.map V3.y).sum * b + (l.map V3.z).sum * c)) := by
  induction l with
  | nil => simp
  | cons p l ih => simp only [List.map_cons, List.sum_cons, ih, hf p, List.length_cons, Nat.cast_succ]; ring

theorem MeanPt.place {l : List (V3 K)} {c : V3 K} (h : MeanPt l c) (F : CFrame K) : MeanPt (l.map F.place) (F.place c) := by
  refine ⟨by simpa using h.ne, ?_, ?_, ?_⟩
  · rw [List.map_map, List.length_map, fc_sum_affine l F.origo.x F.i.x F.j.x F.k.x (V3.x ∘ F.place) fun p => rfl, h.x, h.y, h.z]
    simp only [CFrame.place, V3.add_x, V3.smul_x]; ring
  · rw [List.map_map, List.length_map, fc_sum_affine l F.origo.y F.i.y F.j.y F.k.y (V3.y ∘ F.place) fun p => rfl, h.x, h.y, h.z]
    simp only [CFrame.place, V3.add_y, V3.smul_y]; ring
  · rw [List.map_map, List.length_map, fc_sum_affine l F.origo.z F.i.z F.j.z F.k.z (V3.z ∘ F.place) fun p => rfl, h.x, h.y, h.z]
    simp only [CFrame.place, V3.add_z, V3.smul_z]; ring

theorem MeanPt.sub {l : List (V3 K)} {c : V3 K} (h : MeanPt l c) (v : V3 K) : MeanPt (l.map fun y => y - v) (c - v) := by
  refine ⟨by simpa using h.ne, ?_, ?_, ?_⟩
  · rw [List.map_map, List.length_map, fc_sum_affine l (-v.x) 1 0 0 _ fun p => by simp; ring, h.x]; simp; ring
  · rw [List.map_map, List.length_map, fc_sum_affine l (-v.y) 0 1 0 _ fun p => by simp; ring, h.y]; simp; ring
  · rw [List.map_map, List.length_map, fc_sum_affine l (-v.z) 0 0 1 _ fun p => by simp; ring, h.z]; simp; ring

theorem pcCenter_eq (F : CFrame K) (T : Option (CFrame K)) (x : List (V3 K)) :
    pcCenter F T x = meshCenter (x.map (pcShow F T)) := rfl

theorem map_place_pcShow {F T : CFrame K} (hT : T.Ortho) (l : List (V3 K)) :
    (l.map (pcShow F (some T))).map T.place = l.map F.place := by
  rw [List.map_map]
  exact List.map_congr_left fun x _ => (C45_same_point hT x).2

theorem map_pcShow_none (F : CFrame K) (l : List (V3 K)) : l.map (pcShow F none) = l.map F.place :=
  List.map_congr_left fun x _ => pcShow_none F x

/-- The centre in a frame, seen in ambient space, is the ambient centre. -/
theorem place_pcCenter [CharZero K] {F T : CFrame K} (hT : T.Ortho) {x : List (V3 K)} (hx : x ≠ []) :
    T.place (pcCenter F (some T) x) = pcCenter F none x := by
  have h1 := (meanPt_meshCenter (l := x.map (pcShow F (some T))) (by simpa using hx)).place T
  rw [map_place_pcShow hT] at h1
  have h2 := meanPt_meshCenter (l := x.map (pcShow F none)) (by simpa using hx)
  rw [map_pcShow_none] at h2
  have := h1.unique h2
  rw [pcCenter_eq, pcCenter_eq, map_pcShow_none]
  exact this

/-! ## sources -/

omit [Field K] in
theorem fc_find_path {m : List (FBlock K)} (hm : (m.map FBlock.path).Nodup) {b : FBlock K} (hb : b ∈ m) :
    (m.find? fun c => c.path = b.path) = some b := by
  induction m with
  | nil => cases hb
  | cons a m ih =>
    rw [List.map_cons, List.nodup_cons] at hm
    rcases List.mem_cons.1 hb with rfl | hb
    · simp
    · have : a.path ≠ b.path := fun h => hm.1 (h ▸ List.mem_map_of_mem hb)
      rw [List.find?_cons_of_neg (by simpa using this)]
      exact ih hm.2 hb

omit [Field K] in
theorem fHasPts_iff {m : List (FBlock K)} (hm : (m.map FBlock.path).Nodup) (r : List Nat) :
    fHasPts m r = true ↔ ∃ b ∈ m, b.path = r ∧ b.pts.isSome := by
  unfold fHasPts
  constructor
  · intro h
    obtain ⟨q, hq⟩ := Option.isSome_iff_exists.1 h
    obtain ⟨b, h1, h2⟩ := Option.bind_eq_some_iff.1 hq
    exact ⟨b, List.mem_of_find?_eq_some h1, by simpa using List.find?_some h1, by rw [h2]; rfl⟩
  · rintro ⟨b, hb, rfl, h⟩
    rw [fc_find_path hm hb]
    exact h

omit [Field K] in
/-- `source()` finds the closest block with points. -/
theorem fSource_closest {m : List (FBlock K)} (hm : (m.map FBlock.path).Nodup) {p : List Nat} {b : FBlock K}
    (h : ClosestFPts m p b) : fSource m p = some b.path := by
  induction p with
  | nil =>
    have h0 := List.suffix_nil.1 h.above
    have : fHasPts m [] = true := (fHasPts_iff hm []).2 ⟨b, h.mem, h0, h.has⟩
    simp [fSource, this, h0]
  | cons k p ih =>
    unfold fSource
    split
    · rename_i hp
      obtain ⟨c, hc, h1, h2⟩ := (fHasPts_iff hm _).1 hp
      have h3 := h.closest c hc h2 (h1 ▸ List.suffix_refl _)
      rw [h1] at h3
      congr 1
      exact (h.above.eq_of_length_le h3).symm
    · rename_i hp
      apply ih
      refine ⟨h.mem, h.has, ?_, fun c hc h1 h2 => h.closest c hc h1 (h2.trans (List.suffix_cons _ _))⟩
      rcases List.suffix_cons_iff.1 h.above with h1 | h1
      · exact absurd ((fHasPts_iff hm _).2 ⟨b, h.mem, h1, h.has⟩) hp
      · exact h1

/-! ## centres of cells -/

omit [Field K] in
theorem rowPoints_gather {X : List (V3 K)} {row : List Nat} {P : List (V3 K)} : gather? X row = some P ↔ RowPoints X row P :=
  mapM_eq_some_iff

theorem centresBulk_spec [CharZero K] {X : List (V3 K)} {t : Topo} (hne : ∀ r ∈ t, r ≠ []) (hin : ∀ r ∈ t, ∀ n ∈ r, n < X.length) :
    ∃ C, centresBulk X t = some C ∧ List.Forall₂ (fun row a => ∃ P, RowPoints X row P ∧ MeanPt P a) t C := by
  induction t with
  | nil => exact ⟨[], rfl, .nil⟩
  | cons r t ih =>
    obtain ⟨C, h1, h2⟩ := ih (fun x hx => hne x (List.mem_cons_of_mem _ hx)) fun x hx => hin x (List.mem_cons_of_mem _ hx)
    obtain ⟨P, p1, p2, -⟩ := gather?_eq_some (a := X) (inds := r) (hin r List.mem_cons_self)
    refine ⟨meshCenter P :: C, ?_, .cons ⟨P, rowPoints_gather.1 p1, meanPt_meshCenter ?_⟩ h2⟩
    · unfold centresBulk at h1 ⊢
      rw [List.mapM_cons, p1, h1]
      rfl
    · rintro rfl
      exact hne r List.mem_cons_self (List.length_eq_zero_iff.1 p2.symm)

theorem centres_blocks [CharZero K] {X : List (V3 K)} {ts : List Topo} (hne : ∀ r ∈ ts.flatten, r ≠ [])
    (hin : ∀ r ∈ ts.flatten, ∀ n ∈ r, n < X.length) :
    ∃ L, ts.mapM (centresBulk X) = some L ∧ L.length = ts.length ∧
      List.Forall₂ (fun row a => ∃ P, RowPoints X row P ∧ MeanPt P a) ts.flatten L.flatten := by
  induction ts with
  | nil => exact ⟨[], rfl, rfl, .nil⟩
  | cons t ts ih =>
    simp only [List.flatten_cons, List.mem_append] at hne hin
    obtain ⟨L, h1, h2, h3⟩ := ih (fun x hx => hne x (Or.inr hx)) fun x hx => hin x (Or.inr hx)
    obtain ⟨C, c1, c2⟩ := centresBulk_spec (X := X) (t := t) (fun x hx => hne x (Or.inl hx)) fun x hx => hin x (Or.inl hx)
    exact ⟨C :: L, by rw [List.mapM_cons, c1, h1]; rfl, by simp [h2], List.rel_append c2 h3⟩

/-- **C115** `centers()` of a mesh lists, for all cells beneath the block the call is made on, the mean of the positions of the nodes
in ambient space. With a frame `T` the numbers returned describe, in `T`, these means moved once more by the frame `F` of the source. -/
theorem C115_centers [CharZero K] {m : List (FBlock K)} (hm : (m.map FBlock.path).Nodup) {p : List Nat} {b : FBlock K}
    (hb : ClosestFPts m p b) {c : FCloud K} (hc : framedPoints m b.path = some c) (hcell : CellsUnder m p ≠ [])
    (hne : ∀ r ∈ CellsUnder m p, r ≠ []) (hin : ∀ r ∈ CellsUnder m p, ∀ n ∈ r, n < (c.show none).length) :
    ∃ C, fCenters m p none = some C ∧
      List.Forall₂ (fun row a => ∃ P, RowPoints (c.show none) row P ∧ MeanPt P a) (CellsUnder m p) C ∧
      ∀ T F : CFrame K, T.Ortho → frameOf m b.path = some F →
        ∃ C', fCenters m p (some T) = some C' ∧ C'.map T.place = C.map F.place := by
  rw [← flatten_cellBlocksUnder] at hne hin hcell ⊢
  obtain ⟨L, h1, h2, h3⟩ := centres_blocks (X := c.show none) (ts := cellBlocksUnder m p) hne hin
  have hL : L.isEmpty = false := by
    rw [List.isEmpty_eq_false_iff]
    rintro rfl
    have : cellBlocksUnder m p = [] := List.length_eq_zero_iff.1 h2.symm
    exact hcell (by rw [this]; rfl)
  refine ⟨L.flatten, by simp [fCenters, fSource_closest hm hb, hc, h1, List.isEmpty_eq_false_iff.1 hL], h3, ?_⟩
  intro T F hT hF
  exact ⟨L.flatten.map (pcShow F (some T)), by simp [fCenters, fSource_closest hm hb, hc, h1, List.isEmpty_eq_false_iff.1 hL, hF], map_place_pcShow hT _⟩

/-- **C115** The frame of the source is the ambient one: `centers(T)` are the coordinates in `T` of the centres. -/
theorem C115_centers_partial [CharZero K] {m : List (FBlock K)} (hm : (m.map FBlock.path).Nodup) {p : List Nat} {b : FBlock K}
    (hb : ClosestFPts m p b) {c : FCloud K} (hc : framedPoints m b.path = some c) (hcell : CellsUnder m p ≠ [])
    (hne : ∀ r ∈ CellsUnder m p, r ≠ []) (hin : ∀ r ∈ CellsUnder m p, ∀ n ∈ r, n < (c.show none).length)
    {F : CFrame K} (hF : frameOf m b.path = some F) (hamb : ∀ x, F.place x = x) {T : CFrame K} (hT : T.Ortho) :
    ∃ C C', fCenters m p none = some C ∧ fCenters m p (some T) = some C' ∧ C'.map T.place = C := by
  obtain ⟨C, h1, -, h3⟩ := C115_centers hm hb hc hcell hne hin
  obtain ⟨C', h4, h5⟩ := h3 T F hT hF
  refine ⟨C, C', h1, h4, h5.trans ?_⟩
  rw [show F.place = id from funext hamb, List.map_id]

/-- **C115** `centers(T)` of the cells of a block whose points are known to the cells: the coordinates in `T` of the means of the
positions. Without a frame the numbers are those in the frame of the source. -/
theorem C115_block [CharZero K] {m : List (FBlock K)} (hm : (m.map FBlock.path).Nodup) {p : List Nat} {b : FBlock K}
    (hb : ClosestFPts m p b) {x : List (V3 K)} {t : Topo} (hne : ∀ r ∈ t, r ≠ []) (hin : ∀ r ∈ t, ∀ n ∈ r, n < x.length)
    {F : CFrame K} (hF : frameOf m b.path = some F) {T : CFrame K} (hT : T.Ortho) :
    ∃ C C', blockCenters m p (some x) t none = some C ∧ blockCenters m p (some x) t (some T) = some C' ∧
      C'.map T.place = C.map F.place ∧
      List.Forall₂ (fun row a => ∃ P, RowPoints (x.map F.place) row P ∧ MeanPt P a) t (C'.map T.place) := by
  obtain ⟨C, h1, h2⟩ := centresBulk_spec (X := x) hne hin
  have e : (C.map (pcShow F (some T))).map T.place = C.map F.place := map_place_pcShow hT C
  refine ⟨C, C.map (pcShow F (some T)), by simp [blockCenters, h1], by simp [blockCenters, h1, fSource_closest hm hb, hF], e, ?_⟩
  rw [e, List.forall₂_map_right_iff]
  refine h2.imp ?_
  rintro row a ⟨P, hP, ha⟩
  refine ⟨P.map F.place, ?_, ha.place F⟩
  unfold RowPoints at hP ⊢
  rw [List.forall₂_map_right_iff]
  exact hP.imp fun n y hn => by rw [List.getElem?_map, hn]; rfl

/-- **C115** Cells that do not know their points have the same centres as the mesh, right without a frame or in an ambient source. -/
theorem C115_block_mesh (m : List (FBlock K)) (p : List Nat) (t : Topo) (T : Option (CFrame K)) (h : cellBlocksUnder m p = [t]) :
    blockCenters m p none t T = fCenters m p T := by
  unfold blockCenters fCenters
  cases hs : fSource m p with
  | none => rfl
  | some s =>
    cases hc : framedPoints m s with
    | none => simp [hc]
    | some c =>
      cases hb : centresBulk (c.show none) t with
      | none => simp [hc, hb, h]
      | some C => cases T <;> simp [hc, hb, h]

/-! ## the centre of the mesh -/

/-- **C115** `center` of a block with points: in ambient space the mean of the positions, in a frame `T` its coordinates. -/
theorem C115_center_own [CharZero K] {m : List (FBlock K)} (hm : (m.map FBlock.path).Nodup) {b : FBlock K} (hb : b ∈ m)
    (hp : b.pts.isSome) {c : FCloud K} (hc : framedPoints m b.path = some c) (hne : c.x ≠ []) {T : CFrame K} (hT : T.Ortho) :
    ∃ a v, fCenter m b.path none = some a ∧ MeanPt (c.show none) a ∧ fCenter m b.path (some T) = some v ∧ T.place v = a := by
  have h0 : fHasPts m b.path = true := (fHasPts_iff hm _).2 ⟨b, hb, rfl, hp⟩
  refine ⟨pcCenter c.frame none c.x, pcCenter c.frame (some T) c.x, by simp [fCenter, h0, hc, hne], ?_, by simp [fCenter, h0, hc, hne],
    place_pcCenter hT hne⟩
  rw [pcCenter_eq]
  exact meanPt_meshCenter (l := c.x.map (pcShow c.frame none)) (by simpa using hne)

/-- **C115** `center` of a block without points: the mean over the different nodes of its cells. -/
theorem C115_center_cells [CharZero K] {m : List (FBlock K)} (hm : (m.map FBlock.path).Nodup) {p : List Nat} {b : FBlock K}
    (hb : ClosestFPts m p b) (hp : ∀ d ∈ m, d.path = p → d.pts = none) {c : FCloud K} (hc : framedPoints m b.path = some c)
    (hex : ∃ n, n ∈ (framedTopo m p).flatten) (hin : ∀ n ∈ (framedTopo m p).flatten, n < c.x.length) {T : CFrame K} (hT : T.Ortho) :
    ∃ a v ns P, ns.Nodup ∧ (∀ n, n ∈ ns ↔ n ∈ (framedTopo m p).flatten) ∧ RowPoints (c.show none) ns P ∧ MeanPt P a ∧
      fCenter m p none = some a ∧ fCenter m p (some T) = some v ∧ T.place v = a := by
  have h0 : fHasPts m p = false := by
    rw [Bool.eq_false_iff]
    intro h
    obtain ⟨d, hd, h1, h2⟩ := (fHasPts_iff hm _).1 h
    rw [hp d hd h1] at h2
    cases h2
  obtain ⟨P, p1, p2, p3⟩ := gather?_eq_some (a := c.x) (inds := npUnique (framedTopo m p).flatten) fun n hn => hin n (mem_npUnique.1 hn)
  have hne : P ≠ [] := by
    rintro rfl
    obtain ⟨n, hn⟩ := hex
    have := mem_npUnique.2 hn
    rw [List.length_eq_zero_iff.1 p2.symm] at this
    cases this
  refine ⟨pcCenter c.frame none P, pcCenter c.frame (some T) P, npUnique (framedTopo m p).flatten, P.map (pcShow c.frame none),
    (sorted_npUnique _).imp fun h => ne_of_lt h, fun n => mem_npUnique, ?_, ?_, ?_, ?_, place_pcCenter hT hne⟩
  · unfold RowPoints
    rw [List.forall₂_map_right_iff]
    exact (rowPoints_gather.1 p1).imp fun n y hn => by simp [FCloud.show, hn]
  · rw [pcCenter_eq]
    exact meanPt_meshCenter (by simpa using hne)
  · simp [fCenter, h0, fSource_closest hm hb, hc, p1, hne]
  · simp [fCenter, h0, fSource_closest hm hb, hc, p1, hne]

/-! ## centralization -/

/-- Two frames with the same axes. -/
def SameAxes (F G : CFrame K) : Prop := F.i = G.i ∧ F.j = G.j ∧ F.k = G.k

/-- The blocks after their points at or beneath `s` are moved. -/
def shiftBlocks (s : List Nat) (v : V3 K) (m : List (FBlock K)) : List (FBlock K) :=
  m.map fun b => if s <:+ b.path then { b with pts := b.pts.map fun q => { q with x := q.x.map fun y => y - v } } else b

theorem shift_find (s r : List Nat) (v : V3 K) (m : List (FBlock K)) :
    ((shiftBlocks s v m).find? fun b => b.path = r) = (m.find? fun b => b.path = r).map
      fun b => if s <:+ b.path then { b with pts := b.pts.map fun q => { q with x := q.x.map fun y => y - v } } else b := by
  unfold shiftBlocks
  rw [List.find?_map]
  congr 1
  apply congrArg (fun f => List.find? f m)
  funext b
  simp only [Function.comp]
  split <;> rfl

theorem shift_frameAt (s r : List Nat) (v : V3 K) (m : List (FBlock K)) : frameAt (shiftBlocks s v m) r = frameAt m r := by
  unfold frameAt
  rw [shift_find]
  cases m.find? fun b => b.path = r with
  | none => rfl
  | some b =>
    simp only [Option.map_some, Option.bind_some]
    split
    · obtain ⟨bp, bf, bq, bt⟩ := b
      cases bf with
      | some F => rfl
      | none => cases bq <;> simp [FBlock.ownFrame, pdFrame]
    · rfl

theorem shift_frameOf (s r : List Nat) (v : V3 K) (m : List (FBlock K)) : frameOf (shiftBlocks s v m) r = frameOf m r := by
  induction r with
  | nil => exact shift_frameAt s [] v m
  | cons k r ih => unfold frameOf; rw [shift_frameAt, ih]

theorem shift_hasPts (s r : List Nat) (v : V3 K) (m : List (FBlock K)) : fHasPts (shiftBlocks s v m) r = fHasPts m r := by
  unfold fHasPts
  rw [shift_find]
  cases m.find? fun b => b.path = r with
  | none => rfl
  | some b =>
    simp only [Option.map_some, Option.bind_some]
    split
    · cases b.pts <;> rfl
    · rfl

theorem shift_source (s r : List Nat) (v : V3 K) (m : List (FBlock K)) : fSource (shiftBlocks s v m) r = fSource m r := by
  induction r with
  | nil => unfold fSource; rw [shift_hasPts]
  | cons k r ih => unfold fSource; rw [shift_hasPts, ih]

theorem shift_topo (s r : List Nat) (v : V3 K) (m : List (FBlock K)) : framedTopo (shiftBlocks s v m) r = framedTopo m r := by
  unfold framedTopo shiftBlocks
  induction m with
  | nil => rfl
  | cons b m ih =>
    by_cases hs : s <:+ b.path <;> by_cases hr : r <:+ b.path <;> simp [hs, hr, ih]

theorem shift_ptsUnder (s : List Nat) (v : V3 K) (m : List (FBlock K)) : ptsUnder (shiftBlocks s v m) s =
    (ptsUnder m s).map fun b => (b.1, { b.2 with x := b.2.x.map fun y => y - v }) := by
  unfold ptsUnder shiftBlocks
  induction m with
  | nil => rfl
  | cons b m ih =>
    by_cases hs : s <:+ b.path
    · cases hp : b.pts <;> simp [hs, hp, ih]
    · simp [hs, ih]

theorem vecShow_same {F G : CFrame K} (hF : F.Ortho) (h : SameAxes G F) (x : V3 K) : vecShow G (some F) x = x := by
  have e : G.vecAmb x = F.vecAmb x := by unfold CFrame.vecAmb; rw [h.1, h.2.1, h.2.2]
  have h2 := C45_own hF x
  rw [pcShow_some] at h2
  have h3 : F.place x - F.origo = F.vecAmb x := by ext <;> simp [CFrame.place, CFrame.vecAmb]
  rw [h3] at h2
  change F.vecLoc (G.vecAmb x) = x
  rw [e, h2]

/-- Blocks with the same axes: the numbers of the points are those stored. -/
theorem framedPoints_same {m : List (FBlock K)} {s : List Nat} {F : CFrame K} (hF : frameOf m s = some F) (hO : F.Ortho)
    (hax : ∀ x ∈ ptsUnder m s, ∃ G, frameOf m x.1 = some G ∧ SameAxes G F) (hne : ptsUnder m s ≠ []) :
    framedPoints m s = some ⟨(ptsUnder m s).flatMap fun b => b.2.x, F, (ptsUnder m s).flatMap fun b => b.2.id⟩ := by
  have h1 : ((ptsUnder m s).mapM fun (b : List Nat × FPts K) => (frameOf m b.1).map fun G => b.2.x.map (vecShow G (some F))) =
      some ((ptsUnder m s).map fun b => b.2.x) := by
    apply mapM_some
    intro b hb
    obtain ⟨G, hG, hs⟩ := hax b hb
    rw [hG, Option.map_some, show vecShow G (some F) = id from funext (vecShow_same hO hs), List.map_id]
  unfold framedPoints
  rw [hF, Option.bind_some, h1, Option.bind_some, if_neg (by simpa using hne)]
  simp only [List.flatMap_def]

theorem pcShow_same {F T : CFrame K} (hT : T.Ortho) (h : SameAxes F T) (x v : V3 K) :
    pcShow F (some T) (x - v) = pcShow F (some T) x - v := by
  have h1 := vecShow_same hT h x
  have h2 := vecShow_same hT h (x - v)
  unfold pcShow
  rw [h1, h2]
  ext <;> simp <;> ring

theorem pcCenter_shift [CharZero K] {F T : CFrame K} (hT : T.Ortho) (h : SameAxes F T) {x : List (V3 K)} (hx : x ≠ []) :
    pcCenter F (some T) (x.map fun y => y - pcCenter F (some T) x) = 0 := by
  have h1 := meanPt_meshCenter (l := x.map (pcShow F (some T))) (by simpa using hx)
  have h2 := h1.sub (pcCenter F (some T) x)
  rw [List.map_map] at h2
  have e : (x.map fun y => y - pcCenter F (some T) x).map (pcShow F (some T)) =
      x.map ((fun y => y - pcCenter F (some T) x) ∘ pcShow F (some T)) := by
    rw [List.map_map]
    exact List.map_congr_left fun y _ => pcShow_same hT h y _
  have h3 := meanPt_meshCenter (l := (x.map fun y => y - pcCenter F (some T) x).map (pcShow F (some T))) (by simpa using hx)
  rw [e] at h3
  have := h3.unique h2
  rw [pcCenter_eq, e, this, pcCenter_eq]
  ext <;> simp

theorem gather_map {α β : Type} (f : α → β) (a : List α) (inds : List Nat) : gather? (a.map f) inds = (gather? a inds).map (List.map f) := by
  unfold gather?
  induction inds with
  | nil => rfl
  | cons n l ih =>
    rw [List.mapM_cons, List.mapM_cons, ih, List.getElem?_map]
    cases a[n]? with
    | none => rfl
    | some y => cases l.mapM fun i => a[i]? <;> rfl

/-- **C115** `centralize` with the frame of the source or one with the same axes, all blocks of points having these axes: the stored
coordinates of all blocks are moved by the same vector, frames and cells stay, and the centre of the block the call is made on comes to
the origin of the frame. -/
theorem C115_centralize_partial [CharZero K] {m : List (FBlock K)} (hm : (m.map FBlock.path).Nodup) {p : List Nat} {b : FBlock K}
    (hb : ClosestFPts m p b) {F : CFrame K} (hF : frameOf m b.path = some F) (hO : F.Ortho)
    (hax : ∀ d ∈ m, b.path <:+ d.path → d.pts.isSome → ∃ G, frameOf m d.path = some G ∧ SameAxes G F)
    {target : Option (CFrame K)} (hT : ∀ T, target = some T → T.Ortho ∧ SameAxes F T) {v : V3 K}
    (hv : fCenter m p (some (target.getD F)) = some v) :
    ∃ m', fCentralize m p target = some m' ∧ fCenter m' p (some (target.getD F)) = some 0 ∧
      List.Forall₂ (fun (d d' : FBlock K) => d'.path = d.path ∧ d'.frame = d.frame ∧ d'.topo = d.topo ∧
        (b.path <:+ d.path → d'.pts = d.pts.map fun q => ⟨q.x.map fun y => y - v, q.id, q.frame⟩) ∧
        (¬ b.path <:+ d.path → d'.pts = d.pts)) m m' := by
  have hs := fSource_closest hm hb
  refine ⟨shiftBlocks b.path v m, ?_, ?_, ?_⟩
  · simp [fCentralize, hs, hF, hv, shiftBlocks]
  · have hTO : (target.getD F).Ortho ∧ SameAxes F (target.getD F) := by
      cases target with
      | none => exact ⟨hO, rfl, rfl, rfl⟩
      | some T => exact hT T rfl
    have hne : ptsUnder m b.path ≠ [] := by
      intro h
      obtain ⟨q, hq⟩ := Option.isSome_iff_exists.1 hb.has
      have : (b.path, q) ∈ ptsUnder m b.path := by
        unfold ptsUnder
        rw [List.mem_filterMap]
        exact ⟨b, by simp [hb.mem], by simp [hq]⟩
      rw [h] at this
      cases this
    have hax' : ∀ x ∈ ptsUnder m b.path, ∃ G, frameOf m x.1 = some G ∧ SameAxes G F := by
      intro x hx
      unfold ptsUnder at hx
      rw [List.mem_filterMap] at hx
      obtain ⟨d, hd, hdx⟩ := hx
      rw [Option.map_eq_some_iff] at hdx
      obtain ⟨q, hq, rfl⟩ := hdx
      rw [List.mem_filter] at hd
      exact hax d hd.1 (by simpa using hd.2) (by rw [hq]; rfl)
    have h1 := framedPoints_same hF hO hax' hne
    have h2 := framedPoints_same (m := shiftBlocks b.path v m) (s := b.path) (F := F) (by rw [shift_frameOf, hF]) hO (by
      intro x hx
      rw [shift_ptsUnder] at hx
      obtain ⟨y, hy, rfl⟩ := List.mem_map.1 hx
      rw [shift_frameOf]
      exact hax' y hy) (by rw [shift_ptsUnder]; simpa using hne)
    rw [shift_ptsUnder] at h2
    have e : (((ptsUnder m b.path).map fun b => (b.1, ({ b.2 with x := b.2.x.map fun y => y - v } : FPts K))).flatMap fun b => b.2.x) =
        ((ptsUnder m b.path).flatMap fun b => b.2.x).map fun y => y - v := by
      rw [List.flatMap_map, List.map_flatMap]
    rw [e] at h2
    set X := (ptsUnder m b.path).flatMap fun b => b.2.x with hX
    unfold fCenter at hv ⊢
    rw [shift_hasPts, shift_topo, shift_source]
    cases hh : fHasPts m p with
    | true =>
      obtain ⟨d, hd, hd1, hd2⟩ := (fHasPts_iff hm p).1 hh
      have hbp : b.path = p := hb.above.eq_of_length_le (by
        have := hb.closest d hd hd2 (hd1 ▸ List.suffix_refl _)
        rw [hd1] at this
        exact this)
      rw [hh, ← hbp] at hv
      rw [← hbp]
      simp only [if_true] at hv ⊢
      rw [h1, Option.map_some, Option.bind_some] at hv
      rw [h2, Option.map_some, Option.bind_some]
      by_cases hXe : X = []
      · simp [hXe] at hv
      · rw [if_neg (by simpa using hXe)] at hv
        rw [if_neg (by simpa using hXe)]
        simp only [Option.some.injEq] at hv ⊢
        rw [← hv]
        exact pcCenter_shift hTO.1 hTO.2 hXe
    | false =>
      rw [hh] at hv
      simp only [hs, Option.bind_some, h1, h2, Bool.false_eq_true, if_false] at hv ⊢
      rw [gather_map]
      cases hg : gather? X (npUnique (framedTopo m p).flatten) with
      | none => simp [hg] at hv
      | some P =>
        rw [hg, Option.map_some, Option.bind_some] at hv
        rw [Option.map_some, Option.map_some, Option.bind_some]
        by_cases hPe : P = []
        · simp [hPe] at hv
        · rw [if_neg (by simpa using hPe)] at hv
          rw [if_neg (by simpa using hPe)]
          simp only [Option.some.injEq] at hv ⊢
          rw [← hv]
          exact pcCenter_shift hTO.1 hTO.2 hPe
  · unfold shiftBlocks
    rw [List.forall₂_map_right_iff]
    apply List.forall₂_same.2
    intro d _
    split
    · rename_i h
      exact ⟨rfl, rfl, rfl, fun _ => rfl, fun h' => absurd h h'⟩
    · rename_i h
      exact ⟨rfl, rfl, rfl, fun h' => absurd h' h, fun _ => rfl⟩

end

/-! ## witnesses -/

/-- One block with points in a turned and moved frame, and one cell. -/
def turnedMesh : List (FBlock ℚ) :=
  [⟨[], some turnedFrame, some ⟨[⟨0, 0, 0⟩, ⟨2, 0, 0⟩], [0, 1], none⟩, none⟩, ⟨[0], none, none, some [[0, 1]]⟩]

/-- One block with points in the ambient frame, and one cell beneath. -/
def plainMesh : List (FBlock ℚ) :=
  [⟨[], none, some ⟨[⟨0, 0, 0⟩, ⟨2, 0, 0⟩, ⟨4, 4, 0⟩], [0, 1, 2], none⟩, none⟩, ⟨[0], none, none, some [[0, 1], [1, 2]]⟩]

example : fSource plainMesh [0] = some [] ∧ fCenters plainMesh [0] none = some [⟨1, 0, 0⟩, ⟨3, 2, 0⟩] := by decide +kernel
example : fCenter plainMesh [0] none = some ⟨2, 4 / 3, 0⟩ := by decide +kernel
example : (fCentralize plainMesh [0] none).map (fun m => fCenters m [0] none) = some (some [⟨-1, -4 / 3, 0⟩, ⟨1, 2 / 3, 0⟩]) := by decide +kernel

/-- **C115** in a mesh with a frame `centers(T)` are not the coordinates of the centres in `T`. -/
theorem C115_centers_false : ¬ ∀ (m : List (FBlock ℚ)) (p : List Nat) (T : CFrame ℚ) (C C' : List (V3 ℚ)), T.Ortho →
    fCenters m p none = some C → fCenters m p (some T) = some C' → C'.map T.place = C := by
  intro h
  have := h turnedMesh [0] ambFrame [⟨1, 3, 3⟩] [⟨-2, 3, 6⟩] ambFrame_ortho
  exact absurd this (by decide +kernel)

/-- **C115** the centres of the cells of a block that knows its points are not those that the mesh gives. -/
theorem C115_block_false : ¬ ∀ (m : List (FBlock ℚ)) (p : List Nat) (x : List (V3 ℚ)) (t : Topo) (b : FBlock ℚ) (q : FPts ℚ),
    ClosestFPts m p b → b.pts = some q → q.x = x → cellBlocksUnder m p = [t] →
    blockCenters m p (some x) t none = fCenters m p none := by
  intro h
  have := h turnedMesh [0] [⟨0, 0, 0⟩, ⟨2, 0, 0⟩] [[0, 1]] ⟨[], some turnedFrame, some ⟨[⟨0, 0, 0⟩, ⟨2, 0, 0⟩], [0, 1], none⟩, none⟩
    ⟨[⟨0, 0, 0⟩, ⟨2, 0, 0⟩], [0, 1], none⟩ ⟨by simp [turnedMesh], rfl, ⟨[0], rfl⟩, by
      intro c hc h1 h2
      simp only [turnedMesh, List.mem_cons, List.not_mem_nil, or_false] at hc
      rcases hc with rfl | rfl
      · exact Nat.le_refl _
      · cases h1⟩ rfl rfl (by decide +kernel)
  exact absurd this (by decide +kernel)

/-- **C115** `centralize(T)` with turned axes does not bring the centre to the origin of `T`. -/
theorem C115_centralize_false : ¬ ∀ (m m' : List (FBlock ℚ)) (p : List Nat) (T : CFrame ℚ), T.Ortho → fCentralize m p (some T) = some m' →
    fCenter m' p (some T) = some 0 := by
  intro h
  cases hm : fCentralize plainMesh [] (some turnedFrame) with
  | none => exact absurd hm (by decide +kernel)
  | some m' =>
    have h1 := h plainMesh m' [] turnedFrame turnedFrame_ortho hm
    have h2 : (fCentralize plainMesh [] (some turnedFrame)).bind (fun m => fCenter m [] (some turnedFrame)) ≠ some 0 := by decide +kernel
    rw [hm, Option.bind_some] at h2
    exact h2 h1

/-- **C115** nor does `centralize()` if blocks of points have other axes than the source. -/
theorem C115_centralize_frames_false : ¬ ∀ (m m' : List (FBlock ℚ)) (p : List Nat) (F : CFrame ℚ), frameOf m p = some F → F.Ortho →
    fHasPts m p = true → fCentralize m p none = some m' → fCenter m' p (some F) = some 0 := by
  intro h
  cases hm : fCentralize twoFrames [] none with
  | none => exact absurd hm (by decide +kernel)
  | some m' =>
    have h1 := h twoFrames m' [] ambFrame (by decide +kernel) ambFrame_ortho (by decide +kernel) hm
    have h2 : (fCentralize twoFrames [] none).bind (fun m => fCenter m [] (some ambFrame)) ≠ some 0 := by decide +kernel
    rw [hm, Option.bind_some] at h2
    exact h2 h1

end PM
