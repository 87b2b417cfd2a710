import Verif.PropsGridVolumes
import Verif.PropsPlateTet
import Verif.PropsPopulate

/-!
# C102: grids cut into simplices
-/

namespace PM

open V3

section
variable {K : Type} [Field K] [LinearOrder K] [IsStrictOrderedRing K]

/-- The polytopes spanned by the listed points cover exactly the region and have no inner point in common. -/
structure TilesRegion (R : V3 K → Prop) (S : List (List (V3 K))) : Prop where
  cover : ∀ p, R p → ∃ s ∈ S, Hull s p
  inside : ∀ s ∈ S, ∀ p, Hull s p → R p
  apart : ∀ (i j : Nat) (s t : List (V3 K)), S[i]? = some s → S[j]? = some t → i ≠ j → ∀ p, ¬ (OpenHull s p ∧ OpenHull t p)

/-- The pieces of all cells of a mesh tile what the cells tile. -/
theorem tilesRegion_of_cells {ι : Type} {I : List ι} (hI : I.Nodup) {A : ι → Aff K} (hA : ∀ i ∈ I, (A i).det ≠ 0) {lc : List (V3 Int)}
    {corners : List Nat} {path : List (List Nat)} {pc : Nat} (ht : Tiles K lc corners path pc) {R : V3 K → Prop} {Rc Ro : ι → V3 K → Prop}
    (h1 : ∀ p, R p ↔ ∃ i ∈ I, Rc i p) (h2 : ∀ i ∈ I, ∀ j ∈ I, ∀ p, Ro i p → Ro j p → i = j)
    (h3 : ∀ i ∈ I, ∀ p, Rc i p → Hull (cellPts (A i) lc corners) p)
    (h4 : ∀ i ∈ I, ∀ t ∈ path, ∀ p, Hull (cellPts (A i) lc (t.take pc)) p → Rc i p)
    (h5 : ∀ i ∈ I, ∀ t ∈ path, ∀ p, OpenHull (cellPts (A i) lc (t.take pc)) p → Ro i p) :
    TilesRegion R (I.flatMap fun i => path.map fun t => cellPts (A i) lc (t.take pc)) := by
  have hb : ∀ i ∈ I, (path.map fun t => cellPts (A i) lc (t.take pc)).length = path.length := fun _ _ => by simp
  have hget : ∀ (e : Nat) (s : List (V3 K)), (I.flatMap fun i => path.map fun t => cellPts (A i) lc (t.take pc))[e]? = some s →
      ∃ c k x t, e = c * path.length + k ∧ I[c]? = some x ∧ path[k]? = some t ∧ s = cellPts (A x) lc (t.take pc) := by
    intro e s he
    have hlt := (List.getElem?_eq_some_iff.1 he).1
    rw [length_flatMap_block hb] at hlt
    obtain ⟨c, k, hc, hk, rfl⟩ := split_index hlt
    rw [getElem?_flatMap_block hb hk, List.getElem?_eq_getElem hc] at he
    have he' : (path.map fun t => cellPts (A I[c]) lc (t.take pc))[k]? = some s := he
    rw [List.getElem?_map, List.getElem?_eq_getElem hk, Option.map_some, Option.some.injEq] at he'
    exact ⟨c, k, I[c], path[k], rfl, List.getElem?_eq_getElem hc, List.getElem?_eq_getElem hk, he'.symm⟩
  refine ⟨?_, ?_, ?_⟩
  · intro p hp
    obtain ⟨i, hi, hr⟩ := (h1 p).1 hp
    obtain ⟨t, ht1, ht2⟩ := ht.cover _ (hA i hi) p (h3 i hi p hr)
    exact ⟨_, List.mem_flatMap.2 ⟨i, hi, List.mem_map.2 ⟨t, ht1, rfl⟩⟩, ht2⟩
  · intro s hs p hp
    obtain ⟨i, hi, hs⟩ := List.mem_flatMap.1 hs
    obtain ⟨t, ht1, rfl⟩ := List.mem_map.1 hs
    exact (h1 p).2 ⟨i, hi, h4 i hi t ht1 p hp⟩
  · rintro e e' s t hs ht' hne p ⟨o1, o2⟩
    obtain ⟨c, k, x, u, rfl, hx, hu, rfl⟩ := hget e s hs
    obtain ⟨c', k', y, v, rfl, hy, hv, rfl⟩ := hget e' t ht'
    have mx := List.mem_of_getElem? hx
    have my := List.mem_of_getElem? hy
    have := h2 x mx y my p (h5 x mx u (List.mem_of_getElem? hu) p o1) (h5 y my v (List.mem_of_getElem? hv) p o2)
    subst this
    have hcc : c = c' := by
      obtain ⟨a1, a2⟩ := List.getElem?_eq_some_iff.1 hx
      obtain ⟨b1, b2⟩ := List.getElem?_eq_some_iff.1 hy
      exact (List.Nodup.getElem_inj_iff hI).1 (a2.trans b2.symm)
    subst hcc
    exact ht.disj _ (hA x mx) k k' u v hu hv (fun e => hne (by rw [e])) p ⟨o1, o2⟩

/-! ## boxes of a grid -/

omit [LinearOrder K] [IsStrictOrderedRing K] in
/-- The points of the pieces of the cells of a grid. -/
theorem piecePoints {ι : Type} {C : List (List K)} {topo R : Topo} {map : List (List Nat)} {lc : List (V3 Int)} (hm : ∀ m ∈ map, ∀ q ∈ m, q < lc.length)
    (hs : SplitBy topo map R) {I : List ι} {A : ι → Aff K}
    (hp : gridCellPoints C topo = some (I.map fun i => lc.map fun v => (A i).app (half v))) :
    gridCellPoints C R = some (I.flatMap fun i => map.map fun t => cellPts (A i) lc t) := by
  have hl : topo.length = I.length := by simpa using (mapM_length hp).symm
  have hb : ∀ i ∈ I, (map.map fun t => cellPts (A i) lc t).length = map.length := fun _ _ => by simp
  apply mapM_of_get (by rw [hs.len, length_flatMap_block hb, hl, Nat.mul_comm])
  intro e s b he hbe
  have hlt := (List.getElem?_eq_some_iff.1 hbe).1
  rw [length_flatMap_block hb] at hlt
  obtain ⟨c, k, hc, hk, rfl⟩ := split_index hlt
  rw [getElem?_flatMap_block hb hk, List.getElem?_eq_getElem hc] at hbe
  have hbe' : (map.map fun t => cellPts (A I[c]) lc t)[k]? = some b := hbe
  rw [List.getElem?_map, List.getElem?_eq_getElem hk, Option.map_some, Option.some.injEq] at hbe'
  subst hbe'
  have hct : c < topo.length := by omega
  obtain ⟨s', g1, g2, g3⟩ := hs.row c k _ _ (List.getElem?_eq_getElem hct) (List.getElem?_eq_getElem hk)
  rw [g1] at he
  cases Option.some.inj he
  obtain ⟨pts, q1, q2⟩ := mapM_get hp (List.getElem?_eq_getElem hct)
  rw [List.getElem?_map, List.getElem?_eq_getElem hc, Option.map_some, Option.some.injEq] at q2
  subst q2
  apply mapM_of_get (by simp [cellPts, g2])
  intro j a b ha hb'
  have hj : j < (map[k]).length := by rw [← g2]; exact (List.getElem?_eq_some_iff.1 ha).1
  have hq := hm _ (List.getElem_mem hk) _ (List.getElem_mem hj)
  rw [g3 j _ (List.getElem?_eq_getElem hj)] at ha
  obtain ⟨y, y1, y2⟩ := mapM_get q1 ha
  rw [cellPts, List.getElem?_map, List.getElem?_eq_getElem hj, Option.map_some, Option.some.injEq] at hb'
  rw [List.getElem?_map, List.getElem?_eq_getElem hq, Option.map_some, Option.some.injEq] at y2
  rw [y1, ← y2, ← hb', List.getD_eq_getElem?_getD, List.getElem?_eq_getElem hq]
  rfl

/-- The box between the first and the last positions of three axes. -/
def axBox (ax ay az : Axis K) : V3 K → Prop := InB ⟨ax.b 0, ay.b 0, az.b 0⟩ ⟨ax.b ax.n, ay.b ay.n, az.b az.n⟩

theorem axis_gt {a : Axis K} (h : a.Inc) {i : Nat} (hi : i < a.n) {x : K} (h1 : a.b i ≤ x ∧ x ≤ a.b (i + 1)) : a.b 0 ≤ x ∧ x ≤ a.b a.n :=
  ⟨(axis_mono h (Nat.zero_le _) (by omega)).trans h1.1, h1.2.trans (axis_mono h (by omega) le_rfl)⟩

/-- The pieces of the cells of a grid in space tile the box. -/
theorem tiles_grid3 {lch lct : List (V3 Int)} {path : List (List Nat)} (hs : TetSplit K lch lct path) {ax ay az : Axis K}
    (hn : 1 ≤ ax.n ∧ 1 ≤ ay.n ∧ 1 ≤ az.n) (hx : ax.Inc) (hy : ay.Inc) (hz : az.Inc) :
    TilesRegion (axBox ax ay az) ((latCells ax.n ay.n az.n).flatMap fun p => path.map fun t =>
      cellPts (boxAff (ax.b p.1) (ax.b (p.1 + 1)) (ay.b p.2.1) (ay.b (p.2.1 + 1)) (az.b p.2.2) (az.b (p.2.2 + 1))) lch (t.take 4)) := by
  have hlt : ∀ p ∈ latCells ax.n ay.n az.n, ax.b p.1 < ax.b (p.1 + 1) ∧ ay.b p.2.1 < ay.b (p.2.1 + 1) ∧ az.b p.2.2 < az.b (p.2.2 + 1) := by
    intro p hp
    obtain ⟨q1, q2, q3⟩ := mem_latCells.1 hp
    exact ⟨hx _ q1, hy _ q2, hz _ q3⟩
  refine tilesRegion_of_cells (latCells_nodup _ _ _) (corners := [0, 1, 2, 3, 4, 5, 6, 7])
    (A := fun p => boxAff (ax.b p.1) (ax.b (p.1 + 1)) (ay.b p.2.1) (ay.b (p.2.1 + 1)) (az.b p.2.2) (az.b (p.2.2 + 1))) ?_ hs.tiles
    (Rc := fun p => InB ⟨ax.b p.1, ay.b p.2.1, az.b p.2.2⟩ ⟨ax.b (p.1 + 1), ay.b (p.2.1 + 1), az.b (p.2.2 + 1)⟩)
    (Ro := fun p => InsideB ⟨ax.b p.1, ay.b p.2.1, az.b p.2.2⟩ ⟨ax.b (p.1 + 1), ay.b (p.2.1 + 1), az.b (p.2.2 + 1)⟩) ?_ ?_ ?_ ?_ ?_
  · intro p hp
    obtain ⟨a, b, c⟩ := hlt p hp
    rw [boxAff_det]
    have := mul_pos (mul_pos (sub_pos.2 a) (sub_pos.2 b)) (sub_pos.2 c)
    exact (by linarith : (0 : K) < _).ne'
  · intro p
    constructor
    · rintro ⟨a, b, c⟩
      obtain ⟨i, i1, i2⟩ := axis_cover a.1 hn.1 a.2
      obtain ⟨j, j1, j2⟩ := axis_cover b.1 hn.2.1 b.2
      obtain ⟨k, k1, k2⟩ := axis_cover c.1 hn.2.2 c.2
      exact ⟨(i, j, k), mem_latCells.2 ⟨i1, j1, k1⟩, i2, j2, k2⟩
    · rintro ⟨q, hq, a, b, c⟩
      obtain ⟨q1, q2, q3⟩ := mem_latCells.1 hq
      exact ⟨axis_gt hx q1 a, axis_gt hy q2 b, axis_gt hz q3 c⟩
  · rintro ⟨i, j, k⟩ hi ⟨i', j', k'⟩ hi' p ⟨a, b, c⟩ ⟨a', b', c'⟩
    obtain ⟨q1, q2, q3⟩ := mem_latCells.1 hi
    obtain ⟨r1, r2, r3⟩ := mem_latCells.1 hi'
    have e1 : i = i' := axis_unique hx q1 r1 a ⟨a'.1.le, a'.2.le⟩
    have e2 : j = j' := axis_unique hy q2 r2 b ⟨b'.1.le, b'.2.le⟩
    have e3 : k = k' := axis_unique hz q3 r3 c ⟨c'.1.le, c'.2.le⟩
    rw [e1, e2, e3]
  · intro q hq p hp
    obtain ⟨a, b, c⟩ := hlt q hq
    obtain ⟨ξ, hξ⟩ := box_preimage (lo := ⟨ax.b q.1, ay.b q.2.1, az.b q.2.2⟩) (hi := ⟨ax.b (q.1 + 1), ay.b (q.2.1 + 1), az.b (q.2.2 + 1)⟩) a b c p
    rw [cellPts_eq, hs.corners, hξ]
    exact hull_map_of _ (hull_master ((inB_iff a b c hξ).1 hp))
  · intro q hq t ht p hp
    obtain ⟨a, b, c⟩ := hlt q hq
    rw [cellPts_eq] at hp
    obtain ⟨ξ, hξ, hh⟩ := exists_of_hull_map _ hp
    exact (inB_iff (lo := ⟨ax.b q.1, ay.b q.2.1, az.b q.2.2⟩) (hi := ⟨ax.b (q.1 + 1), ay.b (q.2.1 + 1), az.b (q.2.2 + 1)⟩) a b c hξ).2
      (hs.hull_in ht hh)
  · intro q hq t ht p hp
    obtain ⟨a, b, c⟩ := hlt q hq
    rw [cellPts_eq] at hp
    obtain ⟨ξ, hξ, hh⟩ := exists_of_openHull_map _ hp
    exact (insideB_iff (lo := ⟨ax.b q.1, ay.b q.2.1, az.b q.2.2⟩) (hi := ⟨ax.b (q.1 + 1), ay.b (q.2.1 + 1), az.b (q.2.2 + 1)⟩) a b c hξ).2
      (hs.openHull_in ht hh)

/-- What is needed about the split of a plane cell into triangles. -/
structure TriSplit (K : Type) [Field K] [LinearOrder K] [IsStrictOrderedRing K] (lc : List (V3 Int)) (path : List (List Nat)) : Prop where
  corners : masterPts K lc [0, 1, 2, 3] = masterPts K lcQ4 [0, 1, 2, 3]
  cols : ∀ p ∈ path, p.length = 3 ∧ ∀ q ∈ p, q < lc.length
  tiles : Tiles K lc [0, 1, 2, 3] path 3
  pos : ∀ A : Aff K, 0 < A.det → ∀ t ∈ path, PosPiece2 (fun i => A.app (half (lc.getD i 0))) A.c t lcT3
  inside : ∀ t ∈ path, ∀ f ∈ [((⟨1, 0, 0⟩ : V3 Int), (-2 : Int)), (⟨-1, 0, 0⟩, -2), (⟨0, 1, 0⟩, -2), (⟨0, -1, 0⟩, -2)],
    (∀ i ∈ t.take 3, evalD f (lc.getD i 0) ≤ 0) ∧ ∃ i ∈ t.take 3, evalD f (lc.getD i 0) < 0
  flat : ∀ v ∈ lc, v.z = 0

theorem split_Q4_T3 : TriSplit K lcQ4 pathQ4T3 :=
  ⟨rfl, by decide, C14_tiles_Q4_to_T3 K, fun A hA => (C14_orientation_2d A hA).2.1, by decide +kernel, by decide⟩

theorem split_Q9_T3 : TriSplit K lcQ9 trimapQ9 :=
  ⟨rfl, by decide, C14_tiles_Q9_trimap K, fun A hA => (C14_orientation_2d A hA).2.2.2.2.2.2.1, by decide +kernel, by decide⟩

section
variable {lc : List (V3 Int)} {path : List (List Nat)} (hs : TriSplit K lc path)
include hs

theorem TriSplit.flat' (n : Nat) : (lc.getD n 0).z = 0 := by
  rw [List.getD_eq_getElem?_getD]
  cases h : lc[n]? with
  | none => rfl
  | some v => exact hs.flat v (List.mem_of_getElem? h)

theorem TriSplit.hull_in {t : List Nat} (ht : t ∈ path) {ξ : V3 K} (h : Hull (masterPts K lc (t.take 3)) ξ) :
    (-1 ≤ ξ.x ∧ ξ.x ≤ 1) ∧ (-1 ≤ ξ.y ∧ ξ.y ≤ 1) ∧ ξ.z = 0 := by
  have key : ∀ f : V3 Int × Int, (∀ i ∈ t.take 3, evalD (⟨-f.1.x, -f.1.y, -f.1.z⟩, -f.2) (lc.getD i 0) ≤ 0) →
      0 ≤ (2 * f.1.x : K) * ξ.x + 2 * f.1.y * ξ.y + 2 * f.1.z * ξ.z + f.2 := by
    intro f hf
    apply hull_bound f _ h
    simp only [List.all_eq_true, decide_eq_true_eq]
    intro i hi
    have := hf i hi
    simp only [evalD] at this ⊢
    linarith
  have hf := hs.inside t ht
  have k1 := key (⟨-1, 0, 0⟩, 2) (hf (⟨1, 0, 0⟩, -2) (by decide)).1
  have k2 := key (⟨1, 0, 0⟩, 2) (hf (⟨-1, 0, 0⟩, -2) (by decide)).1
  have k3 := key (⟨0, -1, 0⟩, 2) (hf (⟨0, 1, 0⟩, -2) (by decide)).1
  have k4 := key (⟨0, 1, 0⟩, 2) (hf (⟨0, -1, 0⟩, -2) (by decide)).1
  have k5 := key (⟨0, 0, 1⟩, 0) (fun i _ => by simp [evalD, hs.flat', -List.getD_eq_getElem?_getD])
  have k6 := key (⟨0, 0, -1⟩, 0) (fun i _ => by simp [evalD, hs.flat', -List.getD_eq_getElem?_getD])
  push_cast at k1 k2 k3 k4 k5 k6
  refine ⟨⟨?_, ?_⟩, ⟨?_, ?_⟩, ?_⟩ <;> linarith

theorem TriSplit.openHull_in {t : List Nat} (ht : t ∈ path) {ξ : V3 K} (h : OpenHull (masterPts K lc (t.take 3)) ξ) :
    (-1 < ξ.x ∧ ξ.x < 1) ∧ (-1 < ξ.y ∧ ξ.y < 1) ∧ ξ.z = 0 := by
  have key : ∀ f : V3 Int × Int, (∀ i ∈ t.take 3, evalD f (lc.getD i 0) ≤ 0) → (∃ i ∈ t.take 3, evalD f (lc.getD i 0) < 0) →
      (2 * f.1.x : K) * ξ.x + 2 * f.1.y * ξ.y + 2 * f.1.z * ξ.z + f.2 < 0 := by
    intro f h1 ⟨k, hk, h2⟩
    have := evalF_neg_of_openHull (f := (⟨2 * f.1.x, 2 * f.1.y, 2 * f.1.z⟩, f.2)) h (by
      intro q hq
      obtain ⟨n, hn, rfl⟩ := List.mem_map.1 hq
      rw [evalF_half]; exact_mod_cast h1 n hn) ⟨_, List.mem_map.2 ⟨k, hk, rfl⟩, by rw [evalF_half]; exact_mod_cast h2⟩
    simpa [evalF] using this
  have hf := hs.inside t ht
  have q1 := hf (⟨1, 0, 0⟩, -2) (by decide)
  have q2 := hf (⟨-1, 0, 0⟩, -2) (by decide)
  have q3 := hf (⟨0, 1, 0⟩, -2) (by decide)
  have q4 := hf (⟨0, -1, 0⟩, -2) (by decide)
  have k1 := key _ q1.1 q1.2
  have k2 := key _ q2.1 q2.2
  have k3 := key _ q3.1 q3.2
  have k4 := key _ q4.1 q4.2
  push_cast at k1 k2 k3 k4
  have := (hs.hull_in ht (Hull.of_open h)).2.2
  refine ⟨⟨?_, ?_⟩, ⟨?_, ?_⟩, this⟩ <;> linarith

/-- The pieces of the cells of a plane grid tile the rectangle. -/
theorem tiles_grid2 {ax ay : Axis K} (hn : 1 ≤ ax.n ∧ 1 ≤ ay.n) (hx : ax.Inc) (hy : ay.Inc) :
    TilesRegion (InB ⟨ax.b 0, ay.b 0, 0⟩ ⟨ax.b ax.n, ay.b ay.n, 0⟩) ((latCells2 ax.n ay.n).flatMap fun p => path.map fun t =>
      cellPts (boxAff (ax.b p.1) (ax.b (p.1 + 1)) (ay.b p.2) (ay.b (p.2 + 1)) (-1) 1) lc (t.take 3)) := by
  have hlt : ∀ p ∈ latCells2 ax.n ay.n, ax.b p.1 < ax.b (p.1 + 1) ∧ ay.b p.2 < ay.b (p.2 + 1) := by
    intro p hp
    obtain ⟨q1, q2⟩ := mem_latCells2.1 hp
    exact ⟨hx _ q1, hy _ q2⟩
  have h11 : (-1 : K) < 1 := by linarith [zero_lt_one (α := K)]
  have hz : ∀ (x0 x1 y0 y1 : K) (ξ : V3 K), ((boxAff x0 x1 y0 y1 (-1) 1).app ξ).z = ξ.z := by
    intro x0 x1 y0 y1 ξ
    simp only [boxAff, Aff.app, add_z, smul_z]
    ring
  refine tilesRegion_of_cells (latCells2_nodup _ _) (corners := [0, 1, 2, 3])
    (A := fun p => boxAff (ax.b p.1) (ax.b (p.1 + 1)) (ay.b p.2) (ay.b (p.2 + 1)) (-1) 1) ?_ hs.tiles
    (Rc := fun q p => InB ⟨ax.b q.1, ay.b q.2, -1⟩ ⟨ax.b (q.1 + 1), ay.b (q.2 + 1), 1⟩ p ∧ p.z = 0)
    (Ro := fun q => InsideB ⟨ax.b q.1, ay.b q.2, -1⟩ ⟨ax.b (q.1 + 1), ay.b (q.2 + 1), 1⟩) ?_ ?_ ?_ ?_ ?_
  · intro p hp
    obtain ⟨a, b⟩ := hlt p hp
    rw [boxAff_det]
    have := mul_pos (mul_pos (sub_pos.2 a) (sub_pos.2 b)) (sub_pos.2 h11)
    exact (by linarith : (0 : K) < _).ne'
  · intro p
    constructor
    · rintro ⟨a, b, c⟩
      obtain ⟨i, i1, i2⟩ := axis_cover a.1 hn.1 a.2
      obtain ⟨j, j1, j2⟩ := axis_cover b.1 hn.2 b.2
      have hp : p.z = 0 := le_antisymm c.2 c.1
      exact ⟨(i, j), mem_latCells2.2 ⟨i1, j1⟩, ⟨i2, j2, by rw [hp]; exact neg_nonpos.2 zero_le_one, by rw [hp]; exact zero_le_one⟩, hp⟩
    · rintro ⟨q, hq, ⟨a, b, -⟩, c⟩
      obtain ⟨q1, q2⟩ := mem_latCells2.1 hq
      exact ⟨axis_gt hx q1 a, axis_gt hy q2 b, c.ge, c.le⟩
  · rintro ⟨i, j⟩ hi ⟨i', j'⟩ hi' p ⟨a, b, -⟩ ⟨a', b', -⟩
    obtain ⟨q1, q2⟩ := mem_latCells2.1 hi
    obtain ⟨r1, r2⟩ := mem_latCells2.1 hi'
    have e1 : i = i' := axis_unique hx q1 r1 a ⟨a'.1.le, a'.2.le⟩
    have e2 : j = j' := axis_unique hy q2 r2 b ⟨b'.1.le, b'.2.le⟩
    rw [e1, e2]
  · rintro q hq p ⟨hp, hp0⟩
    obtain ⟨a, b⟩ := hlt q hq
    obtain ⟨ξ, hξ⟩ := box_preimage (lo := ⟨ax.b q.1, ay.b q.2, -1⟩) (hi := ⟨ax.b (q.1 + 1), ay.b (q.2 + 1), 1⟩) a b h11 p
    obtain ⟨⟨x1, x2⟩, ⟨y1, y2⟩, -⟩ := (inB_iff a b h11 hξ).1 hp
    have hξ0 : ξ.z = 0 := by rw [hξ, hz] at hp0; exact hp0
    rw [cellPts_eq, hs.corners, hξ]
    apply hull_map_of
    refine hull_quad _ _ _ _ ((ξ.x + 1) / 2) ((ξ.y + 1) / 2) (by linarith) (by linarith) (by linarith) (by linarith) _ ?_ ?_ ?_
    · simp [half, lcQ4]; ring
    · simp [half, lcQ4]; ring
    · simp [half, lcQ4, hξ0]
  · intro q hq t ht p hp
    obtain ⟨a, b⟩ := hlt q hq
    rw [cellPts_eq] at hp
    obtain ⟨ξ, hξ, hh⟩ := exists_of_hull_map _ hp
    obtain ⟨r1, r2, r3⟩ := hs.hull_in ht hh
    refine ⟨(inB_iff (lo := ⟨ax.b q.1, ay.b q.2, -1⟩) (hi := ⟨ax.b (q.1 + 1), ay.b (q.2 + 1), 1⟩) a b h11 hξ).2
      ⟨r1, r2, by rw [r3]; exact ⟨neg_nonpos.2 zero_le_one, zero_le_one⟩⟩, by rw [hξ, hz, r3]⟩
  · intro q hq t ht p hp
    obtain ⟨a, b⟩ := hlt q hq
    rw [cellPts_eq] at hp
    obtain ⟨ξ, hξ, hh⟩ := exists_of_openHull_map _ hp
    obtain ⟨r1, r2, r3⟩ := hs.openHull_in ht hh
    exact (insideB_iff (lo := ⟨ax.b q.1, ay.b q.2, -1⟩) (hi := ⟨ax.b (q.1 + 1), ay.b (q.2 + 1), 1⟩) a b h11 hξ).2
      ⟨r1, r2, by rw [r3]; exact ⟨neg_lt_zero.2 zero_lt_one, zero_lt_one⟩⟩

end

/-! ## whole grids -/

omit [LinearOrder K] [IsStrictOrderedRing K] in
theorem take_pieces {ι : Type} (I : List ι) (A : ι → Aff K) (lc : List (V3 Int)) (path : List (List Nat)) (n : Nat) :
    (I.flatMap fun i => path.map fun t => cellPts (A i) lc t).map (List.take n) =
      I.flatMap fun i => path.map fun t => cellPts (A i) lc (t.take n) := by
  rw [List.map_flatMap]
  congr 1
  funext i
  rw [List.map_map]
  apply List.map_congr_left
  intro t _
  simp only [Function.comp_apply, cellPts, List.map_take]

omit [LinearOrder K] [IsStrictOrderedRing K] in
theorem pts_of_piece {lc lct : List (V3 Int)} {A B : Aff K} {t : List Nat} (hl : t.length = lct.length)
    (h : ∀ n, n < t.length → A.app (half (lc.getD (t.getD n 0) 0)) = B.app (half (lct.getD n 0))) :
    cellPts A lc t = lct.map fun v => B.app (half v) := by
  apply List.ext_getElem (by simp [cellPts, hl])
  intro n h1 h2
  have hn : n < t.length := by simpa [cellPts] using h1
  have := h n hn
  rw [List.getD_eq_getElem?_getD (l := t), List.getElem?_eq_getElem hn, List.getD_eq_getElem?_getD (l := lct),
    List.getElem?_eq_getElem (by omega)] at this
  simp only [cellPts, List.getElem_map]
  exact this

theorem simplices3 {lch lct : List (V3 Int)} {path : List (List Nat)} (hs : TetSplit K lch lct path) {ax ay az : Axis K}
    (hn : 1 ≤ ax.n ∧ 1 ≤ ay.n ∧ 1 ≤ az.n) (hx : ax.Inc) (hy : ay.Inc) (hz : az.Inc) {C : List (List K)} {T : List (List Int)} {R : Topo}
    (h : VtkGrid3 lch ax ay az 0 C T) (hR : SplitBy (asTopo T) path R) :
    ∃ pts, gridCellPoints C R = some pts ∧ (∀ s ∈ pts, ∃ B : Aff K, 0 < B.det ∧ s = lct.map fun v => B.app (half v)) ∧
      TilesRegion (axBox ax ay az) (pts.map (List.take 4)) := by
  refine ⟨_, piecePoints (fun m hm => (hs.cols m hm).2) hR (cellPoints3 h), ?_, ?_⟩
  · intro s hs'
    obtain ⟨p, hp, hs'⟩ := List.mem_flatMap.1 hs'
    obtain ⟨t, ht, rfl⟩ := List.mem_map.1 hs'
    obtain ⟨q1, q2, q3⟩ := mem_latCells.1 hp
    obtain ⟨B, h1, h2⟩ := hs.pos (boxAff (ax.b p.1) (ax.b (p.1 + 1)) (ay.b p.2.1) (ay.b (p.2.1 + 1)) (az.b p.2.2) (az.b (p.2.2 + 1))) (by
      rw [boxAff_det]
      have := mul_pos (mul_pos (sub_pos.2 (hx _ q1)) (sub_pos.2 (hy _ q2))) (sub_pos.2 (hz _ q3))
      linarith) t ht
    exact ⟨B, h1, pts_of_piece (hs.cols t ht).1 h2⟩
  · rw [take_pieces]
    exact tiles_grid3 hs hn hx hy hz

theorem simplices2 {lc : List (V3 Int)} {path : List (List Nat)} (hs : TriSplit K lc path) {ax ay : Axis K}
    (hn : 1 ≤ ax.n ∧ 1 ≤ ay.n) (hx : ax.Inc) (hy : ay.Inc) {C : List (List K)} {T : List (List Int)} {R : Topo}
    (h : VtkGrid2 lc ax ay 0 C T) (hR : SplitBy (asTopo T) path R) :
    ∃ pts, gridCellPoints C R = some pts ∧ (∀ s ∈ pts, ∃ B : Aff K, B.c = ⟨0, 0, 1⟩ ∧ 0 < B.det ∧ s = lcT3.map fun v => B.app (half v)) ∧
      TilesRegion (InB ⟨ax.b 0, ay.b 0, 0⟩ ⟨ax.b ax.n, ay.b ay.n, 0⟩) pts := by
  have h11 : (-1 : K) < 1 := by linarith [zero_lt_one (α := K)]
  have e : ∀ (x0 x1 y0 y1 : K), ∀ v ∈ lc, (boxAff x0 x1 y0 y1 0 0).app (half v) = (boxAff x0 x1 y0 y1 (-1) 1).app (half v) := by
    intro x0 x1 y0 y1 v hv
    have := hs.flat v hv
    ext <;> simp [boxAff, Aff.app, half, this]
  have hc : gridCellPoints C (asTopo T) = some ((latCells2 ax.n ay.n).map fun p => lc.map fun v =>
      (boxAff (ax.b p.1) (ax.b (p.1 + 1)) (ay.b p.2) (ay.b (p.2 + 1)) (-1) 1).app (half v)) := by
    rw [cellPoints2 h]
    congr 1
    exact List.map_congr_left fun p _ => List.map_congr_left fun v hv => e _ _ _ _ v hv
  refine ⟨_, piecePoints (fun m hm => (hs.cols m hm).2) hR hc, ?_, ?_⟩
  · intro s hs'
    obtain ⟨p, hp, hs'⟩ := List.mem_flatMap.1 hs'
    obtain ⟨t, ht, rfl⟩ := List.mem_map.1 hs'
    obtain ⟨q1, q2⟩ := mem_latCells2.1 hp
    obtain ⟨B, h0, h1, h2⟩ := hs.pos (boxAff (ax.b p.1) (ax.b (p.1 + 1)) (ay.b p.2) (ay.b (p.2 + 1)) (-1) 1) (by
      rw [boxAff_det]
      have := mul_pos (mul_pos (sub_pos.2 (hx _ q1)) (sub_pos.2 (hy _ q2))) (sub_pos.2 h11)
      linarith) t ht
    refine ⟨B, ?_, h1, pts_of_piece (hs.cols t ht).1 h2⟩
    rw [h0]
    ext <;> simp [boxAff]
  · have := tiles_grid2 hs hn hx hy
    rw [← take_pieces] at this
    convert this using 1
    symm
    conv_rhs => rw [← List.map_id (List.flatMap _ _)]
    apply List.map_congr_left
    intro s hs'
    obtain ⟨p, hp, hs'⟩ := List.mem_flatMap.1 hs'
    obtain ⟨t, ht, rfl⟩ := List.mem_map.1 hs'
    exact List.take_of_length_le (by simp [cellPts, (hs.cols t ht).1])

theorem uni_box {lX lY lZ s0 s1 s2 : K} {nx ny nz a b c : Nat} (h : 1 ≤ nx ∧ 1 ≤ ny ∧ 1 ≤ nz) :
    axBox (uniAxis lX nx a s0) (uniAxis lY ny b s1) (uniAxis lZ nz c s2) = InB ⟨s0, s1, s2⟩ ⟨s0 + lX, s1 + lY, s2 + lZ⟩ := by
  have c1 : ∀ n : Nat, 1 ≤ n → ((n : K)) ≠ 0 := fun n hn => by exact_mod_cast (by omega : n ≠ 0)
  simp only [axBox, uniAxis, Nat.cast_zero, mul_zero, add_zero, div_mul_cancel₀ _ (c1 _ h.1), div_mul_cancel₀ _ (c1 _ h.2.1),
    div_mul_cancel₀ _ (c1 _ h.2.2)]

theorem splitBy_path {T : List (List Int)} {lch : List (V3 Int)} {path : List (List Nat)} {n : Nat} (hT : ∀ r ∈ T, r.length = lch.length)
    (hc : ∀ p ∈ path, p.length = n ∧ ∀ q ∈ p, q < lch.length) :
    ∃ R, transformTopology (asTopo T) path n 0 = some R ∧ SplitBy (asTopo T) path R := by
  have hp : PathOK (asTopo T) path n := pathOK_of_width (w := lch.length) (by
    intro r hr
    rw [asTopo, List.mem_map] at hr
    obtain ⟨r', hr', rfl⟩ := hr
    rw [List.length_map, hT r' hr']) hc
  exact ⟨_, transformTopology_eq hp, splitBy_transformed hp⟩

omit [IsStrictOrderedRing K] in
theorem take4 {pts : List (List (V3 K))} (h : ∀ s ∈ pts, ∃ B : Aff K, 0 < B.det ∧ s = lcTET4.map fun v => B.app (half v)) :
    pts.map (List.take 4) = pts := by
  conv_rhs => rw [← List.map_id pts]
  apply List.map_congr_left
  intro s hs
  obtain ⟨B, -, rfl⟩ := h s hs
  rfl

/-- **C102** `gridH8` cut by `to_tetrahedra`: positively oriented tetrahedra that tile the box. -/
theorem C102_tets {lX lY lZ : K} (hX : 0 < lX) (hY : 0 < lY) (hZ : 0 < lZ) {nx ny nz : Nat} (s0 s1 s2 : K) (h : 1 ≤ nx ∧ 1 ≤ ny ∧ 1 ≤ nz) :
    ∃ C T R pts, gridH8 (args3 lX lY lZ nx ny nz s0 s1 s2 0) = some (C, T) ∧ toTetrahedra .H8 (asTopo T) = some R ∧
      R.length = nx * ny * nz * 5 ∧ gridCellPoints C R = some pts ∧
      (∀ s ∈ pts, ∃ B : Aff K, 0 < B.det ∧ s = lcTET4.map fun v => B.app (half v)) ∧
      TilesRegion (InB ⟨s0, s1, s2⟩ ⟨s0 + lX, s1 + lY, s2 + lZ⟩) pts := by
  obtain ⟨C, T, g1, g2⟩ := C19_gridH8 lX lY lZ nx ny nz s0 s1 s2 0 h
  obtain ⟨R, r1, r2⟩ := splitBy_path g2.2.1 (split_H8_TET4 (K := K)).cols
  obtain ⟨pts, p1, p2, p3⟩ := simplices3 split_H8_TET4 h (uniAxis_inc hX h.1) (uniAxis_inc hY h.2.1) (uniAxis_inc hZ h.2.2) g2 r2
  rw [take4 p2, uni_box h] at p3
  exact ⟨C, T, R, pts, g1, r1, by rw [r2.len, asTopo, List.length_map, g2.1]; rfl, p1, p2, p3⟩

/-- **C102** with bins in increasing order. -/
theorem C102_tets_bins {bx bY bz : List K} (hx : bx.Pairwise (· < ·)) (hy : bY.Pairwise (· < ·)) (hz : bz.Pairwise (· < ·)) (s0 s1 s2 : K)
    (h : 2 ≤ bx.length ∧ 2 ≤ bY.length ∧ 2 ≤ bz.length) :
    ∃ C T R pts, gridH8 (argsB3 bx bY bz s0 s1 s2 0) = some (C, T) ∧ toTetrahedra .H8 (asTopo T) = some R ∧
      R.length = (bx.length - 1) * (bY.length - 1) * (bz.length - 1) * 5 ∧ gridCellPoints C R = some pts ∧
      (∀ s ∈ pts, ∃ B : Aff K, 0 < B.det ∧ s = lcTET4.map fun v => B.app (half v)) ∧
      TilesRegion (InB ⟨s0 + bx.getD 0 0, s1 + bY.getD 0 0, s2 + bz.getD 0 0⟩
        ⟨s0 + bx.getD (bx.length - 1) 0, s1 + bY.getD (bY.length - 1) 0, s2 + bz.getD (bz.length - 1) 0⟩) pts := by
  obtain ⟨C, T, g1, g2⟩ := C21_gridH8_bins bx bY bz s0 s1 s2 0 h
  obtain ⟨R, r1, r2⟩ := splitBy_path g2.2.1 (split_H8_TET4 (K := K)).cols
  obtain ⟨pts, p1, p2, p3⟩ := simplices3 split_H8_TET4 (by simp only [binAxis]; omega) (binAxis_inc hx) (binAxis_inc hy) (binAxis_inc hz) g2 r2
  rw [take4 p2] at p3
  exact ⟨C, T, R, pts, g1, r1, by rw [r2.len, asTopo, List.length_map, g2.1]; rfl, p1, p2, p3⟩

/-- **C102** `gridH27` cut by `H27_to_TET10`: quadratic tetrahedra with straight edges, whose corners tile the box. -/
theorem C102_tet10 {lX lY lZ : K} (hX : 0 < lX) (hY : 0 < lY) (hZ : 0 < lZ) {nx ny nz : Nat} (s0 s1 s2 : K) (h : 1 ≤ nx ∧ 1 ≤ ny ∧ 1 ≤ nz) :
    ∃ C T R pts, gridH27 (args3 lX lY lZ nx ny nz s0 s1 s2 0) = some (C, T) ∧ transformTopology (asTopo T) pathH27TET10 10 0 = some R ∧
      R.length = nx * ny * nz * 5 ∧ gridCellPoints C R = some pts ∧
      (∀ s ∈ pts, ∃ B : Aff K, 0 < B.det ∧ s = lcTET10.map fun v => B.app (half v)) ∧
      TilesRegion (InB ⟨s0, s1, s2⟩ ⟨s0 + lX, s1 + lY, s2 + lZ⟩) (pts.map (List.take 4)) := by
  obtain ⟨C, T, g1, g2⟩ := C19_gridH27 lX lY lZ nx ny nz s0 s1 s2 0 h
  obtain ⟨R, r1, r2⟩ := splitBy_path g2.2.1 (split_H27_TET10 (K := K)).cols
  obtain ⟨pts, p1, p2, p3⟩ := simplices3 split_H27_TET10 h (uniAxis_inc hX h.1) (uniAxis_inc hY h.2.1) (uniAxis_inc hZ h.2.2) g2 r2
  rw [uni_box h] at p3
  exact ⟨C, T, R, pts, g1, r1, by rw [r2.len, asTopo, List.length_map, g2.1]; rfl, p1, p2, p3⟩

/-- **C102** with bins in increasing order. -/
theorem C102_tet10_bins {bx bY bz : List K} (hx : bx.Pairwise (· < ·)) (hy : bY.Pairwise (· < ·)) (hz : bz.Pairwise (· < ·)) (s0 s1 s2 : K)
    (h : 2 ≤ bx.length ∧ 2 ≤ bY.length ∧ 2 ≤ bz.length) :
    ∃ C T R pts, gridH27 (argsB3 bx bY bz s0 s1 s2 0) = some (C, T) ∧ transformTopology (asTopo T) pathH27TET10 10 0 = some R ∧
      R.length = (bx.length - 1) * (bY.length - 1) * (bz.length - 1) * 5 ∧ gridCellPoints C R = some pts ∧
      (∀ s ∈ pts, ∃ B : Aff K, 0 < B.det ∧ s = lcTET10.map fun v => B.app (half v)) ∧
      TilesRegion (InB ⟨s0 + bx.getD 0 0, s1 + bY.getD 0 0, s2 + bz.getD 0 0⟩
        ⟨s0 + bx.getD (bx.length - 1) 0, s1 + bY.getD (bY.length - 1) 0, s2 + bz.getD (bz.length - 1) 0⟩) (pts.map (List.take 4)) := by
  obtain ⟨C, T, g1, g2⟩ := C21_gridH27_bins bx bY bz s0 s1 s2 0 h
  obtain ⟨R, r1, r2⟩ := splitBy_path g2.2.1 (split_H27_TET10 (K := K)).cols
  obtain ⟨pts, p1, p2, p3⟩ := simplices3 split_H27_TET10 (by simp only [binAxis]; omega) (binAxis_inc hx) (binAxis_inc hy) (binAxis_inc hz) g2 r2
  exact ⟨C, T, R, pts, g1, r1, by rw [r2.len, asTopo, List.length_map, g2.1]; rfl, p1, p2, p3⟩

theorem uni_rect {lX lY s0 s1 : K} {nx ny a b : Nat} (h : 1 ≤ nx ∧ 1 ≤ ny) :
    InB ⟨(uniAxis lX nx a s0).b 0, (uniAxis lY ny b s1).b 0, 0⟩ ⟨(uniAxis lX nx a s0).b (uniAxis lX nx a s0).n, (uniAxis lY ny b s1).b (uniAxis lY ny b s1).n, 0⟩ =
      InB ⟨s0, s1, 0⟩ ⟨s0 + lX, s1 + lY, 0⟩ := by
  have c1 : ∀ n : Nat, 1 ≤ n → ((n : K)) ≠ 0 := fun n hn => by exact_mod_cast (by omega : n ≠ 0)
  simp only [uniAxis, Nat.cast_zero, mul_zero, add_zero, div_mul_cancel₀ _ (c1 _ h.1), div_mul_cancel₀ _ (c1 _ h.2)]

theorem splitBy_triangles {k : CellKind} {map : List (List Nat)} (hk : trimapOf k = some map) {T : List (List Int)}
    (hT : ∀ r ∈ T, r.length = k.nnode) : ∃ R, toTriangles k (asTopo T) = some R ∧ SplitBy (asTopo T) map R := by
  apply C89_triangles k map hk
  intro r hr
  rw [asTopo, List.mem_map] at hr
  obtain ⟨r', hr', rfl⟩ := hr
  rw [List.length_map, hT r' hr']

/-- **C102** `gridQ4` cut by `to_triangles`: triangles, all with the same sense, that tile the rectangle. -/
theorem C102_tris {lX lY : K} (hX : 0 < lX) (hY : 0 < lY) {nx ny : Nat} (s0 s1 : K) (h : 1 ≤ nx ∧ 1 ≤ ny) :
    ∃ C T R pts, gridQ4 (args2 lX lY nx ny s0 s1 0) = some (C, T) ∧ toTriangles .Q4 (asTopo T) = some R ∧
      R.length = nx * ny * 2 ∧ gridCellPoints C R = some pts ∧
      (∀ s ∈ pts, ∃ B : Aff K, B.c = ⟨0, 0, 1⟩ ∧ 0 < B.det ∧ s = lcT3.map fun v => B.app (half v)) ∧
      TilesRegion (InB ⟨s0, s1, 0⟩ ⟨s0 + lX, s1 + lY, 0⟩) pts := by
  obtain ⟨C, T, g1, g2⟩ := C19_gridQ4 lX lY nx ny s0 s1 0 h
  obtain ⟨R, r1, r2⟩ := splitBy_triangles (k := .Q4) rfl g2.2.1
  obtain ⟨pts, p1, p2, p3⟩ := simplices2 split_Q4_T3 h (uniAxis_inc hX h.1) (uniAxis_inc hY h.2) g2 r2
  rw [uni_rect h] at p3
  exact ⟨C, T, R, pts, g1, r1, by rw [r2.len, asTopo, List.length_map, g2.1]; rfl, p1, p2, p3⟩

/-- **C102** with bins in increasing order. -/
theorem C102_tris_bins {bx bY : List K} (hx : bx.Pairwise (· < ·)) (hy : bY.Pairwise (· < ·)) (s0 s1 : K) (h : 2 ≤ bx.length ∧ 2 ≤ bY.length) :
    ∃ C T R pts, gridQ4 (argsB2 bx bY s0 s1 0) = some (C, T) ∧ toTriangles .Q4 (asTopo T) = some R ∧
      R.length = (bx.length - 1) * (bY.length - 1) * 2 ∧ gridCellPoints C R = some pts ∧
      (∀ s ∈ pts, ∃ B : Aff K, B.c = ⟨0, 0, 1⟩ ∧ 0 < B.det ∧ s = lcT3.map fun v => B.app (half v)) ∧
      TilesRegion (InB ⟨s0 + bx.getD 0 0, s1 + bY.getD 0 0, 0⟩ ⟨s0 + bx.getD (bx.length - 1) 0, s1 + bY.getD (bY.length - 1) 0, 0⟩) pts := by
  obtain ⟨C, T, g1, g2⟩ := C21_gridQ4_bins bx bY s0 s1 0 h
  obtain ⟨R, r1, r2⟩ := splitBy_triangles (k := .Q4) rfl g2.2.1
  obtain ⟨pts, p1, p2, p3⟩ := simplices2 split_Q4_T3 (by simp only [binAxis]; omega) (binAxis_inc hx) (binAxis_inc hy) g2 r2
  exact ⟨C, T, R, pts, g1, r1, by rw [r2.len, asTopo, List.length_map, g2.1]; rfl, p1, p2, p3⟩

/-- **C102** `gridQ9` cut by `to_triangles`. -/
theorem C102_tris9 {lX lY : K} (hX : 0 < lX) (hY : 0 < lY) {nx ny : Nat} (s0 s1 : K) (h : 1 ≤ nx ∧ 1 ≤ ny) :
    ∃ C T R pts, gridQ9 (args2 lX lY nx ny s0 s1 0) = some (C, T) ∧ toTriangles .Q9 (asTopo T) = some R ∧
      R.length = nx * ny * 8 ∧ gridCellPoints C R = some pts ∧
      (∀ s ∈ pts, ∃ B : Aff K, B.c = ⟨0, 0, 1⟩ ∧ 0 < B.det ∧ s = lcT3.map fun v => B.app (half v)) ∧
      TilesRegion (InB ⟨s0, s1, 0⟩ ⟨s0 + lX, s1 + lY, 0⟩) pts := by
  obtain ⟨C, T, g1, g2⟩ := C19_gridQ9 lX lY nx ny s0 s1 0 h
  obtain ⟨R, r1, r2⟩ := splitBy_triangles (k := .Q9) rfl g2.2.1
  obtain ⟨pts, p1, p2, p3⟩ := simplices2 split_Q9_T3 h (uniAxis_inc hX h.1) (uniAxis_inc hY h.2) g2 r2
  rw [uni_rect h] at p3
  exact ⟨C, T, R, pts, g1, r1, by rw [r2.len, asTopo, List.length_map, g2.1]; rfl, p1, p2, p3⟩

/-- **C102** with bins in increasing order. -/
theorem C102_tris9_bins {bx bY : List K} (hx : bx.Pairwise (· < ·)) (hy : bY.Pairwise (· < ·)) (s0 s1 : K) (h : 2 ≤ bx.length ∧ 2 ≤ bY.length) :
    ∃ C T R pts, gridQ9 (argsB2 bx bY s0 s1 0) = some (C, T) ∧ toTriangles .Q9 (asTopo T) = some R ∧
      R.length = (bx.length - 1) * (bY.length - 1) * 8 ∧ gridCellPoints C R = some pts ∧
      (∀ s ∈ pts, ∃ B : Aff K, B.c = ⟨0, 0, 1⟩ ∧ 0 < B.det ∧ s = lcT3.map fun v => B.app (half v)) ∧
      TilesRegion (InB ⟨s0 + bx.getD 0 0, s1 + bY.getD 0 0, 0⟩ ⟨s0 + bx.getD (bx.length - 1) 0, s1 + bY.getD (bY.length - 1) 0, 0⟩) pts := by
  obtain ⟨C, T, g1, g2⟩ := C21_gridQ9_bins bx bY s0 s1 0 h
  obtain ⟨R, r1, r2⟩ := splitBy_triangles (k := .Q9) rfl g2.2.1
  obtain ⟨pts, p1, p2, p3⟩ := simplices2 split_Q9_T3 (by simp only [binAxis]; omega) (binAxis_inc hx) (binAxis_inc hy) g2 r2
  exact ⟨C, T, R, pts, g1, r1, by rw [r2.len, asTopo, List.length_map, g2.1]; rfl, p1, p2, p3⟩

end

/-- **C102** is false for bins that are not sorted: two triangles overlap. -/
theorem C102_bins_order_false : ∃ (C : List (List ℚ)) (T : List (List Int)) (R : Topo) (pts : List (List (V3 ℚ))) (s t : List (V3 ℚ)) (p : V3 ℚ),
    gridQ4 (argsB2 [0, 2, 1] [0, 1] 0 0 0) = some (C, T) ∧ toTriangles .Q4 (asTopo T) = some R ∧ gridCellPoints C R = some pts ∧
    pts[0]? = some s ∧ pts[2]? = some t ∧ OpenHull s p ∧ OpenHull t p := by
  refine ⟨[[0, 0], [0, 1], [2, 0], [2, 1], [1, 0], [1, 1]], [[0, 2, 3, 1], [2, 4, 5, 3]], [[0, 2, 3], [0, 3, 1], [2, 4, 5], [2, 5, 3]], _, _, _,
    ⟨8 / 5, 1 / 5, 0⟩, by decide +kernel, by decide +kernel, rfl, rfl, rfl, ?_, ?_⟩
  · exact ⟨[1 / 5, 3 / 5, 1 / 5], rfl, by decide +kernel, by decide +kernel, by decide +kernel⟩
  · exact ⟨[3 / 5, 1 / 5, 1 / 5], rfl, by decide +kernel, by decide +kernel, by decide +kernel⟩

/-- A case: a plane grid of two cells and its triangles. -/
example : gridQ4 (args2 (2 : ℚ) 1 2 1 0 0 0) = some ([[0, 0], [0, 1], [1, 0], [1, 1], [2, 0], [2, 1]], [[0, 2, 3, 1], [2, 4, 5, 3]]) ∧
    toTriangles .Q4 [[0, 2, 3, 1], [2, 4, 5, 3]] = some [[0, 2, 3], [0, 3, 1], [2, 4, 5], [2, 5, 3]] := by decide +kernel

end PM
