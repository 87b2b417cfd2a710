import Verif.Areas
import Verif.PropsJacobian
import Verif.PropsPolygon
import Verif.PropsTriMore
import Verif.PropsMisc

/-!
# C71: areas and volumes of cells of one and two dimensions
-/

namespace PM

open V3

/-! ## specification -/

/-- The triangles a map cuts out of a cell with the points `P`. -/
def cutTris (trimap : List (List Nat)) (P : List (V3 ℝ)) : List (V3 ℝ × V3 ℝ × V3 ℝ) :=
  trimap.map fun t => (P.getD (t.getD 0 0) 0, P.getD (t.getD 1 0) 0, P.getD (t.getD 2 0) 0)

/-- The area of a triangle in space, seen along the direction `n` (a unit vector): positive if it turns counterclockwise around
`n`. -/
noncomputable def seenArea (n : V3 ℝ) (t : V3 ℝ × V3 ℝ × V3 ℝ) : ℝ := dot n (cross (t.2.1 - t.1) (t.2.2 - t.1)) / 2

/-- The area of a triangle in space: half the product of base and height. -/
noncomputable def spaceArea (t : V3 ℝ × V3 ℝ × V3 ℝ) : ℝ :=
  Real.sqrt (dot (cross (t.2.1 - t.1) (t.2.2 - t.1)) (cross (t.2.1 - t.1) (t.2.2 - t.1))) / 2

/-- The triangle lies in a plane with normal `n` and turns counterclockwise around it. -/
def LiesFlat (n : V3 ℝ) (t : V3 ℝ × V3 ℝ × V3 ℝ) : Prop :=
  dot n (t.2.1 - t.1) = 0 ∧ dot n (t.2.2 - t.1) = 0 ∧ 0 ≤ dot n (cross (t.2.1 - t.1) (t.2.2 - t.1))

/-- The position of a point in the plane of the first two axes of a frame. -/
noncomputable def inPlane (F : Frame) (p : V3 ℝ) : P2 ℝ := ⟨dot F.i p, dot F.j p⟩

/-- The corners of a cell in the plane of a frame, in the order of `b`. -/
noncomputable def outline (F : Frame) (b : List Nat) (P : List (V3 ℝ)) : List (P2 ℝ) := b.map fun q => inPlane F (P.getD q 0)

/-! ## lemmas -/

theorem mem_triangulateWrites {α : Type} {ec : List (List α)} {trimap : List (List Nat)} {n : Nat}
    {x : (Nat × Nat) × Option α} : x ∈ triangulateWrites ec trimap n ↔
      ∃ i j k, i < ec.length ∧ j < n ∧ k < trimap.length ∧ x = ((i * trimap.length + k, j), pick? ec trimap i k j) := by
  simp only [triangulateWrites, List.mem_flatMap, List.mem_range, List.mem_map]
  constructor
  · rintro ⟨i, hi, j, hj, k, hk, rfl⟩; exact ⟨i, k, j, hi, hk, hj, rfl⟩
  · rintro ⟨i, j, k, hi, hj, hk, rfl⟩; exact ⟨i, hi, k, hk, j, hj, rfl⟩

theorem triangulate_eq {α : Type} {ec : List (List α)} {trimap : List (List Nat)} {n : Nat} (h : PathOK ec trimap n) (zero : α) :
    triangulateCellCoords ec trimap n zero = some (transformed ec trimap zero) :=
  transformResult_eq h zero fun _ => mem_triangulateWrites

theorem sum_drop_take {α : Type} {K : Type} [AddMonoid K] {l : List α} {f : α → List K} {n : Nat}
    (h : ∀ x ∈ l, (f x).length = n) {i : Nat} {x : α} (hi : l[i]? = some x) :
    ((l.flatMap f).drop (i * n)).take n = f x := by
  induction l generalizing i with
  | nil => simp at hi
  | cons a l ih =>
    have ha := h a List.mem_cons_self
    rw [List.flatMap_cons]
    cases i with
    | zero =>
      simp at hi; subst hi
      simp [ha]
    | succ i =>
      have e : (f a ++ l.flatMap f).drop (i.succ * n) = (l.flatMap f).drop (i * n) := by
        rw [List.drop_append, List.drop_of_length_le (by rw [ha, Nat.succ_mul]; omega), List.nil_append, ha]
        congr 1
        rw [Nat.succ_mul]; omega
      rw [e]
      exact ih (fun x hx => h x (List.mem_cons_of_mem _ hx)) (by simpa using hi)

/-- Sums of blocks of equal size. -/
theorem sumBlocks_flatMap {α : Type} {K : Type} [AddMonoid K] {l : List α} {f : α → List K} {n : Nat} (hl : l ≠ [])
    (h : ∀ x ∈ l, (f x).length = n) : sumBlocks l.length (l.flatMap f) = some (l.map fun x => (f x).sum) := by
  have hpos : 0 < l.length := List.length_pos_iff.2 hl
  have hlen : (l.flatMap f).length = n * l.length := length_flatMap_block h
  have hdiv : (l.flatMap f).length / l.length = n := by rw [hlen, Nat.mul_div_cancel _ hpos]
  unfold sumBlocks
  rw [if_neg (by rw [hdiv, hlen]; push Not; exact ⟨by omega, Nat.mul_comm _ _⟩), hdiv]
  congr 1
  apply List.ext_getElem?
  intro i
  by_cases hi : i < l.length
  · rw [List.getElem?_map, List.getElem?_range hi, List.getElem?_map, List.getElem?_eq_getElem hi, Option.map_some,
      Option.map_some, sum_drop_take h (List.getElem?_eq_getElem hi)]
  · rw [List.getElem?_eq_none (by simp; omega), List.getElem?_eq_none (by simp; omega)]

theorem binet {F : Frame} (h : cross F.i F.j = F.k) (u v : V3 ℝ) :
    dot F.k (cross u v) = dot F.i u * dot F.j v - dot F.i v * dot F.j u := by
  rw [← h]; simp only [dot, cross]; ring

/-- The triangle of local coordinates has the area seen along the normal of the frame. -/
theorem area_local {F : Frame} (h : cross F.i F.j = F.k) (c a b d : V3 ℝ) :
    areaTri (⟨⟨dot F.i (a - c), dot F.j (a - c)⟩, ⟨dot F.i (b - c), dot F.j (b - c)⟩, ⟨dot F.i (d - c), dot F.j (d - c)⟩⟩ : Tri ℝ) =
      seenArea F.k (a, b, d) := by
  simp only [seenArea]
  rw [binet h]
  simp only [areaTri, triArea2, dot, sub_x, sub_y, sub_z]; ring

theorem three_of_length {α : Type} {l : List α} (h : l.length = 3) : ∃ a b c, l = [a, b, c] := by
  match l, h with
  | [a, b, c], _ => exact ⟨a, b, c, rfl⟩

theorem getD_map_lt {α β : Type} {l : List α} {f : α → β} {q : Nat} {z : β} {y : α} (h : q < l.length) :
    (l.map f).getD q z = f (l.getD q y) := by
  simp [List.getD_eq_getElem?_getD, List.getElem?_eq_getElem h]

/-! ## C71: areas -/

/-- **C71** the area of a cell is the sum of the areas of the triangles of its map, seen along the third axis of the frame of the
cell. -/
theorem C71_areas {coords : List (V3 ℝ)} {topo : Topo} {Fs : List Frame} {trimap : List (List Nat)} {pts : List (List (V3 ℝ))}
    (hp : topo.mapM (fun row => row.mapM fun n => coords[n]?) = some pts) (hne : topo ≠ []) (hF : Fs.length = topo.length)
    (hI : ∀ F ∈ Fs, IsFrame F) (h3 : ∀ t ∈ trimap, t.length = 3)
    (hin : ∀ row ∈ topo, ∀ t ∈ trimap, ∀ q ∈ t, q < row.length) :
    ∃ A, areas2d coords topo Fs trimap = some A ∧ A.length = topo.length ∧
      ∀ (e : Nat) (P : List (V3 ℝ)) (F : Frame), pts[e]? = some P → Fs[e]? = some F →
        A[e]? = some ((cutTris trimap P).map (seenArea F.k)).sum := by
  obtain ⟨ec, h1, h2, h4⟩ := localCoordinates_spec hp hF
  have hpl := mapM_length hp
  have hrow : ∀ (e : Nat) (P : List (V3 ℝ)), pts[e]? = some P → ∀ t ∈ trimap, ∀ q ∈ t, q < P.length := by
    intro e P hP t ht q hq
    have he : e < topo.length := by rw [← hpl]; exact (List.getElem?_eq_some_iff.1 hP).1
    have := mapM_get hp (List.getElem?_eq_getElem he)
    obtain ⟨y, hy, hy'⟩ := this
    rw [hP] at hy'
    obtain rfl := Option.some.inj hy'
    rw [mapM_length hy]
    exact hin _ (List.getElem_mem he) t ht q hq
  have hec : ∀ x ∈ ec, ∃ (e : Nat) (P : List (V3 ℝ)) (F : Frame), pts[e]? = some P ∧ Fs[e]? = some F ∧ x = P.map fun p => trPoint F (p - centroid P) := by
    intro x hx
    obtain ⟨e, he, rfl⟩ := List.getElem_of_mem hx
    have he1 : e < pts.length := by omega
    have he2 : e < Fs.length := by omega
    refine ⟨e, pts[e], Fs[e], List.getElem?_eq_getElem he1, List.getElem?_eq_getElem he2, ?_⟩
    have := h4 e _ _ (List.getElem?_eq_getElem he1) (List.getElem?_eq_getElem he2)
    rw [List.getElem?_eq_getElem he] at this
    exact Option.some.inj this
  have hok : PathOK ec trimap 3 := by
    refine ⟨h3, fun x hx t ht q hq => ?_⟩
    obtain ⟨e, P, F, hP, -, rfl⟩ := hec x hx
    rw [List.length_map]
    exact hrow e P hP t ht q hq
  let g : List (V3 ℝ) → List ℝ := fun x => trimap.map fun t =>
    areaTri (⟨⟨(x.getD (t.getD 0 0) 0).x, (x.getD (t.getD 0 0) 0).y⟩, ⟨(x.getD (t.getD 1 0) 0).x, (x.getD (t.getD 1 0) 0).y⟩,
      ⟨(x.getD (t.getD 2 0) 0).x, (x.getD (t.getD 2 0) 0).y⟩⟩ : Tri ℝ)
  have hmap : (transformed ec trimap (0 : V3 ℝ)).mapM triOfRow = some (ec.flatMap fun x => trimap.map fun t =>
      (⟨⟨(x.getD (t.getD 0 0) 0).x, (x.getD (t.getD 0 0) 0).y⟩, ⟨(x.getD (t.getD 1 0) 0).x, (x.getD (t.getD 1 0) 0).y⟩,
      ⟨(x.getD (t.getD 2 0) 0).x, (x.getD (t.getD 2 0) 0).y⟩⟩ : Tri ℝ)) := by
    have : transformed ec trimap (0 : V3 ℝ) = ec.flatMap fun x => trimap.map fun t => t.map fun q => x.getD q 0 := rfl
    rw [this]
    rw [mapM_some (g := fun r : List (V3 ℝ) => (⟨⟨(r.getD 0 0).x, (r.getD 0 0).y⟩, ⟨(r.getD 1 0).x, (r.getD 1 0).y⟩,
      ⟨(r.getD 2 0).x, (r.getD 2 0).y⟩⟩ : Tri ℝ))]
    · congr 1
      rw [List.map_flatMap]
      apply List.flatMap_congr
      intro x _
      rw [List.map_map]
      apply List.map_congr_left
      intro t ht
      obtain ⟨a, b, c, rfl⟩ := three_of_length (h3 t ht)
      rfl
    · intro r hr
      obtain ⟨x, -, hx⟩ := List.mem_flatMap.1 hr
      obtain ⟨t, ht, rfl⟩ := List.mem_map.1 hx
      obtain ⟨a, b, c, rfl⟩ := three_of_length (h3 t ht)
      rfl
  have hecne : ec ≠ [] := by
    intro h; rw [h] at h2; exact hne (List.length_eq_zero_iff.1 h2.symm)
  refine ⟨ec.map fun x => (g x).sum, ?_, by simp [h2], ?_⟩
  · simp only [areas2d, h1, Option.bind_some, triangulate_eq hok, hmap, areaTriBulk, ← h2]
    rw [List.map_map, List.map_flatMap]
    rw [← sumBlocks_flatMap (f := g) (n := trimap.length) hecne fun x _ => by simp [g]]
    congr 1
    apply List.flatMap_congr
    intro x _
    rw [List.map_map]; rfl
  · intro e P F hP hF'
    rw [List.getElem?_map, h4 e P F hP hF', Option.map_some]
    congr 1
    simp only [g, cutTris, List.map_map]
    congr 1
    apply List.map_congr_left
    intro t ht
    obtain ⟨a, b, c, rfl⟩ := three_of_length (h3 t ht)
    have hq := hrow e P hP _ ht
    have ha := hq a (by simp)
    have hb := hq b (by simp)
    have hc := hq c (by simp)
    simp only [List.getD_cons_zero, List.getD_cons_succ, Function.comp_apply]
    rw [getD_map_lt (y := 0) ha, getD_map_lt (y := 0) hb, getD_map_lt (y := 0) hc]
    exact area_local (hI F (List.mem_of_getElem? hF')).right _ _ _ _

/-- **C71** if the cell is flat, the frame normal to it and its triangles turn counterclockwise around the normal, then this is
the sum of the areas of the triangles. -/
theorem C71_flat {n : V3 ℝ} (hn : dot n n = 1) {ts : List (V3 ℝ × V3 ℝ × V3 ℝ)} (h : ∀ t ∈ ts, LiesFlat n t) :
    (ts.map (seenArea n)).sum = (ts.map spaceArea).sum := by
  congr 1
  apply List.map_congr_left
  intro t ht
  obtain ⟨h1, h2, h3⟩ := h t ht
  unfold seenArea spaceArea
  generalize t.2.1 - t.1 = u at *
  generalize t.2.2 - t.1 = v at *
  have hc : cross n (cross u v) = 0 := by
    have e : cross n (cross u v) = (dot n v) • u - (dot n u) • v := by
      ext <;> simp only [cross, dot, sub_x, sub_y, sub_z, smul_x, smul_y, smul_z] <;> ring
    rw [e, h1, h2]; ext <;> simp
  have hs : dot (cross u v) (cross u v) = dot n (cross u v) ^ 2 := by
    have := lagrange n (cross u v)
    rw [hc, hn] at this
    have h0 : dot (0 : V3 ℝ) 0 = 0 := by simp [dot]
    rw [h0] at this
    linarith
  rw [hs, Real.sqrt_sq h3]

/-- A warped or oblique cell is never seen larger than it is. -/
theorem C71_at_most {n : V3 ℝ} (hn : dot n n = 1) (t : V3 ℝ × V3 ℝ × V3 ℝ) : |seenArea n t| ≤ spaceArea t := by
  unfold seenArea spaceArea
  generalize cross (t.2.1 - t.1) (t.2.2 - t.1) = w
  rw [abs_div, abs_of_pos (by norm_num : (0 : ℝ) < 2)]
  gcongr
  apply Real.abs_le_sqrt
  have := dot_cross_nonneg n w
  rw [hn] at this
  linarith

/-! ## the maps of the cells -/

/-- **C71** the triangles of the maps have the area enclosed by the sides of the cell in the plane of its frame: what lies
inside of the cell (the middle node of the Q9) has no effect. -/
theorem C71_outline {F : Frame} (hF : IsFrame F) (P : List (V3 ℝ)) :
    ((cutTris trimapT3 P).map (seenArea F.k)).sum = polyArea2 (outline F [0, 1, 2] P) / 2 ∧
    ((cutTris (trimapT6 true) P).map (seenArea F.k)).sum = polyArea2 (outline F [0, 3, 1, 4, 2, 5] P) / 2 ∧
    ((cutTris trimapQ4 P).map (seenArea F.k)).sum = polyArea2 (outline F [0, 1, 2, 3] P) / 2 ∧
    ((cutTris trimapQ9 P).map (seenArea F.k)).sum = polyArea2 (outline F [0, 4, 1, 5, 2, 6, 3, 7] P) / 2 := by
  have h := hF.right
  refine ⟨?_, ?_, ?_, ?_⟩ <;>
  · rw [polyArea2_eq]
    simp only [trimapT3, trimapT6, trimapQ4, trimapQ9, cutTris, if_true, List.map_cons, List.map_nil, List.getD_cons_zero,
      List.getD_cons_succ, List.sum_cons, List.sum_nil, seenArea, binet h, outline, sides, List.rotate_cons_succ, List.rotate_zero,
      List.zip_cons_cons, List.zip_nil_right, List.cons_append, List.nil_append, inPlane]
    simp only [dot, sub_x, sub_y, sub_z]
    ring

/-- The area enclosed by the sides, swept from any point (specification of C33). -/
theorem C71_swept (F : Frame) (b : List Nat) (P : List (V3 ℝ)) (o : P2 ℝ) :
    polyArea2 (outline F b P) = swept o (outline F b P) := (swept_eq o _).symm

/-- Maps of the cells: three nodes, all of them of the cell. -/
theorem C71_maps : (∀ t ∈ trimapT3, t.length = 3 ∧ ∀ q ∈ t, q < 3) ∧ (∀ t ∈ trimapT6 true, t.length = 3 ∧ ∀ q ∈ t, q < 6) ∧
    (∀ t ∈ trimapQ4, t.length = 3 ∧ ∀ q ∈ t, q < 4) ∧ (∀ t ∈ trimapQ9, t.length = 3 ∧ ∀ q ∈ t, q < 9) := by decide

/-! ## triangles -/

/-- `Triangle.areas` agrees with the general method. -/
theorem C71_T3_agree {coords : List (V3 ℝ)} {topo : Topo} {Fs : List Frame} {pts : List (List (V3 ℝ))}
    (hp : topo.mapM (fun row => row.mapM fun n => coords[n]?) = some pts) (hne : topo ≠ []) (hF : Fs.length = topo.length)
    (h3 : ∀ row ∈ topo, row.length = 3) : areasT3 coords topo Fs = areas2d coords topo Fs trimapT3 := by
  obtain ⟨ec, h1, h2, h4⟩ := localCoordinates_spec hp hF
  have hpl := mapM_length hp
  have hec : ∀ x ∈ ec, x.length = 3 := by
    intro x hx
    obtain ⟨e, he, rfl⟩ := List.getElem_of_mem hx
    have he1 : e < pts.length := by omega
    have he2 : e < Fs.length := by omega
    have he3 : e < topo.length := by omega
    have := h4 e _ _ (List.getElem?_eq_getElem he1) (List.getElem?_eq_getElem he2)
    rw [List.getElem?_eq_getElem he] at this
    rw [Option.some.inj this, List.length_map]
    obtain ⟨y, hy, hy'⟩ := mapM_get hp (List.getElem?_eq_getElem he3)
    rw [List.getElem?_eq_getElem he1] at hy'
    rw [Option.some.inj hy', mapM_length hy]
    exact h3 _ (List.getElem_mem he3)
  have hok : PathOK ec trimapT3 3 := by
    refine ⟨by decide, fun x hx t ht q hq => ?_⟩
    rw [hec x hx]
    exact (C71_maps.1 t ht).2 q hq
  have htr : transformed ec trimapT3 (0 : V3 ℝ) = ec := by
    unfold transformed trimapT3
    conv_rhs => rw [← List.flatMap_singleton' ec]
    apply List.flatMap_congr
    intro x hx
    obtain ⟨a, b, c, rfl⟩ := three_of_length (hec x hx)
    rfl
  have hts : ∃ ts, ec.mapM triOfRow = some ts := by
    refine ⟨_, mapM_some (g := fun r : List (V3 ℝ) => (⟨⟨(r.getD 0 0).x, (r.getD 0 0).y⟩, ⟨(r.getD 1 0).x, (r.getD 1 0).y⟩,
      ⟨(r.getD 2 0).x, (r.getD 2 0).y⟩⟩ : Tri ℝ)) ?_⟩
    intro r hr
    obtain ⟨a, b, c, rfl⟩ := three_of_length (hec r hr)
    rfl
  obtain ⟨ts, hts⟩ := hts
  have hl : ts.length = topo.length := by rw [mapM_length hts, h2]
  simp only [areasT3, areas2d, h1, Option.bind_some, triangulate_eq hok, htr, hts, Option.map_some]
  have hne' : areaTriBulk ts ≠ [] := by
    intro h
    have := congrArg List.length h
    simp only [areaTriBulk, List.length_map, List.length_nil] at this
    exact hne (List.length_eq_zero_iff.1 (hl.symm.trans this))
  have := sumBlocks_flatMap (l := areaTriBulk ts) (f := fun x => [x]) (n := 1) hne' fun _ _ => rfl
  rw [List.flatMap_singleton'] at this
  have hl' : (areaTriBulk ts).length = topo.length := by simp [areaTriBulk, hl]
  rw [hl'] at this
  rw [this]
  simp

/-- **C71** triangles with the frames of the library (`frames_of_surfaces`): the areas are the areas of the triangles. -/
theorem C71_surfaces {coords : List (V3 ℝ)} {topo : Topo} (hne : topo ≠ []) (h : ∀ row ∈ topo, ∃ a b c, row = [a, b, c])
    {T : List Nat → V3 ℝ × V3 ℝ × V3 ℝ}
    (hT : ∀ row ∈ topo, ∀ a b c, row = [a, b, c] → coords[a]? = some (T row).1 ∧ coords[b]? = some (T row).2.1 ∧
      coords[c]? = some (T row).2.2)
    (hd : ∀ row ∈ topo, cross ((T row).2.1 - (T row).1) ((T row).2.2 - (T row).1) ≠ 0) :
    ∃ Fs A, framesOfSurfaces coords topo = some Fs ∧ areasT3 coords topo Fs = some A ∧ A.length = topo.length ∧
      ∀ (e : Nat) (row : List Nat), topo[e]? = some row → A[e]? = some (spaceArea (T row)) ∧ 0 < spaceArea (T row) := by
  obtain ⟨Fs, f1, f2, f3⟩ := C31_surfaces (coords := coords) (topo := topo)
    (ev := fun row => ((T row).2.1 - (T row).1, (T row).2.2 - (T row).1)) (by
      intro row hr
      obtain ⟨a, b, c, hrow⟩ := h row hr
      obtain ⟨h1, h2, h3⟩ := hT row hr a b c hrow
      exact ⟨⟨a, b, c, _, _, _, by rw [hrow]; rfl, by rw [hrow]; rfl, by rw [hrow]; rfl, h1, h2, h3, rfl, rfl⟩, hd row hr⟩)
  have hp : topo.mapM (fun row => row.mapM fun n => coords[n]?) =
      some (topo.map fun row => [(T row).1, (T row).2.1, (T row).2.2]) := by
    apply mapM_some
    intro row hr
    obtain ⟨a, b, c, hrow⟩ := h row hr
    obtain ⟨h1, h2, h3⟩ := hT row hr a b c hrow
    conv_lhs => rw [hrow]
    simp [h1, h2, h3]
  have h3 : ∀ row ∈ topo, row.length = 3 := by
    intro row hr
    obtain ⟨a, b, c, rfl⟩ := h row hr
    rfl
  have hI : ∀ F ∈ Fs, IsFrame F := by
    intro F hF
    obtain ⟨c, hc, rfl⟩ := List.getElem_of_mem hF
    exact (f3 c topo[c] Fs[c] (List.getElem?_eq_getElem (by omega)) (List.getElem?_eq_getElem hc)).1
  obtain ⟨A, a1, a2, a3⟩ := C71_areas (trimap := trimapT3) hp hne f2 hI (by decide) (by
    intro row hr t ht q hq
    rw [h3 row hr]
    exact (C71_maps.1 t ht).2 q hq)
  refine ⟨Fs, A, f1, by rw [C71_T3_agree hp hne f2 h3, a1], a2, fun e row hrow => ?_⟩
  have he := (List.getElem?_eq_some_iff.1 hrow).1
  have hFe := List.getElem?_eq_getElem (l := Fs) (i := e) (by omega)
  obtain ⟨g1, g2, c, hc, g3⟩ := f3 e row _ hrow hFe
  have := a3 e [(T row).1, (T row).2.1, (T row).2.2] Fs[e] (by rw [List.getElem?_map, hrow]; rfl) hFe
  have hm := List.mem_of_getElem? hrow
  constructor
  · rw [this]
    congr 1
    have hfl := C71_flat (n := Fs[e].k) g1.kk (ts := [T row]) (by
      intro t ht
      rw [List.mem_singleton] at ht
      subst ht
      refine ⟨?_, ?_, ?_⟩
      · rw [g3]; simp only [dot, cross, smul_x, smul_y, smul_z]; ring
      · rw [g3]; simp only [dot, cross, smul_x, smul_y, smul_z]; ring
      · rw [g3]
        have : ∀ w : V3 ℝ, dot (c • w) w = c * dot w w := by
          intro w; simp only [dot, smul_x, smul_y, smul_z]; ring
        simp only
        rw [this]
        exact mul_nonneg hc.le (dot_self_nonneg _))
    simp only [List.map_cons, List.map_nil, List.sum_cons, List.sum_nil, add_zero] at hfl
    rw [← hfl]
    simp [cutTris, trimapT3]
  · unfold spaceArea
    have : 0 < dot (cross ((T row).2.1 - (T row).1) ((T row).2.2 - (T row).1)) (cross ((T row).2.1 - (T row).1) ((T row).2.2 - (T row).1)) :=
      dot_self_pos (hd row hm)
    positivity

/-! ## order of the parallel loop -/

/-- **C71** the order of the writes has no effect. -/
theorem C71_order {α : Type} {ec : List (List α)} {trimap : List (List Nat)} {n : Nat} (h : PathOK ec trimap n) (zero : α)
    {w : List ((Nat × Nat) × Option α)} (hw : (triangulateWrites ec trimap n).Perm w) :
    triangulateRun ec trimap n zero w = triangulateCellCoords ec trimap n zero := by
  rw [triangulate_eq h]
  exact transformResult_eq h zero fun x => by rw [← hw.mem_iff]; exact mem_triangulateWrites

/-- The coordinates are cut like the topology: both give the same triangles (`to_triangles` and `areas`). -/
theorem C71_like_topology {ec : List (List (V3 ℝ))} {trimap : List (List Nat)} (h : PathOK ec trimap 3) :
    triangulateCellCoords ec trimap 3 0 = transformTopology ec trimap 3 0 := by
  rw [triangulate_eq h]
  exact (transformResult_eq h _ fun _ => mem_transformWrites).symm

/-! ## frames -/

/-- **C71** one frame is that of all cells; otherwise each cell has its own. -/
theorem C71_frames (n : Nat) (Fs : List Frame) :
    (∀ F, Fs = [F] → storedFrames n Fs = some (List.replicate n F)) ∧
    (Fs.length ≠ 1 → Fs.length = n → storedFrames n Fs = some Fs) ∧
    (Fs.length ≠ 1 → Fs.length ≠ n → storedFrames n Fs = none) := by
  refine ⟨fun F h => by rw [h]; rfl, fun h1 h2 => ?_, fun h1 h2 => ?_⟩ <;>
  · unfold storedFrames
    split
    · simp at h1
    · simp [h2]

/-! ## volumes -/

theorem mulArr_get {a b : List ℝ} (h : a.length = b.length) : ∃ c, mulArr a b = some c ∧ c.length = a.length ∧
    ∀ (i : Nat) (x y : ℝ), a[i]? = some x → b[i]? = some y → c[i]? = some (x * y) := by
  refine ⟨_, by unfold mulArr; rw [if_pos h], by simp [h], fun i x y hx hy => ?_⟩
  rw [List.getElem?_map, (List.getElem?_zip_eq_some (z := (x, y))).2 ⟨hx, hy⟩]
  rfl

/-- **C71** volumes of surfaces: area times thickness; the thickness is 1 unless it is set. -/
theorem C71_volumes {coords : List (V3 ℝ)} {topo : Topo} {Fs : List Frame} {trimap : List (List Nat)} {A : List ℝ}
    (hA : areas2d coords topo Fs trimap = some A) (hl : A.length = topo.length) :
    volumes2d coords topo Fs trimap none = some A ∧
    ∀ t : List ℝ, t.length = topo.length → ∃ V, volumes2d coords topo Fs trimap (some t) = some V ∧ V.length = topo.length ∧
      ∀ (i : Nat) (x y : ℝ), A[i]? = some x → t[i]? = some y → V[i]? = some (x * y) := by
  constructor
  · simp only [volumes2d, hA, Option.bind_some, fieldOrOnes]
    obtain ⟨c, h1, h2, h3⟩ := mulArr_get (a := A) (b := List.replicate topo.length (1 : ℝ)) (by simp [hl])
    rw [h1]
    congr 1
    apply List.ext_getElem?
    intro i
    by_cases hi : i < A.length
    · rw [h3 i A[i] 1 (List.getElem?_eq_getElem hi) (by rw [List.getElem?_replicate, if_pos (by omega)]),
        List.getElem?_eq_getElem hi, mul_one]
    · rw [List.getElem?_eq_none (by omega), List.getElem?_eq_none (by omega)]
  · intro t ht
    obtain ⟨c, h1, h2, h3⟩ := mulArr_get (a := A) (b := t) (by omega)
    exact ⟨c, by simp [volumes2d, hA, fieldOrOnes, h1], by omega, h3⟩

/-- **C71** volumes of lines: distance of the ends times the area of the section, which is 1 unless it is set. -/
theorem C71_lines {coords : List (V3 ℝ)} {topo : Topo} (hne : ∀ r ∈ topo, r ≠ []) (hr : ∀ r ∈ topo, ∀ n ∈ r, n < coords.length)
    (areas : Option (List ℝ)) (ha : ∀ a, areas = some a → a.length = topo.length) :
    ∃ V, volumes1d coords topo areas = some V ∧ V.length = topo.length ∧
      ∀ (i : Nat) (r : List Nat) (a b : Nat) (p q : V3 ℝ) (s : ℝ), topo[i]? = some r → r.head? = some a → r.getLast? = some b →
        coords[a]? = some p → coords[b]? = some q → ((areas = none ∧ s = 1) ∨ ∃ l, areas = some l ∧ l[i]? = some s) →
        V[i]? = some (Real.sqrt ((q.x - p.x) ^ 2 + (q.y - p.y) ^ 2 + (q.z - p.z) ^ 2) * s) := by
  obtain ⟨L, h1, h2, h3⟩ := C58_lengths hne hr
  have hl : L.length = (fieldOrOnes topo.length areas).length := by
    cases areas with
    | none => simp [fieldOrOnes, h2]
    | some l => simp [fieldOrOnes, h2, ha l rfl]
  obtain ⟨c, h4, h5, h6⟩ := mulArr_get hl
  refine ⟨c, by simp [volumes1d, h1, h4], by omega, fun i r a b p q s hi hra hrb hp hq hs => ?_⟩
  refine h6 i _ s (h3 i r a b p q hi hra hrb hp hq) ?_
  have hi' := (List.getElem?_eq_some_iff.1 hi).1
  rcases hs with ⟨rfl, rfl⟩ | ⟨l, rfl, hls⟩
  · simp [fieldOrOnes, hi']
  · exact hls

/-! ## what does not hold -/

/-- (negation) The areas of the cells are not the areas if the frames are those of a mesh by default (the frame of the mesh for
each cell, polydata.py 279-280): an upright triangle has area 0. -/
theorem C71_default_false : ¬ ∀ (coords : List (V3 ℝ)) (a b c : V3 ℝ), coords = [a, b, c] →
    cross (b - a) (c - a) ≠ 0 → areasT3 coords [[0, 1, 2]] [globalFrame] = some [spaceArea (a, b, c)] := by
  intro h
  have := h _ ⟨0, 0, 0⟩ ⟨1, 0, 0⟩ ⟨0, 0, 1⟩ rfl (by
    intro h0
    have := congrArg V3.y h0
    simp [cross] at this)
  simp [areasT3, localCoordinates, pointsOfCellsAx, cellsCoordsTr, centralizeEcoords, trPoint, triOfRow, areaTriBulk, triArea2,
    globalFrame, dot, spaceArea, cross, centroid] at this

/-- (negation) The area of a clockwise triangle is negative. -/
theorem C71_clockwise_false : ¬ ∀ (coords : List (V3 ℝ)) (A : List ℝ), areasT3 coords [[0, 1, 2]] [globalFrame] = some A →
    ∀ x ∈ A, 0 ≤ x := by
  intro h
  have := h [⟨0, 0, 0⟩, ⟨0, 1, 0⟩, ⟨1, 0, 0⟩] [-1 / 2] (by
    simp [areasT3, localCoordinates, pointsOfCellsAx, cellsCoordsTr, centralizeEcoords, trPoint, triOfRow, areaTriBulk, triArea2,
      globalFrame, dot, centroid]
    norm_num) _ List.mem_cons_self
  norm_num at this

/-- (negation) A block without cells has no areas: the general method divides by zero (the one of the triangle does not). -/
theorem C71_empty_false (coords : List (V3 ℝ)) (trimap : List (List Nat)) :
    areas2d coords [] [] trimap = none ∧ areasT3 coords [] [] = some [] := by
  constructor
  · simp [areas2d, localCoordinates, pointsOfCellsAx, cellsCoordsTr, centralizeEcoords, triangulateCellCoords, triangulateRun,
      transformResult, toRows, sumBlocks]
  · simp [areasT3, localCoordinates, pointsOfCellsAx, cellsCoordsTr, centralizeEcoords, areaTriBulk]

/-- A trapezium of area 3, in the frame of the mesh and in one turned upside down. -/
example : areas2d [⟨0, 0, 5⟩, ⟨4, 0, 5⟩, ⟨2, 1, 5⟩, ⟨0, 1, 5⟩] [[0, 1, 2, 3]] [globalFrame] trimapQ4 = some [3] ∧
    areas2d [⟨0, 0, 5⟩, ⟨4, 0, 5⟩, ⟨2, 1, 5⟩, ⟨0, 1, 5⟩] [[0, 1, 2, 3]] [⟨⟨1, 0, 0⟩, ⟨0, -1, 0⟩, ⟨0, 0, -1⟩⟩] trimapQ4 = some [-3] := by
  have hI : IsFrame ⟨⟨1, 0, 0⟩, ⟨0, -1, 0⟩, ⟨0, 0, -1⟩⟩ := by constructor <;> simp [dot, cross]
  constructor
  · obtain ⟨A, h1, h2, h3⟩ := C71_areas (coords := [⟨0, 0, 5⟩, ⟨4, 0, 5⟩, ⟨2, 1, 5⟩, ⟨0, 1, 5⟩]) (topo := [[0, 1, 2, 3]]) (Fs := [globalFrame]) (trimap := trimapQ4)
      (pts := [[⟨0, 0, 5⟩, ⟨4, 0, 5⟩, ⟨2, 1, 5⟩, ⟨0, 1, 5⟩]]) (by simp) (by simp) rfl (by simpa using globalFrame_isFrame) (by decide) (by decide)
    have := h3 0 _ _ rfl rfl
    rw [(C71_outline globalFrame_isFrame _).2.2.1] at this
    rw [h1]
    match A, h2 with
    | [a], _ =>
      simp [polyArea2_eq, outline, sides, inPlane, globalFrame, dot] at this
      rw [this]; norm_num
  · obtain ⟨A, h1, h2, h3⟩ := C71_areas (coords := [⟨0, 0, 5⟩, ⟨4, 0, 5⟩, ⟨2, 1, 5⟩, ⟨0, 1, 5⟩]) (topo := [[0, 1, 2, 3]]) (Fs := [⟨⟨1, 0, 0⟩, ⟨0, -1, 0⟩, ⟨0, 0, -1⟩⟩]) (trimap := trimapQ4)
      (pts := [[⟨0, 0, 5⟩, ⟨4, 0, 5⟩, ⟨2, 1, 5⟩, ⟨0, 1, 5⟩]]) (by simp) (by simp) rfl (by simpa using hI) (by decide) (by decide)
    have := h3 0 _ _ rfl rfl
    rw [(C71_outline hI _).2.2.1] at this
    rw [h1]
    match A, h2 with
    | [a], _ =>
      simp [polyArea2_eq, outline, sides, inPlane, dot] at this
      rw [this]; norm_num

/-- Hypotheses of `C71_surfaces`. -/
example : cross ((⟨1, 0, 0⟩ : V3 ℝ) - ⟨0, 0, 0⟩) (⟨0, 0, 1⟩ - ⟨0, 0, 0⟩) ≠ 0 := by
  intro h
  have := congrArg V3.y h
  simp [cross] at this

end PM
