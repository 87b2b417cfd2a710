import Verif.PropsGridFaces
import Verif.PropsVolQ
import Verif.PropsAreas

/-!
# C100: volumes and areas of grids

The points of the cells of `gridH8`, `gridH27`, `gridQ4`, `gridQ9`, handed to the methods that compute volumes and areas.
-/

namespace PM

open V3

theorem mapM_of_get {α β : Type} {f : α → Option β} {l : List α} {r : List β} (hl : l.length = r.length)
    (h : ∀ (i : Nat) (a : α) (b : β), l[i]? = some a → r[i]? = some b → f a = some b) : l.mapM f = some r := by
  rw [mapM_eq_some_iff, List.forall₂_iff_get]
  refine ⟨hl, fun i h1 h2 => ?_⟩
  exact h i _ _ (List.getElem?_eq_getElem h1) (List.getElem?_eq_getElem h2)

section
variable {K : Type} [Field K]

/-- A row of the coordinates of `grid` as a point, plane grids with a third coordinate 0. -/
def rowPt (r : List K) : V3 K := ⟨r.getD 0 0, r.getD 1 0, r.getD 2 0⟩

/-- The points of the cells, `coords[topo]`. -/
def gridCellPoints (C : List (List K)) (T : Topo) : Option (List (List (V3 K))) := T.mapM fun row => row.mapM fun n => (C.map rowPt)[n]?

/-- The points of one cell of a grid. -/
theorem rowPoints {lc : List (V3 Int)} {C : List (List K)} {row : List Int} (hlen : row.length = lc.length) (g : V3 Int → V3 K)
    (h : ∀ n, n < lc.length → ∃ node : Nat, row[n]? = some (node : Int) ∧ ∃ r, C[node]? = some r ∧ rowPt r = g (lc.getD n 0)) :
    (row.map Int.toNat).mapM (fun n => (C.map rowPt)[n]?) = some (lc.map g) := by
  apply mapM_of_get (by simpa using hlen)
  intro i a b ha hb
  have hi : i < lc.length := by simpa using (List.getElem?_eq_some_iff.1 hb).1
  obtain ⟨node, h1, r, h2, h3⟩ := h i hi
  rw [List.getElem?_map, h1] at ha
  simp only [Option.map_some, Int.toNat_natCast, Option.some.injEq] at ha
  subst ha
  rw [List.getElem?_map, h2, Option.map_some, h3]
  rw [List.getElem?_map, List.getElem?_eq_getElem hi, Option.map_some] at hb
  rw [← hb, List.getD_eq_getElem?_getD, List.getElem?_eq_getElem hi]
  rfl

/-- The points of the cells of a grid in space. -/
theorem cellPoints3 {lc : List (V3 Int)} {ax ay az : Axis K} {C : List (List K)} {T : List (List Int)} (h : VtkGrid3 lc ax ay az 0 C T) :
    gridCellPoints C (asTopo T) = some ((latCells ax.n ay.n az.n).map fun p => lc.map fun v =>
      (boxAff (ax.b p.1) (ax.b (p.1 + 1)) (ay.b p.2.1) (ay.b (p.2.1 + 1)) (az.b p.2.2) (az.b (p.2.2 + 1))).app (half v)) := by
  obtain ⟨h1, h2, h3⟩ := h
  have hL : (latCells ax.n ay.n az.n).length = ax.n * ay.n * az.n := by
    simp [latCells, List.length_flatMap, Nat.mul_assoc]
  apply mapM_of_get (by simp [asTopo, h1, hL])
  intro e a b ha hb
  have he : e < ax.n * ay.n * az.n := by
    have := (List.getElem?_eq_some_iff.1 ha).1
    simpa [asTopo, h1] using this
  obtain ⟨xs, hw, rfl⟩ := lexNo_surj (ds := [ax.n, ay.n, az.n]) (by simpa [Nat.mul_assoc] using he)
  have := gridL_get hw fun is => (lc.map fun v => (boxAff (ax.b (is.getD 0 0)) (ax.b (is.getD 0 0 + 1)) (ay.b (is.getD 1 0))
    (ay.b (is.getD 1 0 + 1)) (az.b (is.getD 2 0)) (az.b (is.getD 2 0 + 1))).app (half v))
  rw [gridL3] at this
  obtain ⟨i, j, k, rfl, hi, hj, hk⟩ := within3.1 hw
  have hb' : some b = some _ := hb.symm.trans this
  obtain rfl := Option.some.inj hb'
  have hno : lexNo [i, j, k] [ax.n, ay.n, az.n] = (i * ay.n + j) * az.n + k := by simp [lexNo]; ring
  rw [hno] at ha
  rw [asTopo, List.getElem?_map, Option.map_eq_some_iff] at ha
  obtain ⟨row, hrow, rfl⟩ := ha
  apply rowPoints (h2 row (List.mem_of_getElem? hrow))
  intro n hn
  obtain ⟨node, g1, P, g2, g3⟩ := h3 i j k n hi hj hk hn
  rw [nodeAt, hrow] at g1
  refine ⟨node, by simpa using g1, _, g3, ?_⟩
  simp only [List.getD_cons_zero, List.getD_cons_succ]
  rw [← g2]
  rfl

/-- The points of the cells of a plane grid. -/
theorem cellPoints2 {lc : List (V3 Int)} {ax ay : Axis K} {C : List (List K)} {T : List (List Int)} (h : VtkGrid2 lc ax ay 0 C T) :
    gridCellPoints C (asTopo T) = some ((latCells2 ax.n ay.n).map fun p => lc.map fun v =>
      (boxAff (ax.b p.1) (ax.b (p.1 + 1)) (ay.b p.2) (ay.b (p.2 + 1)) 0 0).app (half v)) := by
  obtain ⟨h1, h2, h3⟩ := h
  have hL : (latCells2 ax.n ay.n).length = ax.n * ay.n := by
    simp [latCells2, List.length_flatMap]
  apply mapM_of_get (by simp [asTopo, h1, hL])
  intro e a b ha hb
  have he : e < ax.n * ay.n := by
    have := (List.getElem?_eq_some_iff.1 ha).1
    simpa [asTopo, h1] using this
  obtain ⟨xs, hw, rfl⟩ := lexNo_surj (ds := [ax.n, ay.n]) (by simpa using he)
  have := gridL_get hw fun is => (lc.map fun v => (boxAff (ax.b (is.getD 0 0)) (ax.b (is.getD 0 0 + 1)) (ay.b (is.getD 1 0))
    (ay.b (is.getD 1 0 + 1)) 0 0).app (half v))
  rw [gridL2] at this
  obtain ⟨i, j, rfl, hi, hj⟩ := within2.1 hw
  have hb' : some b = some _ := hb.symm.trans this
  obtain rfl := Option.some.inj hb'
  have hno : lexNo [i, j] [ax.n, ay.n] = i * ay.n + j := by simp [lexNo]
  rw [hno] at ha
  rw [asTopo, List.getElem?_map, Option.map_eq_some_iff] at ha
  obtain ⟨row, hrow, rfl⟩ := ha
  apply rowPoints (h2 row (List.mem_of_getElem? hrow))
  intro n hn
  obtain ⟨node, g1, P, g2, g3⟩ := h3 i j n hi hj hn
  rw [nodeAt, hrow] at g1
  refine ⟨node, by simpa using g1, _, g3, ?_⟩
  simp only [List.getD_cons_zero, List.getD_cons_succ]
  have hz : P.z = 0 := by rw [g2]; simp [boxAff, Aff.app]
  rw [← g2]
  ext
  · rfl
  · rfl
  · rw [hz]; rfl

theorem latCells_get {β : Type} (f : Nat × Nat × Nat → β) {a b c i j k : Nat} (hi : i < a) (hj : j < b) (hk : k < c) :
    ((latCells a b c).map f)[(i * b + j) * c + k]? = some (f (i, j, k)) := by
  have := gridL_get (ds := [a, b, c]) (xs := [i, j, k]) (within3.2 ⟨i, j, k, rfl, hi, hj, hk⟩) fun is => f (is.getD 0 0, is.getD 1 0, is.getD 2 0)
  rw [gridL3] at this
  have hno : lexNo [i, j, k] [a, b, c] = (i * b + j) * c + k := by simp [lexNo]; ring
  rw [hno] at this
  exact this

theorem latCells2_get {β : Type} (f : Nat × Nat → β) {a b i j : Nat} (hi : i < a) (hj : j < b) :
    ((latCells2 a b).map f)[i * b + j]? = some (f (i, j)) := by
  have := gridL_get (ds := [a, b]) (xs := [i, j]) (within2.2 ⟨i, j, rfl, hi, hj⟩) fun is => f (is.getD 0 0, is.getD 1 0)
  rw [gridL2] at this
  have hno : lexNo [i, j] [a, b] = i * b + j := by simp [lexNo]
  rw [hno] at this
  exact this

theorem sum_flatMap'' {α : Type} (l : List α) (f : α → List K) : (l.flatMap f).sum = (l.map fun a => (f a).sum).sum := by
  induction l with
  | nil => rfl
  | cons a l ih => simp [ih]

theorem sum_telescope (f : Nat → K) (a : Nat) (x : K) : ((List.range a).map fun i => (f (i + 1) - f i) * x).sum = (f a - f 0) * x := by
  induction a with
  | zero => simp
  | succ n ih => rw [List.range_succ, List.map_append, List.sum_append, ih]; simp; ring

/-- Sum over the cells of a grid of products of widths. -/
theorem sum_widths (f g h : Nat → K) (a b c : Nat) :
    ((latCells a b c).map fun p => (f (p.1 + 1) - f p.1) * (g (p.2.1 + 1) - g p.2.1) * (h (p.2.2 + 1) - h p.2.2)).sum =
      (f a - f 0) * (g b - g 0) * (h c - h 0) := by
  simp only [latCells, List.map_flatMap, List.map_map, sum_flatMap'', Function.comp_def]
  have e1 : ∀ i j : Nat, ((List.range c).map fun k => (f (i + 1) - f i) * (g (j + 1) - g j) * (h (k + 1) - h k)).sum =
      (g (j + 1) - g j) * ((f (i + 1) - f i) * (h c - h 0)) := by
    intro i j
    have := sum_telescope h c ((f (i + 1) - f i) * (g (j + 1) - g j))
    rw [show (g (j + 1) - g j) * ((f (i + 1) - f i) * (h c - h 0)) = (h c - h 0) * ((f (i + 1) - f i) * (g (j + 1) - g j)) by ring, ← this]
    congr 1
    exact List.map_congr_left fun _ _ => by ring
  simp only [e1, sum_telescope]
  have e2 : ∀ i : Nat, (g b - g 0) * ((f (i + 1) - f i) * (h c - h 0)) = (f (i + 1) - f i) * ((g b - g 0) * (h c - h 0)) := fun i => by ring
  simp only [e2, sum_telescope]
  ring

theorem sum_widths2 (f g : Nat → K) (a b : Nat) :
    ((latCells2 a b).map fun p => (f (p.1 + 1) - f p.1) * (g (p.2 + 1) - g p.2)).sum = (f a - f 0) * (g b - g 0) := by
  simp only [latCells2, List.map_flatMap, List.map_map, sum_flatMap'', Function.comp_def]
  have e1 : ∀ i j : Nat, (f (i + 1) - f i) * (g (j + 1) - g j) = (g (j + 1) - g j) * (f (i + 1) - f i) := fun i j => by ring
  simp only [e1, sum_telescope]
  have e2 : ∀ i : Nat, (g b - g 0) * (f (i + 1) - f i) = (f (i + 1) - f i) * (g b - g 0) := fun i => by ring
  simp only [e2, sum_telescope]

theorem gridBox_det [CharZero K] (x0 x1 y0 y1 z0 z1 : K) : (boxAff x0 x1 y0 y1 z0 z1).det = (x1 - x0) * (y1 - y0) * (z1 - z0) / 8 := by
  simp only [boxAff, Aff.det, det3]
  ring

end

/-! ## measures of all cells of a grid -/

/-- The numbers `V` are the volumes of the boxes of a grid in space with cell `(i, j, k)` at `(i * ny + j) * nz + k`, and their
total is the volume of the whole box. -/
structure BoxVolumes {K : Type} [Field K] (x y z : Nat → K) (nx ny nz : Nat) (V : List K) : Prop where
  length : V.length = nx * ny * nz
  cell : ∀ i j k, i < nx → j < ny → k < nz →
    V[(i * ny + j) * nz + k]? = some ((x (i + 1) - x i) * (y (j + 1) - y j) * (z (k + 1) - z k))
  total : V.sum = (x nx - x 0) * (y ny - y 0) * (z nz - z 0)

/-- The same in the plane. -/
structure BoxAreas {K : Type} [Field K] (x y : Nat → K) (nx ny : Nat) (A : List K) : Prop where
  length : A.length = nx * ny
  cell : ∀ i j, i < nx → j < ny → A[i * ny + j]? = some ((x (i + 1) - x i) * (y (j + 1) - y j))
  total : A.sum = (x nx - x 0) * (y ny - y 0)

theorem boxVolumes_list {K : Type} [Field K] (x y z : Nat → K) (nx ny nz : Nat) : BoxVolumes x y z nx ny nz
    ((latCells nx ny nz).map fun p => (x (p.1 + 1) - x p.1) * (y (p.2.1 + 1) - y p.2.1) * (z (p.2.2 + 1) - z p.2.2)) :=
  ⟨by simp [latCells, List.length_flatMap, Nat.mul_assoc], fun _ _ _ hi hj hk => latCells_get _ hi hj hk, sum_widths x y z nx ny nz⟩

theorem boxAreas_list {K : Type} [Field K] (x y : Nat → K) (nx ny : Nat) : BoxAreas x y nx ny
    ((latCells2 nx ny).map fun p => (x (p.1 + 1) - x p.1) * (y (p.2 + 1) - y p.2)) :=
  ⟨by simp [latCells2, List.length_flatMap], fun _ _ hi hj => latCells2_get _ hi hj, sum_widths2 x y nx ny⟩

theorem lineExact_sum {l : List (ℝ × ℝ)} (h : LineExact 0 l) : (l.map fun q => q.2).sum = 2 := by
  have := h 0 le_rfl
  simp only [pow_zero, mul_one] at this
  rw [this]; simp; norm_num

theorem gaussHex_sum (lx ly lz : List (ℝ × ℝ)) : ((gaussHex lx ly lz).map fun q => q.w).sum =
    (lx.map fun q => q.2).sum * (ly.map fun q => q.2).sum * (lz.map fun q => q.2).sum := by
  simp only [gaussHex, List.map_flatMap, List.map_map, sum_flatMap'', Function.comp_def, List.sum_map_mul_left, List.sum_map_mul_right]

/-- The quadrature of hexahedra over the cells of a grid. -/
theorem gridVolumes {lc : List (V3 Int)} {N : List PE} {dN : List (List PE)} (hN : Interpolates ℝ 3 lc N)
    (hd : Derivatives 3 N dN) {lx ly lz : List (ℝ × ℝ)} (h1 : LineExact 0 lx) (h2 : LineExact 0 ly) (h3 : LineExact 0 lz)
    {ax ay az : Axis ℝ} {C : List (List ℝ)} {T : List (List Int)} (h : VtkGrid3 lc ax ay az 0 C T) :
    ∃ pts, gridCellPoints C (asTopo T) = some pts ∧ BoxVolumes ax.b ay.b az.b ax.n ay.n az.n (pts.map (volumeQ dN (gaussHex lx ly lz))) := by
  refine ⟨_, cellPoints3 h, ?_⟩
  convert boxVolumes_list ax.b ay.b az.b ax.n ay.n az.n using 1
  rw [List.map_map]
  apply List.map_congr_left
  intro p _
  simp only [Function.comp_apply]
  rw [C38_affine hN hd, gridBox_det, gaussHex_sum, lineExact_sum h1, lineExact_sum h2, lineExact_sum h3]
  ring

/-- `PolyCell3d.volumes` (by tetrahedra) over the cells of a grid of eight-noded hexahedra. -/
theorem gridTets {K : Type} [Field K] [LinearOrder K] [IsStrictOrderedRing K] {ax ay az : Axis K} {C : List (List K)} {T : List (List Int)}
    (h : VtkGrid3 lcH8 ax ay az 0 C T) (hn : 1 ≤ ax.n ∧ 1 ≤ ay.n ∧ 1 ≤ az.n) (hx : ∀ i, i < ax.n → ax.b i ≤ ax.b (i + 1))
    (hy : ∀ i, i < ay.n → ay.b i ≤ ay.b (i + 1)) (hz : ∀ i, i < az.n → az.b i ≤ az.b (i + 1)) :
    ∃ V, volumes3d .H8 (C.map rowPt) (asTopo T) = some V ∧ BoxVolumes ax.b ay.b az.b ax.n ay.n az.n V := by
  have hT : (asTopo T).length = ax.n * ay.n * az.n := by simp [asTopo, h.1]
  have hpos : 0 < ax.n * ay.n * az.n := by
    have := Nat.mul_pos (Nat.mul_pos hn.1 hn.2.1) hn.2.2
    exact this
  obtain ⟨V, v1, v2, v3⟩ := C89_affine_volumes .H8 pathH8TET4 rfl (C.map rowPt) (asTopo T)
    (by intro e; rw [e] at hT; simp at hT; omega) (by
      intro r hr
      rw [asTopo, List.mem_map] at hr
      obtain ⟨r', hr', rfl⟩ := hr
      rw [List.length_map, h.2.1 r' hr']
      rfl) _ (cellPoints3 h)
  have hV : V = (latCells ax.n ay.n az.n).map fun p =>
      (ax.b (p.1 + 1) - ax.b p.1) * (ay.b (p.2.1 + 1) - ay.b p.2.1) * (az.b (p.2.2 + 1) - az.b p.2.2) := by
    apply List.ext_getElem?
    intro e
    have hL : (latCells ax.n ay.n az.n).length = ax.n * ay.n * az.n := by simp [latCells, List.length_flatMap, Nat.mul_assoc]
    by_cases he : e < ax.n * ay.n * az.n
    · have he' : e < (latCells ax.n ay.n az.n).length := by omega
      have hm : (latCells ax.n ay.n az.n)[e] ∈ latCells ax.n ay.n az.n := List.getElem_mem he'
      rw [List.getElem?_map, List.getElem?_eq_getElem he', Option.map_some]
      generalize hp : (latCells ax.n ay.n az.n)[e] = p at hm
      have := v3 e (boxAff (ax.b p.1) (ax.b (p.1 + 1)) (ay.b p.2.1) (ay.b (p.2.1 + 1)) (az.b p.2.2) (az.b (p.2.2 + 1))) (by
        rw [List.getElem?_map, List.getElem?_eq_getElem he', Option.map_some, hp]; rfl)
      rw [this, gridBox_det]
      obtain ⟨q1, q2, q3⟩ := mem_latCells.1 hm
      have p1 := sub_nonneg.2 (hx _ q1)
      have p2 := sub_nonneg.2 (hy _ q2)
      have p3 := sub_nonneg.2 (hz _ q3)
      rw [abs_of_nonneg (by positivity)]
      simp only [masterVolume]
      congr 1
      push_cast
      ring
    · rw [List.getElem?_eq_none (by omega), List.getElem?_eq_none (by simp; omega)]
  exact ⟨V, v1, hV ▸ boxVolumes_list ax.b ay.b az.b ax.n ay.n az.n⟩

/-- `PolyCell2d.areas` over the cells of a plane grid, with frames standing on the plane. -/
theorem gridAreas {lc : List (V3 Int)} {trimap : List (List Nat)} (h3 : ∀ t ∈ trimap, t.length = 3 ∧ ∀ q ∈ t, q < lc.length)
    (hm : ∀ x0 x1 y0 y1 : ℝ, ((cutTris trimap (lc.map fun v => (boxAff x0 x1 y0 y1 0 0).app (half v))).map (seenArea ⟨0, 0, 1⟩)).sum =
      (x1 - x0) * (y1 - y0))
    {ax ay : Axis ℝ} {C : List (List ℝ)} {T : List (List Int)} (h : VtkGrid2 lc ax ay 0 C T) (hn : 1 ≤ ax.n ∧ 1 ≤ ay.n)
    {Fs : List Frame} (hF : Fs.length = (asTopo T).length) (hI : ∀ F ∈ Fs, IsFrame F ∧ F.k = ⟨0, 0, 1⟩) :
    ∃ A, areas2d (C.map rowPt) (asTopo T) Fs trimap = some A ∧ BoxAreas ax.b ay.b ax.n ay.n A := by
  have hT : (asTopo T).length = ax.n * ay.n := by simp [asTopo, h.1]
  have hpos : 0 < ax.n * ay.n := Nat.mul_pos hn.1 hn.2
  obtain ⟨V, v1, v2, v3⟩ := C71_areas (cellPoints2 h) (by intro e; rw [e] at hT; simp at hT; omega) hF (fun F hf => (hI F hf).1)
    (fun t ht => (h3 t ht).1) (by
      intro r hr
      rw [asTopo, List.mem_map] at hr
      obtain ⟨r', hr', rfl⟩ := hr
      rw [List.length_map, h.2.1 r' hr']
      exact fun t ht => (h3 t ht).2)
  have hV : V = (latCells2 ax.n ay.n).map fun p => (ax.b (p.1 + 1) - ax.b p.1) * (ay.b (p.2 + 1) - ay.b p.2) := by
    apply List.ext_getElem?
    intro e
    have hL : (latCells2 ax.n ay.n).length = ax.n * ay.n := by simp [latCells2, List.length_flatMap]
    by_cases he : e < ax.n * ay.n
    · have he' : e < (latCells2 ax.n ay.n).length := by omega
      have he2 : e < Fs.length := by omega
      rw [List.getElem?_map, List.getElem?_eq_getElem he', Option.map_some]
      rw [v3 e _ _ (by rw [List.getElem?_map, List.getElem?_eq_getElem he', Option.map_some]) (List.getElem?_eq_getElem he2),
        (hI _ (List.getElem_mem he2)).2, hm]
    · rw [List.getElem?_eq_none (by omega), List.getElem?_eq_none (by simp; omega)]
  exact ⟨V, v1, hV ▸ boxAreas_list ax.b ay.b ax.n ay.n⟩

theorem boxTris_Q4 (x0 x1 y0 y1 : ℝ) :
    ((cutTris trimapQ4 (lcQ4.map fun v => (boxAff x0 x1 y0 y1 0 0).app (half v))).map (seenArea ⟨0, 0, 1⟩)).sum = (x1 - x0) * (y1 - y0) := by
  simp only [trimapQ4, cutTris, lcQ4, List.map_cons, List.map_nil, List.getD_cons_zero, List.getD_cons_succ, List.sum_cons, List.sum_nil,
    seenArea, dot, cross, sub_x, sub_y, sub_z, boxAff, Aff.app, half, add_x, add_y, add_z, smul_x, smul_y, smul_z]
  push_cast
  ring

theorem boxTris_Q9 (x0 x1 y0 y1 : ℝ) :
    ((cutTris trimapQ9 (lcQ9.map fun v => (boxAff x0 x1 y0 y1 0 0).app (half v))).map (seenArea ⟨0, 0, 1⟩)).sum = (x1 - x0) * (y1 - y0) := by
  simp only [trimapQ9, cutTris, lcQ9, lcQ8, lcQ4, List.cons_append, List.nil_append, List.map_cons, List.map_nil, List.getD_cons_zero, List.getD_cons_succ, List.sum_cons, List.sum_nil,
    seenArea, dot, cross, sub_x, sub_y, sub_z, boxAff, Aff.app, half, add_x, add_y, add_z, smul_x, smul_y, smul_z]
  push_cast
  ring

/-! ## C100 -/

section
variable {K : Type} [Field K] [CharZero K]

theorem even_volumes {lX lY lZ s0 s1 s2 : K} {nx ny nz a b c : Nat} {V : List K} (h : 1 ≤ nx ∧ 1 ≤ ny ∧ 1 ≤ nz)
    (hV : BoxVolumes (uniAxis lX nx a s0).b (uniAxis lY ny b s1).b (uniAxis lZ nz c s2).b nx ny nz V) :
    V = List.replicate (nx * ny * nz) (lX / nx * (lY / ny) * (lZ / nz)) ∧ V.sum = lX * lY * lZ := by
  have c1 : ∀ n : Nat, 1 ≤ n → ((n : K)) ≠ 0 := fun n hn => by exact_mod_cast (by omega : n ≠ 0)
  have hx := c1 _ h.1
  have hy := c1 _ h.2.1
  have hz := c1 _ h.2.2
  constructor
  · rw [List.eq_replicate_iff]
    refine ⟨hV.length, fun v hv => ?_⟩
    obtain ⟨e, he, rfl⟩ := List.getElem_of_mem hv
    have he0 := he
    rw [hV.length] at he
    obtain ⟨xs, hw, hx'⟩ := lexNo_surj (ds := [nx, ny, nz]) (r := e) (by simpa [Nat.mul_assoc] using he)
    obtain ⟨i, j, k, rfl, hi, hj, hk⟩ := within3.1 hw
    have hno : e = (i * ny + j) * nz + k := by rw [← hx']; simp [lexNo]; ring
    have := hV.cell i j k hi hj hk
    rw [← hno, List.getElem?_eq_getElem he0, Option.some.injEq] at this
    rw [this]
    simp only [uniAxis]
    push_cast
    ring
  · rw [hV.total]
    simp only [uniAxis]
    push_cast
    field_simp
    ring

theorem even_areas {lX lY s0 s1 : K} {nx ny a b : Nat} {V : List K} (h : 1 ≤ nx ∧ 1 ≤ ny)
    (hV : BoxAreas (uniAxis lX nx a s0).b (uniAxis lY ny b s1).b nx ny V) :
    V = List.replicate (nx * ny) (lX / nx * (lY / ny)) ∧ V.sum = lX * lY := by
  have c1 : ∀ n : Nat, 1 ≤ n → ((n : K)) ≠ 0 := fun n hn => by exact_mod_cast (by omega : n ≠ 0)
  have hx := c1 _ h.1
  have hy := c1 _ h.2
  constructor
  · rw [List.eq_replicate_iff]
    refine ⟨hV.length, fun v hv => ?_⟩
    obtain ⟨e, he, rfl⟩ := List.getElem_of_mem hv
    have he0 := he
    rw [hV.length] at he
    obtain ⟨xs, hw, hx'⟩ := lexNo_surj (ds := [nx, ny]) (r := e) (by simpa using he)
    obtain ⟨i, j, rfl, hi, hj⟩ := within2.1 hw
    have hno : e = i * ny + j := by rw [← hx']; simp [lexNo]
    have := hV.cell i j hi hj
    rw [← hno, List.getElem?_eq_getElem he0, Option.some.injEq] at this
    rw [this]
    simp only [uniAxis]
    push_cast
    ring
  · rw [hV.total]
    simp only [uniAxis]
    push_cast
    field_simp
    ring

omit [CharZero K] in
theorem unshift_volumes {bx bY bz : List K} {s0 s1 s2 : K} {a b c : Nat} {V : List K}
    (hV : BoxVolumes (binAxis bx a s0).b (binAxis bY b s1).b (binAxis bz c s2).b (bx.length - 1) (bY.length - 1) (bz.length - 1) V) :
    BoxVolumes (bx.getD · 0) (bY.getD · 0) (bz.getD · 0) (bx.length - 1) (bY.length - 1) (bz.length - 1) V := by
  obtain ⟨h1, h2, h3⟩ := hV
  refine ⟨h1, fun i j k hi hj hk => ?_, ?_⟩
  · rw [h2 i j k hi hj hk]; simp only [binAxis]; congr 1; ring
  · rw [h3]; simp only [binAxis]; ring

omit [CharZero K] in
theorem unshift_areas {bx bY : List K} {s0 s1 : K} {a b : Nat} {V : List K}
    (hV : BoxAreas (binAxis bx a s0).b (binAxis bY b s1).b (bx.length - 1) (bY.length - 1) V) :
    BoxAreas (bx.getD · 0) (bY.getD · 0) (bx.length - 1) (bY.length - 1) V := by
  obtain ⟨h1, h2, h3⟩ := hV
  refine ⟨h1, fun i j hi hj => ?_, ?_⟩
  · rw [h2 i j hi hj]; simp only [binAxis]; congr 1; ring
  · rw [h3]; simp only [binAxis]; ring

end

/-- **C100** `volumes` of the cells of `gridH8`, by quadrature with interval rules exact for constants. -/
theorem C100_gridH8 {lx ly lz : List (ℝ × ℝ)} (h1 : LineExact 0 lx) (h2 : LineExact 0 ly) (h3 : LineExact 0 lz)
    (lX lY lZ : ℝ) {nx ny nz : Nat} (s0 s1 s2 : ℝ) (h : 1 ≤ nx ∧ 1 ≤ ny ∧ 1 ≤ nz) :
    ∃ C T pts, gridH8 (args3 lX lY lZ nx ny nz s0 s1 s2 0) = some (C, T) ∧ gridCellPoints C (asTopo T) = some pts ∧
      pts.map (volumeQ Shp.dshpH8 (gaussHex lx ly lz)) = List.replicate (nx * ny * nz) (lX / nx * (lY / ny) * (lZ / nz)) ∧
      (pts.map (volumeQ Shp.dshpH8 (gaussHex lx ly lz))).sum = lX * lY * lZ := by
  obtain ⟨C, T, g1, g2⟩ := C19_gridH8 lX lY lZ nx ny nz s0 s1 s2 0 h
  obtain ⟨pts, p1, p2⟩ := gridVolumes (C34_H8 ℝ) C35_H8 h1 h2 h3 g2
  exact ⟨C, T, pts, g1, p1, even_volumes h p2⟩

/-- **C100** with bins: cell `(i, j, k)` has the volume between the bins. -/
theorem C100_gridH8_bins {lx ly lz : List (ℝ × ℝ)} (h1 : LineExact 0 lx) (h2 : LineExact 0 ly) (h3 : LineExact 0 lz)
    (bx bY bz : List ℝ) (s0 s1 s2 : ℝ) (h : 2 ≤ bx.length ∧ 2 ≤ bY.length ∧ 2 ≤ bz.length) :
    ∃ C T pts, gridH8 (argsB3 bx bY bz s0 s1 s2 0) = some (C, T) ∧ gridCellPoints C (asTopo T) = some pts ∧
      BoxVolumes (bx.getD · 0) (bY.getD · 0) (bz.getD · 0) (bx.length - 1) (bY.length - 1) (bz.length - 1)
        (pts.map (volumeQ Shp.dshpH8 (gaussHex lx ly lz))) := by
  obtain ⟨C, T, g1, g2⟩ := C21_gridH8_bins bx bY bz s0 s1 s2 0 h
  obtain ⟨pts, p1, p2⟩ := gridVolumes (C34_H8 ℝ) C35_H8 h1 h2 h3 g2
  exact ⟨C, T, pts, g1, p1, unshift_volumes p2⟩

/-- **C100** `volumes` of the cells of `gridH27`, by quadrature with interval rules exact for constants. -/
theorem C100_gridH27 {lx ly lz : List (ℝ × ℝ)} (h1 : LineExact 0 lx) (h2 : LineExact 0 ly) (h3 : LineExact 0 lz)
    (lX lY lZ : ℝ) {nx ny nz : Nat} (s0 s1 s2 : ℝ) (h : 1 ≤ nx ∧ 1 ≤ ny ∧ 1 ≤ nz) :
    ∃ C T pts, gridH27 (args3 lX lY lZ nx ny nz s0 s1 s2 0) = some (C, T) ∧ gridCellPoints C (asTopo T) = some pts ∧
      pts.map (volumeQ Shp.dshpH27 (gaussHex lx ly lz)) = List.replicate (nx * ny * nz) (lX / nx * (lY / ny) * (lZ / nz)) ∧
      (pts.map (volumeQ Shp.dshpH27 (gaussHex lx ly lz))).sum = lX * lY * lZ := by
  obtain ⟨C, T, g1, g2⟩ := C19_gridH27 lX lY lZ nx ny nz s0 s1 s2 0 h
  obtain ⟨pts, p1, p2⟩ := gridVolumes (C34_H27 ℝ) C35_H27 h1 h2 h3 g2
  exact ⟨C, T, pts, g1, p1, even_volumes h p2⟩

/-- **C100** with bins: cell `(i, j, k)` has the volume between the bins. -/
theorem C100_gridH27_bins {lx ly lz : List (ℝ × ℝ)} (h1 : LineExact 0 lx) (h2 : LineExact 0 ly) (h3 : LineExact 0 lz)
    (bx bY bz : List ℝ) (s0 s1 s2 : ℝ) (h : 2 ≤ bx.length ∧ 2 ≤ bY.length ∧ 2 ≤ bz.length) :
    ∃ C T pts, gridH27 (argsB3 bx bY bz s0 s1 s2 0) = some (C, T) ∧ gridCellPoints C (asTopo T) = some pts ∧
      BoxVolumes (bx.getD · 0) (bY.getD · 0) (bz.getD · 0) (bx.length - 1) (bY.length - 1) (bz.length - 1)
        (pts.map (volumeQ Shp.dshpH27 (gaussHex lx ly lz))) := by
  obtain ⟨C, T, g1, g2⟩ := C21_gridH27_bins bx bY bz s0 s1 s2 0 h
  obtain ⟨pts, p1, p2⟩ := gridVolumes (C34_H27 ℝ) C35_H27 h1 h2 h3 g2
  exact ⟨C, T, pts, g1, p1, unshift_volumes p2⟩

/-- **C100** `PolyCell3d.volumes` by tetrahedra (the method of the classes of polyhedron.py) on the cells of `gridH8`. -/
theorem C100_tets {K : Type} [Field K] [LinearOrder K] [IsStrictOrderedRing K] {lX lY lZ : K} {nx ny nz : Nat} (s0 s1 s2 : K)
    (h : 1 ≤ nx ∧ 1 ≤ ny ∧ 1 ≤ nz) (hl : 0 ≤ lX ∧ 0 ≤ lY ∧ 0 ≤ lZ) :
    ∃ C T V, gridH8 (args3 lX lY lZ nx ny nz s0 s1 s2 0) = some (C, T) ∧ volumes3d .H8 (C.map rowPt) (asTopo T) = some V ∧
      V = List.replicate (nx * ny * nz) (lX / nx * (lY / ny) * (lZ / nz)) ∧ V.sum = lX * lY * lZ := by
  obtain ⟨C, T, g1, g2⟩ := C19_gridH8 lX lY lZ nx ny nz s0 s1 s2 0 h
  have up : ∀ (l s : K) (n : Nat), 0 ≤ l → ∀ i, i < n → (uniAxis l n 2 s).b i ≤ (uniAxis l n 2 s).b (i + 1) := by
    intro l s n hl i _
    have : 0 ≤ l / n := by positivity
    simp only [uniAxis]
    push_cast
    nlinarith
  obtain ⟨V, p1, p2⟩ := gridTets g2 h (up _ _ _ hl.1) (up _ _ _ hl.2.1) (up _ _ _ hl.2.2)
  exact ⟨C, T, V, g1, p1, even_volumes h p2⟩

/-- **C100** the same with bins in order. -/
theorem C100_tets_bins {K : Type} [Field K] [LinearOrder K] [IsStrictOrderedRing K] {bx bY bz : List K} (s0 s1 s2 : K)
    (h : 2 ≤ bx.length ∧ 2 ≤ bY.length ∧ 2 ≤ bz.length) (hs : bx.Pairwise (· ≤ ·) ∧ bY.Pairwise (· ≤ ·) ∧ bz.Pairwise (· ≤ ·)) :
    ∃ C T V, gridH8 (argsB3 bx bY bz s0 s1 s2 0) = some (C, T) ∧ volumes3d .H8 (C.map rowPt) (asTopo T) = some V ∧
      BoxVolumes (bx.getD · 0) (bY.getD · 0) (bz.getD · 0) (bx.length - 1) (bY.length - 1) (bz.length - 1) V := by
  obtain ⟨C, T, g1, g2⟩ := C21_gridH8_bins bx bY bz s0 s1 s2 0 h
  have up : ∀ (b : List K) (s : K), b.Pairwise (· ≤ ·) → ∀ i, i < b.length - 1 → (binAxis b 2 s).b i ≤ (binAxis b 2 s).b (i + 1) := by
    intro b s hb i hi
    have h1 : i < b.length := by omega
    have h2 : i + 1 < b.length := by omega
    simp only [binAxis, List.getD_eq_getElem?_getD, List.getElem?_eq_getElem h1, List.getElem?_eq_getElem h2, Option.getD_some]
    exact add_le_add_right (List.pairwise_iff_getElem.1 hb i (i + 1) h1 h2 (by omega)) s
  obtain ⟨V, p1, p2⟩ := gridTets g2 (by simp only [binAxis]; omega) (up _ _ hs.1) (up _ _ hs.2.1) (up _ _ hs.2.2)
  exact ⟨C, T, V, g1, p1, unshift_volumes p2⟩

/-- **C100** `areas` of the cells of `gridQ4`, with frames standing upright on the plane. -/
theorem C100_gridQ4 (lX lY : ℝ) {nx ny : Nat} (s0 s1 : ℝ) (h : 1 ≤ nx ∧ 1 ≤ ny) {Fs : List Frame} (hF : Fs.length = nx * ny)
    (hI : ∀ F ∈ Fs, IsFrame F ∧ F.k = ⟨0, 0, 1⟩) :
    ∃ C T A, gridQ4 (args2 lX lY nx ny s0 s1 0) = some (C, T) ∧ areas2d (C.map rowPt) (asTopo T) Fs trimapQ4 = some A ∧
      A = List.replicate (nx * ny) (lX / nx * (lY / ny)) ∧ A.sum = lX * lY := by
  obtain ⟨C, T, g1, g2⟩ := C19_gridQ4 lX lY nx ny s0 s1 0 h
  obtain ⟨A, p1, p2⟩ := gridAreas C71_maps.2.2.1 boxTris_Q4 g2 h (by rw [hF, asTopo, List.length_map, g2.1]; rfl) hI
  exact ⟨C, T, A, g1, p1, even_areas h p2⟩

theorem C100_gridQ4_bins (bx bY : List ℝ) (s0 s1 : ℝ) (h : 2 ≤ bx.length ∧ 2 ≤ bY.length) {Fs : List Frame}
    (hF : Fs.length = (bx.length - 1) * (bY.length - 1)) (hI : ∀ F ∈ Fs, IsFrame F ∧ F.k = ⟨0, 0, 1⟩) :
    ∃ C T A, gridQ4 (argsB2 bx bY s0 s1 0) = some (C, T) ∧ areas2d (C.map rowPt) (asTopo T) Fs trimapQ4 = some A ∧
      BoxAreas (bx.getD · 0) (bY.getD · 0) (bx.length - 1) (bY.length - 1) A := by
  obtain ⟨C, T, g1, g2⟩ := C21_gridQ4_bins bx bY s0 s1 0 h
  obtain ⟨A, p1, p2⟩ := gridAreas C71_maps.2.2.1 boxTris_Q4 g2 (by simp only [binAxis]; omega)
    (by rw [hF, asTopo, List.length_map, g2.1]; rfl) hI
  exact ⟨C, T, A, g1, p1, unshift_areas p2⟩

/-- **C100** `areas` of the cells of `gridQ9`, with frames standing upright on the plane. -/
theorem C100_gridQ9 (lX lY : ℝ) {nx ny : Nat} (s0 s1 : ℝ) (h : 1 ≤ nx ∧ 1 ≤ ny) {Fs : List Frame} (hF : Fs.length = nx * ny)
    (hI : ∀ F ∈ Fs, IsFrame F ∧ F.k = ⟨0, 0, 1⟩) :
    ∃ C T A, gridQ9 (args2 lX lY nx ny s0 s1 0) = some (C, T) ∧ areas2d (C.map rowPt) (asTopo T) Fs trimapQ9 = some A ∧
      A = List.replicate (nx * ny) (lX / nx * (lY / ny)) ∧ A.sum = lX * lY := by
  obtain ⟨C, T, g1, g2⟩ := C19_gridQ9 lX lY nx ny s0 s1 0 h
  obtain ⟨A, p1, p2⟩ := gridAreas C71_maps.2.2.2 boxTris_Q9 g2 h (by rw [hF, asTopo, List.length_map, g2.1]; rfl) hI
  exact ⟨C, T, A, g1, p1, even_areas h p2⟩

theorem C100_gridQ9_bins (bx bY : List ℝ) (s0 s1 : ℝ) (h : 2 ≤ bx.length ∧ 2 ≤ bY.length) {Fs : List Frame}
    (hF : Fs.length = (bx.length - 1) * (bY.length - 1)) (hI : ∀ F ∈ Fs, IsFrame F ∧ F.k = ⟨0, 0, 1⟩) :
    ∃ C T A, gridQ9 (argsB2 bx bY s0 s1 0) = some (C, T) ∧ areas2d (C.map rowPt) (asTopo T) Fs trimapQ9 = some A ∧
      BoxAreas (bx.getD · 0) (bY.getD · 0) (bx.length - 1) (bY.length - 1) A := by
  obtain ⟨C, T, g1, g2⟩ := C21_gridQ9_bins bx bY s0 s1 0 h
  obtain ⟨A, p1, p2⟩ := gridAreas C71_maps.2.2.2 boxTris_Q9 g2 (by simp only [binAxis]; omega)
    (by rw [hF, asTopo, List.length_map, g2.1]; rfl) hI
  exact ⟨C, T, A, g1, p1, unshift_areas p2⟩

/-- A grid of 2 x 1 x 1 cells of a box of 2 x 3 x 1 (the rule of one point): volumes 3 and 3. -/
example : ∃ C T pts, gridH8 (args3 (2 : ℝ) 3 1 2 1 1 0 0 0 0) = some (C, T) ∧ gridCellPoints C (asTopo T) = some pts ∧
    pts.map (volumeQ Shp.dshpH8 (gaussHex [(0, 2)] [(0, 2)] [(0, 2)])) = [3, 3] := by
  have hl : LineExact 0 [((0 : ℝ), (2 : ℝ))] := by
    intro k hk
    obtain rfl : k = 0 := by omega
    norm_num
  obtain ⟨C, T, pts, h1, h2, h3, _⟩ := C100_gridH8 hl hl hl 2 3 1 0 0 0 (show 1 ≤ 2 ∧ 1 ≤ 1 ∧ 1 ≤ 1 by decide)
  refine ⟨C, T, pts, h1, h2, ?_⟩
  rw [h3]
  norm_num [List.replicate]

/-- The same by tetrahedra, with bins of different sizes: computed by the model. -/
example : ((gridH8 (argsB3 [0, 1, 3] [0, 3] [0, 1 / 2] 5 0 (0 : ℚ) 0)).bind fun g => volumes3d .H8 (g.1.map rowPt) (asTopo g.2)) =
    some [3 / 2, 3] := by decide +kernel

/-- **C100** is false for bins that are not in order: `PolyCell3d.volumes` adds the sizes of tetrahedra, so cells are counted that lie
on each other. The bins 0, 2, 1 make a grid of length 1 with the total volume 3. -/
theorem C100_bins_order_false :
    ∃ V, ((gridH8 (argsB3 [0, 2, 1] [0, 1] [0, 1] 0 0 (0 : ℚ) 0)).bind fun g => volumes3d .H8 (g.1.map rowPt) (asTopo g.2)) = some V ∧
      ¬ BoxVolumes ([0, 2, 1].getD · (0 : ℚ)) ([0, 1].getD · 0) ([0, 1].getD · 0) 2 1 1 V := by
  refine ⟨[2, 1], by decide +kernel, fun h => ?_⟩
  have := h.total
  norm_num at this

end PM
