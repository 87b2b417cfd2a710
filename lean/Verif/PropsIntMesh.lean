import Verif.IntMesh
import Verif.PropsIntPts
import Verif.PropsAverages
import Verif.PropsFactors
import Verif.PropsExplode
import Verif.PropsLinePoints
import Verif.PropsGrid
import Verif.Elevate

/-!
# C114: coordinates, weights and data in arrays of integers
-/

namespace PM

section
variable {K : Type} [Field K] [LinearOrder K] [FloorRing K] [IsStrictOrderedRing K]

/-- Specification: `y` is `x` without its decimals, i.e. the integer next to `x` on the side of zero. -/
def IsCut (x y : K) : Prop := (∃ n : ℤ, y = n) ∧ |y| ≤ |x| ∧ |x - y| < 1

/-- Specification: an integer. -/
def IsInt (x : K) : Prop := ∃ n : ℤ, x = n

/-! ## cutting off -/

theorem isCut_trunc (x : K) : IsCut x (truncK x) := by
  obtain ⟨n, hn, hp, hm⟩ := trunc_cases x
  rw [hn]
  refine ⟨⟨n, rfl⟩, ?_⟩
  rcases le_or_gt 0 x with hx | hx
  · obtain ⟨a, b, c⟩ := hp hx
    have c' : (0 : K) ≤ n := by exact_mod_cast c
    rw [abs_of_nonneg c', abs_of_nonneg hx, abs_of_nonneg (by linarith)]
    exact ⟨a, by linarith⟩
  · obtain ⟨a, b, c⟩ := hm hx
    have c' : (n : K) ≤ 0 := by exact_mod_cast c
    rw [abs_of_nonpos c', abs_of_neg hx, abs_of_nonpos (by linarith)]
    exact ⟨by linarith, by linarith⟩

/-- The number is determined. -/
theorem isCut_unique {x y z : K} (hy : IsCut x y) (hz : IsCut x z) : y = z := by
  obtain ⟨⟨n, rfl⟩, a1, a2⟩ := hy
  obtain ⟨⟨m, rfl⟩, b1, b2⟩ := hz
  rw [abs_lt] at a2 b2
  have hnm : ∀ {n m : ℤ}, (-1 < x - n ∧ x - n < 1) → (-1 < x - m ∧ x - m < 1) → |(n : K)| ≤ |x| → |(m : K)| ≤ |x| → n ≤ m := by
    intro n m h1 h2 h3 h4
    by_contra hc
    push Not at hc
    have hc1 : (m : K) + 1 ≤ n := by exact_mod_cast hc
    have hc2 : (n : K) < m + 2 := by linarith [h1.1, h2.2]
    have hc3 : n < m + 2 := by exact_mod_cast hc2
    obtain rfl : n = m + 1 := by omega
    push_cast at *
    rcases le_or_gt 0 x with hx | hx
    · rw [abs_of_nonneg hx] at h3
      have := le_abs_self ((m : K) + 1)
      -- m + 1 ≤ x < m + 1
      linarith [h2.2]
    · rw [abs_of_neg hx] at h4
      have := neg_abs_le (m : K)
      -- x ≤ m, and x > m
      linarith [h1.1]
  have e := le_antisymm (hnm a2 b2 a1 b1) (hnm b2 a2 b1 a1)
  rw [e]

theorem trunc_eq_iff (x : K) : truncK x = x ↔ IsInt x := by
  constructor
  · intro h
    obtain ⟨n, hn, -⟩ := trunc_cases x
    exact ⟨n, by rw [← h, hn]⟩
  · rintro ⟨n, rfl⟩
    exact trunc_int n

theorem store_zero (int : Bool) : storeAs int (0 : K) = 0 := by
  cases int
  · rfl
  · have := trunc_int (K := K) 0
    simpa [storeAs] using this

theorem store_isInt {x : K} (h : IsInt x) (int : Bool) : storeAs int x = x := by
  cases int
  · rfl
  · exact (trunc_eq_iff x).2 h

omit [FloorRing K] [IsStrictOrderedRing K] [LinearOrder K] in
theorem IsInt.add {x y : K} (hx : IsInt x) (hy : IsInt y) : IsInt (x + y) := by
  obtain ⟨n, rfl⟩ := hx
  obtain ⟨m, rfl⟩ := hy
  exact ⟨n + m, by push_cast; ring⟩

omit [FloorRing K] [IsStrictOrderedRing K] [LinearOrder K] in
theorem IsInt.sub {x y : K} (hx : IsInt x) (hy : IsInt y) : IsInt (x - y) := by
  obtain ⟨n, rfl⟩ := hx
  obtain ⟨m, rfl⟩ := hy
  exact ⟨n - m, by push_cast; ring⟩

omit [FloorRing K] [IsStrictOrderedRing K] [LinearOrder K] in
theorem IsInt.mul {x y : K} (hx : IsInt x) (hy : IsInt y) : IsInt (x * y) := by
  obtain ⟨n, rfl⟩ := hx
  obtain ⟨m, rfl⟩ := hy
  exact ⟨n * m, by push_cast; ring⟩

theorem isInt_trunc (x : K) : IsInt (truncK x) := (isCut_trunc x).1

/-- Values mapped before they are written or after they are read. -/
theorem runW_mapVal {ι α β : Type} [DecidableEq ι] (f : α → β) (w : List (ι × α)) (m : ι → α) :
    runW (w.map fun x => (x.1, f x.2)) (fun q => f (m q)) = fun q => f (runW w m q) := by
  induction w generalizing m with
  | nil => rfl
  | cons x w ih =>
    rw [List.map_cons, runW, runW, List.foldl_cons, List.foldl_cons]
    have := ih (Function.update m x.1 x.2)
    rw [runW, runW] at this
    convert this using 2
    funext q
    by_cases hq : q = x.1
    · subst hq; simp
    · simp [hq]

/-! ## floating point numbers -/

omit [IsStrictOrderedRing K] in
/-- **C114** (floating point numbers): the functions are those of C13, C26, C21, C24, C97, C82 and C23. -/
theorem C114_float (ts : List (Tri K)) (rows : List (List K)) (ec : List (List (List K))) (nD : Nat) (bx bY bz : List K) (Nx Ny Nz : Nat) (s0 s1 s2 : K)
    (start : Int) (topo : Topo) (w : List K) (dat ptr : List Nat) (data : List (List K)) (ord : List (Nat × V3 K) → List (Nat × V3 K))
    (lc : List K) (coords : List (V3 K)) (ids : List Nat) (pts : Option (List K)) (cells : Option (List Nat)) (rng : Option (K × K)) (fl : Bool)
    (zero : V3 K) (nNE : Nat) :
    areaTriBulkAs false ts = areaTriBulk ts ∧ centerOfAs false rows nD = centerOf rows nD ∧
    ((∀ r ∈ rows, r.length = nD) → centralizeAs false rows nD = centralize rows nD) ∧
    centralizeCellsAs false ec nD = centralizeCells ec nD ∧
    gridBins3As false bx bY bz Nx Ny Nz s0 s1 s2 start = gridBins3 bx bY bz Nx Ny Nz s0 s1 s2 start ∧
    ndfAs false topo w = ndf topo w ∧ ndfCsrWAs false dat ptr w = ndfCsrW dat ptr w ∧
    homogenizeAs false data w = homogenize data w ∧
    linePointsAs false ord lc coords ids topo pts cells rng fl = linePoints ord lc coords ids topo pts cells rng fl ∧
    explodeDataAs false zero coords topo data nNE = explodeData zero 0 coords topo data nNE := by
  refine ⟨rfl, rfl, ?_, rfl, ?_, rfl, ?_, ?_, ?_, ?_⟩
  · intro h
    rw [centralizeAs, centralize]
    split
    · rfl
    · congr 1
      apply List.map_congr_left
      intro r hr
      apply List.ext_getElem
      · simp
      · intro k h1 h2
        have hk : k < nD := by simpa [h r hr] using h1
        simp [centerOfAs, storeAs, hk]
  · simp [gridBins3As, gridBins3, storeAs]
  · simp [ndfCsrWAs, storeAs]
  · simp only [homogenizeAs, homogenize, storeAs]
    congr 1
    funext x
    congr 1
    funext m
    split
    · rfl
    · simp [div_eq_inv_mul]
  · unfold linePointsAs linePoints
    congr 1
    funext e
    split
    · rfl
    · congr 1
      funext sel
      cases sel with
      | none => rfl
      | some ec => simp [linePtsOutAs, linePtsOut, V3.storeAs, storeAs]
  · have : (explodeDataW topo.length data nNE).map (fun w => (w.1, w.2.map (storeAs false))) = explodeDataW topo.length data nNE := by
      have h2 : (storeAs false : K → K) = id := by funext x; rfl
      simp [h2]
    rw [explodeDataAs, explodeData, this]

/-! ## areas of triangles -/

/-- **C114** areas of triangles with integer coordinates are right: what is stored is twice the area, an integer. -/
theorem C114_area {ts : List (Tri K)} (hi : ∀ t ∈ ts, ∀ p ∈ [t.p1, t.p2, t.p3], IsInt p.x ∧ IsInt p.y) :
    areaTriBulkAs true ts = areaTriBulk ts := by
  unfold areaTriBulkAs areaTriBulk
  congr 1
  apply List.map_congr_left
  intro t ht
  have h := hi t ht
  obtain ⟨a1, a2⟩ := h t.p1 (by simp)
  obtain ⟨b1, b2⟩ := h t.p2 (by simp)
  obtain ⟨c1, c2⟩ := h t.p3 (by simp)
  apply store_isInt
  rw [triArea2]
  exact (((b1.mul c2).sub (c1.mul b2)).add ((c1.mul a2).sub (a1.mul c2))).add ((a1.mul b2).sub (b1.mul a2))

/-- A triangle of area 7/2. -/
example : areaTriBulkAs true [(⟨⟨0, 0⟩, ⟨3, 1⟩, ⟨2, 3⟩⟩ : Tri ℚ)] = [7 / 2] := by decide +kernel

/-! ## centres -/

/-- **C114** the centre of points in an array of integers is the exact centre without its decimals; it is the mean if and only if the sum of every
column is a multiple of the number of points. -/
theorem C114_center_partial {rows : List (List K)} (hne : rows ≠ []) (nD : Nat) :
    (centerOfAs true rows nD).length = nD ∧
    (∀ m, IsMean rows nD m → ∀ (k : Nat) (x y : K), m[k]? = some x → (centerOfAs true rows nD)[k]? = some y → IsCut x y) ∧
    (IsMean rows nD (centerOfAs true rows nD) ↔ ∀ k < nD, ∃ n : ℤ, (rows.map fun r => r.getD k 0).sum = (rows.length : K) * n) := by
  have h0 := cast_length_ne (K := K) hne
  have hget : ∀ k < nD, (centerOfAs true rows nD)[k]? = some (truncK (colMean rows k)) := by
    intro k hk
    rw [centerOfAs, List.getElem?_map, List.getElem?_range hk]; rfl
  refine ⟨by simp [centerOfAs], ?_, ?_⟩
  · intro m hm k x y hx hy
    have hk : k < nD := by
      have := (List.getElem?_eq_some_iff.1 hy).1
      simpa [centerOfAs] using this
    rw [hget k hk] at hy
    have hm := hm.mean k x hx
    have : x = colMean rows k := by
      rw [colMean, ← hm, mul_div_cancel_left₀ _ h0]
    rw [← Option.some.inj hy, this]
    exact isCut_trunc _
  · constructor
    · intro h k hk
      have := h.mean k _ (hget k hk)
      obtain ⟨n, hn⟩ := isInt_trunc (colMean rows k)
      exact ⟨n, by rw [← this, hn]⟩
    · intro h
      refine ⟨by simp [centerOfAs], fun k x hx => ?_⟩
      have hk : k < nD := by
        have := (List.getElem?_eq_some_iff.1 hx).1
        simpa [centerOfAs] using this
      rw [hget k hk] at hx
      obtain ⟨n, hn⟩ := h k hk
      rw [← Option.some.inj hx, (trunc_eq_iff _).2 ⟨n, by rw [colMean, hn, mul_div_cancel_left₀ _ h0]⟩, colMean, mul_div_cancel₀ _ h0]

/-- The centre of the corners of the unit square is its first corner, that of the corners of the square of size two is right. -/
example : centerOfAs true ([[0, 0], [1, 0], [1, 1], [0, 1]] : List (List ℚ)) 2 = [0, 0] ∧
    centerOfAs true ([[0, 0], [2, 0], [2, 2], [0, 2]] : List (List ℚ)) 2 = [1, 1] := by decide +kernel

/-- **C114** fails for centres: the two corners (0, 0), (1, 1). -/
theorem C114_center_false : ∃ rows : List (List ℚ), rows ≠ [] ∧ (∀ r ∈ rows, r.length = 2 ∧ ∀ x ∈ r, IsInt x) ∧
    ¬ IsMean rows 2 (centerOfAs true rows 2) := by
  refine ⟨[[0, 0], [1, 1]], by simp, ?_, ?_⟩
  · intro r hr
    simp only [List.mem_cons, List.not_mem_nil, or_false] at hr
    rcases hr with rfl | rfl
    · exact ⟨rfl, fun x hx => ⟨0, by simpa using hx⟩⟩
    · exact ⟨rfl, fun x hx => ⟨1, by simpa using hx⟩⟩
  · intro h
    have := h.mean 0 0 (by decide +kernel)
    exact absurd this (by decide +kernel)

/-! ## centring -/

/-- Specification: `C` is `coords` moved by one vector, the mean of `C` is less than one away from the origin in every direction, and all
coordinates are integers. -/
structure IsNearlyCentred (coords : List (List K)) (nD : Nat) (C : List (List K)) : Prop where
  rect : Rect nD C
  translation : ∃ t : List K, t.length = nD ∧ C = coords.map fun r => List.zipWith (· - ·) r t
  ints : ∀ r ∈ C, ∀ x ∈ r, IsInt x
  mean : ∀ m, IsMean C nD m → ∀ x ∈ m, |x| < 1

omit [LinearOrder K] [FloorRing K] [IsStrictOrderedRing K] in
theorem rect_translate {coords : List (List K)} {nD : Nat} (hr : Rect nD coords) {t : List K} (ht : t.length = nD) :
    Rect nD (coords.map fun r => List.zipWith (· - ·) r t) := by
  intro r hrm
  obtain ⟨s, hs, rfl⟩ := List.mem_map.1 hrm
  rw [List.length_zipWith, hr s hs, ht, min_self]

omit [LinearOrder K] [FloorRing K] [IsStrictOrderedRing K] in
/-- Column sums of moved points. -/
theorem sum_translate {coords : List (List K)} {nD : Nat} (hr : Rect nD coords) {t : List K} (ht : t.length = nD) {k : Nat} (hk : k < nD) :
    ((coords.map fun r => List.zipWith (· - ·) r t).map fun r => r.getD k 0).sum =
      (coords.map fun r => r.getD k 0).sum - (coords.length : K) * t.getD k 0 := by
  rw [← sum_sub_const, List.map_map]
  congr 1
  apply List.map_congr_left
  intro r hrm
  have hrl := hr r hrm
  have h1 : r[k]? = some (r[k]'(by omega)) := List.getElem?_eq_getElem (by omega)
  have h2 : t[k]? = some (t[k]'(by omega)) := List.getElem?_eq_getElem (by omega)
  simp only [Function.comp, List.getD_eq_getElem?_getD, List.getElem?_zipWith, h1, h2]
  rfl

omit [IsStrictOrderedRing K] in
theorem center_getD {coords : List (List K)} {nD k : Nat} (hk : k < nD) : (centerOfAs true coords nD).getD k 0 = truncK (colMean coords k) := by
  rw [centerOfAs, List.getD_eq_getElem?_getD, List.getElem?_map, List.getElem?_range hk]; rfl

theorem nearly_translate {coords : List (List K)} (hne : coords ≠ []) {nD : Nat} (hr : Rect nD coords) (hi : ∀ r ∈ coords, ∀ x ∈ r, IsInt x) :
    IsNearlyCentred coords nD (coords.map fun r => List.zipWith (· - ·) r (centerOfAs true coords nD)) := by
  have ht : (centerOfAs true coords nD).length = nD := by simp [centerOfAs]
  have h0 := cast_length_ne (K := K) hne
  refine ⟨rect_translate hr ht, ⟨_, ht, rfl⟩, ?_, ?_⟩
  · intro r hrm x hx
    obtain ⟨s, hs, rfl⟩ := List.mem_map.1 hrm
    obtain ⟨k, hk, rfl⟩ := List.mem_iff_getElem.1 hx
    rw [List.getElem_zipWith]
    refine (hi s hs _ (List.getElem_mem _)).sub ?_
    simp only [centerOfAs, List.getElem_map, List.getElem_range]
    exact isInt_trunc _
  · intro m hm x hx
    obtain ⟨k, hk, rfl⟩ := List.mem_iff_getElem.1 hx
    have hk' : k < nD := by rw [← hm.length]; exact hk
    have h1 := hm.mean k _ (List.getElem?_eq_getElem hk)
    rw [sum_translate hr ht hk', center_getD hk', List.length_map] at h1
    have h2 : m[k] = colMean coords k - truncK (colMean coords k) := by
      rw [colMean] at *
      field_simp
      field_simp at h1
      linarith
    rw [h2]
    exact (isCut_trunc _).2.2

/-- The mean is the origin if and only if the column sums are multiples of the number of points. -/
theorem nearly_iff {coords : List (List K)} (hne : coords ≠ []) {nD : Nat} (hr : Rect nD coords) :
    IsCentred coords nD (coords.map fun r => List.zipWith (· - ·) r (centerOfAs true coords nD)) ↔
      ∀ k < nD, ∃ n : ℤ, (coords.map fun r => r.getD k 0).sum = (coords.length : K) * n := by
  have ht : (centerOfAs true coords nD).length = nD := by simp [centerOfAs]
  have h0 := cast_length_ne (K := K) hne
  constructor
  · intro h k hk
    have h1 := h.mean.mean k 0 (by simp [hk])
    rw [sum_translate hr ht hk, center_getD hk, mul_zero] at h1
    obtain ⟨n, hn⟩ := isInt_trunc (colMean coords k)
    exact ⟨n, by rw [← hn]; linarith⟩
  · intro h
    have : centerOfAs true coords nD = centerOf coords nD := by
      unfold centerOfAs centerOf
      apply List.map_congr_left
      intro k hk
      obtain ⟨n, hn⟩ := h k (List.mem_range.1 hk)
      exact (trunc_eq_iff _).2 ⟨n, by rw [colMean, hn, mul_div_cancel_left₀ _ h0]⟩
    rw [this]
    exact isCentred_translate hne hr

/-- Centred points stay where they are. -/
theorem nearly_fixed {coords : List (List K)} (hne : coords ≠ []) {nD : Nat} (hr : Rect nD coords) (hi : ∀ r ∈ coords, ∀ x ∈ r, IsInt x) :
    centerOfAs true (coords.map fun r => List.zipWith (· - ·) r (centerOfAs true coords nD)) nD = List.replicate nD 0 := by
  have ht : (centerOfAs true coords nD).length = nD := by simp [centerOfAs]
  have hn := nearly_translate hne hr hi
  set C := coords.map fun r => List.zipWith (· - ·) r (centerOfAs true coords nD) with hC
  have hC0 : C ≠ [] := by rw [hC]; simpa using hne
  rw [centerOfAs, List.eq_replicate_iff]
  refine ⟨by simp, ?_⟩
  intro x hx
  obtain ⟨k, hk, rfl⟩ := List.mem_map.1 hx
  have hk := List.mem_range.1 hk
  have h1 := hn.mean _ (isMean_centerOf hC0 nD) (colMean C k) (List.mem_map.2 ⟨k, List.mem_range.2 hk, rfl⟩)
  obtain ⟨⟨n, e⟩, h2, -⟩ := isCut_trunc (colMean C k)
  change truncK (colMean C k) = 0
  rw [e] at h2 ⊢
  have h3 := lt_of_le_of_lt h2 h1
  rw [← Int.cast_abs] at h3
  have h4 : |n| < 1 := by exact_mod_cast h3
  rw [Int.abs_lt_one_iff] at h4
  rw [h4]; simp

theorem zipWith_store {r t : List K} (hr : ∀ x ∈ r, IsInt x) (ht : ∀ x ∈ t, IsInt x) :
    List.zipWith (fun a b => storeAs true (a - b)) r t = List.zipWith (· - ·) r t := by
  apply List.ext_getElem
  · simp
  · intro k h1 h2
    rw [List.getElem_zipWith, List.getElem_zipWith]
    exact store_isInt ((hr _ (List.getElem_mem _)).sub (ht _ (List.getElem_mem _))) true

theorem center_ints (coords : List (List K)) (nD : Nat) : ∀ x ∈ centerOfAs true coords nD, IsInt x := by
  intro x hx
  obtain ⟨k, -, rfl⟩ := List.mem_map.1 hx
  exact isInt_trunc _

theorem centralizeAs_eq {coords : List (List K)} {nD : Nat} (h : nD = 2 ∨ nD = 3) (hr : Rect nD coords) (hi : ∀ r ∈ coords, ∀ x ∈ r, IsInt x) :
    centralizeAs true coords nD = some (coords.map fun r => List.zipWith (· - ·) r (centerOfAs true coords nD)) := by
  rw [centralizeAs, if_neg (by omega)]
  congr 1
  apply List.map_congr_left
  intro r hrm
  have hl := hr r hrm
  rw [← zipWith_store (hi r hrm) (center_ints coords nD)]
  apply List.ext_getElem
  · simp [centerOfAs, hl]
  · intro k h1 h2
    have hk : k < nD := by simpa [hl] using h1
    have hk3 : k < 3 := by omega
    simp [centerOfAs, hk3, hk]

/-- **C114** centring points with integer coordinates moves them by one vector of integers, such that their mean is less than one away from the
origin in every direction, and a second run does nothing. The mean is the origin if and only if the sum of every column is a multiple of the number
of points. -/
theorem C114_centralize_partial {coords : List (List K)} (hne : coords ≠ []) {nD : Nat} (hD : nD = 2 ∨ nD = 3) (hr : Rect nD coords)
    (hi : ∀ r ∈ coords, ∀ x ∈ r, IsInt x) :
    ∃ C, centralizeAs true coords nD = some C ∧ IsNearlyCentred coords nD C ∧ centralizeAs true C nD = some C ∧
      (IsCentred coords nD C ↔ ∀ k < nD, ∃ n : ℤ, (coords.map fun r => r.getD k 0).sum = (coords.length : K) * n) := by
  have hn := nearly_translate hne hr hi
  refine ⟨_, centralizeAs_eq hD hr hi, hn, ?_, nearly_iff hne hr⟩
  rw [centralizeAs_eq hD hn.rect hn.ints, nearly_fixed hne hr hi]
  congr 1
  conv_rhs => rw [← List.map_id (coords.map fun r => List.zipWith (· - ·) r (centerOfAs true coords nD))]
  apply List.map_congr_left
  intro r hrm
  apply List.ext_getElem
  · simp [hn.rect r hrm]
  · intro k h1 h2; simp

/-- **C114** the same for the cells of a mesh, for any number of columns. -/
theorem C114_centralize_cells_partial {ecoords : List (List (List K))} {nD : Nat}
    (h : ∀ e ∈ ecoords, e ≠ [] ∧ Rect nD e ∧ ∀ r ∈ e, ∀ x ∈ r, IsInt x) :
    (centralizeCellsAs true ecoords nD).length = ecoords.length ∧
    (∀ (i : Nat) (e E : List (List K)), ecoords[i]? = some e → (centralizeCellsAs true ecoords nD)[i]? = some E → IsNearlyCentred e nD E ∧
      (IsCentred e nD E ↔ ∀ k < nD, ∃ n : ℤ, (e.map fun r => r.getD k 0).sum = (e.length : K) * n)) := by
  refine ⟨by simp [centralizeCellsAs], ?_⟩
  intro i e E he hE
  rw [centralizeCellsAs, List.getElem?_map, he] at hE
  obtain rfl := Option.some.inj hE
  obtain ⟨h1, h2, h3⟩ := h e (List.mem_of_getElem? he)
  have : (e.map fun r => List.zipWith (fun a b => storeAs true (a - b)) r (centerOfAs true e nD)) =
      e.map fun r => List.zipWith (· - ·) r (centerOfAs true e nD) := by
    apply List.map_congr_left
    intro r hrm
    exact zipWith_store (h3 r hrm) (center_ints e nD)
  beta_reduce
  rw [this]
  exact ⟨nearly_translate h1 h2 h3, nearly_iff h1 h2⟩

/-- The corners of the unit square are not moved at all. -/
example : centralizeAs true ([[0, 0], [1, 0], [1, 1], [0, 1]] : List (List ℚ)) 2 = some [[0, 0], [1, 0], [1, 1], [0, 1]] ∧
    centralizeAs true ([[3, 0], [4, 0], [4, 4], [3, 4]] : List (List ℚ)) 2 = some [[0, -2], [1, -2], [1, 2], [0, 2]] := by decide +kernel

/-- **C114** fails for centring: the corners of the unit square. -/
theorem C114_centralize_false : ∃ coords C : List (List ℚ), (∀ r ∈ coords, r.length = 2 ∧ ∀ x ∈ r, IsInt x) ∧
    centralizeAs true coords 2 = some C ∧ ¬ IsCentred coords 2 C ∧ ∃ C', centralizeAs false coords 2 = some C' ∧ IsCentred coords 2 C' := by
  have hi : ∀ r ∈ ([[0, 0], [1, 0], [1, 1], [0, 1]] : List (List ℚ)), r.length = 2 ∧ ∀ x ∈ r, IsInt x := by
    have i0 : IsInt (0 : ℚ) := ⟨0, by simp⟩
    have i1 : IsInt (1 : ℚ) := ⟨1, by simp⟩
    intro r hr
    simp only [List.mem_cons, List.not_mem_nil, or_false] at hr
    rcases hr with rfl | rfl | rfl | rfl <;> refine ⟨rfl, fun x hx => ?_⟩ <;> simp only [List.mem_cons, List.not_mem_nil, or_false] at hx <;>
      rcases hx with rfl | rfl <;> assumption
  refine ⟨[[0, 0], [1, 0], [1, 1], [0, 1]], [[0, 0], [1, 0], [1, 1], [0, 1]], hi, by decide +kernel, ?_, ?_⟩
  · intro h
    have := h.mean.mean 0 0 (by simp)
    exact absurd this (by decide +kernel)
  · obtain ⟨C', h1, h2, -⟩ := C26_centralize_partial (coords := ([[0, 0], [1, 0], [1, 1], [0, 1]] : List (List ℚ))) (by simp) (nD := 2) (Or.inl rfl)
      fun r hr => (hi r hr).1
    refine ⟨C', ?_, h2⟩
    rw [← h1]
    decide +kernel

/-! ## grids from bins -/

theorem bins_as_eq (int : Bool) (bx bY bz : List K) (Nx Ny Nz : Nat) (s0 s1 s2 : K) (start : Int) :
    gridBins3As int bx bY bz Nx Ny Nz s0 s1 s2 start =
      ((gridBins3 bx bY bz Nx Ny Nz s0 s1 s2 start).1.map fun r => r.map (storeAs int), (gridBins3 bx bY bz Nx Ny Nz s0 s1 s2 start).2) := by
  have := runW_mapVal (storeAs int) (binsCoordW3 bx bY bz Nx Ny Nz s0 s1 s2) fun _ => 0
  rw [store_zero] at this
  rw [gridBins3As, gridBins3, bins3With, bins3With, this]
  simp [toRows]

/-- **C114** grids with bins: if the bins of the first direction are in an array of integers, the coordinates of *all* directions lose their decimals;
the topology is right. The grid is the one of C21 if and only if all its coordinates are integers. -/
theorem C114_bins_partial (bx bY bz : List K) (Nx Ny Nz : Nat) (s0 s1 s2 : K) (start : Int) :
    (gridBins3As true bx bY bz Nx Ny Nz s0 s1 s2 start).2 = (gridBins3 bx bY bz Nx Ny Nz s0 s1 s2 start).2 ∧
    List.Forall₂ (List.Forall₂ IsCut) (gridBins3 bx bY bz Nx Ny Nz s0 s1 s2 start).1 (gridBins3As true bx bY bz Nx Ny Nz s0 s1 s2 start).1 ∧
    (gridBins3As true bx bY bz Nx Ny Nz s0 s1 s2 start = gridBins3 bx bY bz Nx Ny Nz s0 s1 s2 start ↔
      ∀ r ∈ (gridBins3 bx bY bz Nx Ny Nz s0 s1 s2 start).1, ∀ x ∈ r, IsInt x) := by
  rw [bins_as_eq]
  refine ⟨rfl, ?_, ?_⟩
  · rw [List.forall₂_map_right_iff]
    refine List.forall₂_same.2 fun r _ => ?_
    rw [List.forall₂_map_right_iff]
    exact List.forall₂_same.2 fun x _ => isCut_trunc x
  · rw [Prod.ext_iff]
    simp only [and_true]
    constructor
    · intro h r hr x hx
      rw [← h] at hr
      obtain ⟨s, -, rfl⟩ := List.mem_map.1 hr
      obtain ⟨y, -, rfl⟩ := List.mem_map.1 hx
      exact isInt_trunc y
    · intro h
      conv_rhs => rw [← List.map_id (gridBins3 bx bY bz Nx Ny Nz s0 s1 s2 start).1]
      apply List.map_congr_left
      intro r hr
      conv_rhs => rw [id, ← List.map_id r]
      apply List.map_congr_left
      intro x hx
      exact store_isInt (h r hr x hx) true

/-- **C114** with integer bins and shifts and two nodes per direction (H8) the grid is right. -/
theorem C114_bins_H8 {bx bY bz : List K} {s0 s1 s2 : K} (start : Int) (h : 2 ≤ bx.length ∧ 2 ≤ bY.length ∧ 2 ≤ bz.length)
    (hx : ∀ x ∈ bx, IsInt x) (hy : ∀ x ∈ bY, IsInt x) (hz : ∀ x ∈ bz, IsInt x) (h0 : IsInt s0) (h1 : IsInt s1) (h2 : IsInt s2) :
    gridBins3As true bx bY bz 2 2 2 s0 s1 s2 start = gridBins3 bx bY bz 2 2 2 s0 s1 s2 start ∧
    IsGrid [binAxis bx 2 s0, binAxis bY 2 s1, binAxis bz 2 s2] start (gridBins3As true bx bY bz 2 2 2 s0 s1 s2 start).1
      (gridBins3As true bx bY bz 2 2 2 s0 s1 s2 start).2 := by
  have hg := C21_bins_3d bx bY bz 2 2 2 s0 s1 s2 start h ⟨by omega, by omega, by omega⟩
  have key : gridBins3As true bx bY bz 2 2 2 s0 s1 s2 start = gridBins3 bx bY bz 2 2 2 s0 s1 s2 start := by
    rw [gridBins3As, gridBins3]
    congr 1
    conv_rhs => rw [← List.map_id (binsCoordW3 bx bY bz 2 2 2 s0 s1 s2)]
    apply List.map_congr_left
    intro w hw
    have hgd : ∀ {l : List K}, (∀ x ∈ l, IsInt x) → ∀ i, IsInt (l.getD i 0) := by
      intro l hl i
      rw [List.getD_eq_getElem?_getD]
      cases hi : l[i]? with
      | none => exact ⟨0, by simp⟩
      | some x => exact hl x (List.mem_of_getElem? hi)
    have hn : ∀ p : Nat, IsInt (p : K) := fun p => ⟨p, by simp⟩
    simp only [binsCoordW3, List.mem_flatMap, rowWrites] at hw
    obtain ⟨i, -, j, -, k, -, p, -, q, -, r, -, hw⟩ := hw
    simp at hw
    refine Prod.ext rfl (store_isInt ?_ true)
    rcases hw with rfl | rfl | rfl <;> simp
    · exact (h0.add (hgd hx i)).add (((hgd hx (i + 1)).sub (hgd hx i)).mul (hn p))
    · exact (h1.add (hgd hy j)).add (((hgd hy (j + 1)).sub (hgd hy j)).mul (hn q))
    · exact (h2.add (hgd hz k)).add (((hgd hz (k + 1)).sub (hgd hz k)).mul (hn r))
  exact ⟨key, by rw [key]; exact hg⟩

/-- **C114** fails for bins: with `xbins = [0, 1]` in integers and `ybins = [0, 0.5]` the cell has no extent in the second direction, and the midside
nodes of a cell between integer bins fall on its corners. -/
theorem C114_bins_false :
    (gridBins3As true [(0 : ℚ), 1] [0, 1 / 2] [0, 1] 2 2 2 0 0 0 0).1 = [[0, 0, 0], [0, 0, 1], [0, 0, 0], [0, 0, 1], [1, 0, 0], [1, 0, 1], [1, 0, 0], [1, 0, 1]] ∧
    (gridBins3As true [(0 : ℚ), 1] [0, 1] [0, 1] 3 2 2 0 0 0 0).1 ≠ (gridBins3 [(0 : ℚ), 1] [0, 1] [0, 1] 3 2 2 0 0 0 0).1 ∧
    ¬ (gridBins3As true [(0 : ℚ), 1] [0, 1] [0, 1] 3 2 2 0 0 0 0).1.Nodup := by
  refine ⟨by decide +kernel, by decide +kernel, by decide +kernel⟩

/-! ## distribution factors -/

/-- Specification: no node belongs to two cells. -/
def NotShared (topo : Topo) : Prop := ∀ c j c' j' n, nodeAt topo c j = some n → nodeAt topo c' j' = some n → c = c'

omit [FloorRing K] in
theorem two_le_sum {α : Type} [DecidableEq α] {l : List α} {f : α → K} (h : ∀ x ∈ l, 0 ≤ f x) {a b : α} (ha : a ∈ l) (hb : b ∈ l) (hab : a ≠ b) :
    f a + f b ≤ (l.map f).sum := by
  have h1 := List.perm_cons_erase ha
  rw [(h1.map f).sum_eq, List.map_cons, List.sum_cons]
  have hb' : b ∈ l.erase a := (List.mem_erase_of_ne (Ne.symm hab)).2 hb
  have := le_sum_of_mem' (l := (l.erase a).map f) (a := f b) (fun x hx => by
    obtain ⟨y, hy, rfl⟩ := List.mem_map.1 hx
    exact h y (List.mem_of_mem_erase hy)) (List.mem_map_of_mem hb')
  linarith

omit [FloorRing K] in
/-- The factors without decimals: one if the cell is the only one at the node, zero otherwise. -/
theorem partition_cut {topo : Topo} {w : List K} {F : List (List K)} (hP : IsPartition topo w F) (hnd : ∀ r ∈ topo, r.Nodup) {c j n : Nat}
    (h : nodeAt topo c j = some n) :
    ∃ f, nodeAt F c j = some f ∧ ((∀ c' j', nodeAt topo c' j' = some n → c' = c) → f = 1) ∧
      (∀ c' j', nodeAt topo c' j' = some n → c' ≠ c → 0 < f ∧ f < 1) := by
  have hget : ∀ {c j n}, nodeAt topo c j = some n → ∃ f, nodeAt F c j = some f ∧ 0 < f ∧ f ≤ 1 := by
    intro c j n h
    rw [nodeAt] at h
    have hl : F.length = topo.length := by simpa using congrArg List.length hP.shape
    cases ht : topo[c]? with
    | none => rw [ht] at h; cases h
    | some r =>
      rw [ht] at h
      change r[j]? = some n at h
      have hc := (List.getElem?_eq_some_iff.1 ht).1
      have hcF : c < F.length := by omega
      have hlen : F[c].length = r.length := by
        have := congrArg (fun l => l[c]?) hP.shape
        simp only [List.getElem?_map, ht, List.getElem?_eq_getElem hcF, Option.map_some, Option.some.injEq] at this
        exact this
      have hj : j < F[c].length := by rw [hlen]; exact (List.getElem?_eq_some_iff.1 h).1
      refine ⟨F[c][j], ?_, hP.pos _ (List.getElem_mem hcF) _ (List.getElem_mem hj)⟩
      rw [nodeAt, List.getElem?_eq_getElem hcF]
      exact List.getElem?_eq_getElem hj
  obtain ⟨f, hf, hf0, hf1⟩ := hget h
  have hI := incidence_atNode topo n
  set ps := (atNode (entriesOf topo) n).map fun e => (e.cell, e.pos) with hps
  have hmem : (c, j) ∈ ps := (hI.exact c j).2 h
  have hsum := hP.sum_one n ps hI (List.ne_nil_of_mem hmem)
  refine ⟨f, hf, ?_, ?_⟩
  · intro honly
    have hall : ∀ p ∈ ps, p = (c, j) := by
      rintro ⟨c', j'⟩ hp
      have hp' := (hI.exact c' j').1 hp
      obtain rfl := honly c' j' hp'
      rw [nodeAt] at h hp'
      cases ht : topo[c']? with
      | none => rw [ht] at h; cases h
      | some r =>
        rw [ht] at h hp'
        change r[j]? = some n at h
        change r[j']? = some n at hp'
        have hr := hnd r (List.mem_of_getElem? ht)
        obtain ⟨a, b⟩ := List.getElem?_eq_some_iff.1 h
        obtain ⟨a', b'⟩ := List.getElem?_eq_some_iff.1 hp'
        rw [(hr.getElem_inj_iff).1 (b'.trans b.symm)]
    have hnodup : ps.Nodup := hI.sorted.imp fun {a b} hab he => by subst he; omega
    have hlist : ps = [(c, j)] := by
      rw [List.eq_replicate_of_mem hall]
      have : ps.length = 1 := by
        have h1 : 0 < ps.length := List.length_pos_of_mem hmem
        by_contra hne
        have h2 : 1 < ps.length := by omega
        have e0 := hall _ (List.getElem_mem h1)
        have e1 := hall _ (List.getElem_mem h2)
        have := (hnodup.getElem_inj_iff).1 (e0.trans e1.symm)
        omega
      rw [this]; rfl
    rw [hlist] at hsum
    simpa [hf] using hsum
  · intro c' j' h' hne
    refine ⟨hf0, ?_⟩
    obtain ⟨f', hf', hf0', -⟩ := hget h'
    have hmem' : (c', j') ∈ ps := (hI.exact c' j').2 h'
    have := two_le_sum (f := fun p : Nat × Nat => (nodeAt F p.1 p.2).getD 0) (l := ps) (fun p hp => by
      obtain ⟨g, hg, hg0, -⟩ := hget ((hI.exact p.1 p.2).1 hp)
      rw [hg]; exact hg0.le) hmem hmem' (fun e => hne (by rw [Prod.mk.injEq] at e; exact e.1.symm))
    rw [hsum] at this
    simp only [hf, hf', Option.getD_some] at this
    linarith

omit [IsStrictOrderedRing K] in
theorem ndfAs_eq {topo : Topo} {w : List K} (int : Bool) : ndfAs int topo w = (ndf topo w).map fun F => F.map fun r => r.map (storeAs int) := by
  rw [ndfAs, ndf]
  split
  · rfl
  · rw [Option.map_some]
    congr 1
    apply List.ext_getElem
    · simp
    · intro i h1 h2; simp

/-- **C114** distribution factors for weights in an array of integers (any positive weights): the factor of a cell is one at the nodes that
belong to no other cell and zero at all other nodes. The factors are a partition of one if and only if no node belongs to two cells. -/
theorem C114_factors_partial {topo : Topo} {w : List K} (hl : w.length = topo.length) (hne : topo.flatten ≠ []) (hnd : ∀ r ∈ topo, r.Nodup)
    (hw : ∀ x ∈ w, 0 < x) :
    ∃ F, ndfAs true topo w = some F ∧ F.map List.length = topo.map List.length ∧
      (∀ c j n, nodeAt topo c j = some n → ((∀ c' j', nodeAt topo c' j' = some n → c' = c) → nodeAt F c j = some 1) ∧
        ∀ c' j', nodeAt topo c' j' = some n → c' ≠ c → nodeAt F c j = some 0) ∧
      (IsPartition topo w F ↔ NotShared topo) := by
  obtain ⟨E, hE, hP⟩ := C24_partition hl hne hnd hw
  have hgetF : ∀ c j, nodeAt (E.map fun r => r.map (storeAs true)) c j = (nodeAt E c j).map (storeAs true) := by
    intro c j
    rw [nodeAt, nodeAt, List.getElem?_map]
    cases E[c]? with
    | none => rfl
    | some r => exact List.getElem?_map
  have hent : ∀ c j n, nodeAt topo c j = some n → ((∀ c' j', nodeAt topo c' j' = some n → c' = c) →
      nodeAt (E.map fun r => r.map (storeAs true)) c j = some 1) ∧
        ∀ c' j', nodeAt topo c' j' = some n → c' ≠ c → nodeAt (E.map fun r => r.map (storeAs true)) c j = some 0 := by
    intro c j n h
    obtain ⟨f, hf, h1, h2⟩ := partition_cut hP hnd h
    rw [hgetF, hf, Option.map_some]
    refine ⟨fun ho => ?_, fun c' j' h' hc' => ?_⟩
    · rw [h1 ho, store_isInt ⟨1, by simp⟩]
    · obtain ⟨a, b⟩ := h2 c' j' h' hc'
      have hz : IsCut f 0 := ⟨⟨0, by simp⟩, by simp, by rw [sub_zero, abs_of_pos a]; exact b⟩
      rw [storeAs, if_pos rfl, isCut_unique (isCut_trunc f) hz]
  refine ⟨_, by rw [ndfAs_eq, hE, Option.map_some], ?_, hent, ?_⟩
  · rw [← hP.shape, List.map_map]
    apply List.map_congr_left
    intro r _
    simp
  · constructor
    · intro hF c j c' j' n h h'
      by_contra hc
      have h0 := (hent c j n h).2 c' j' h' (fun e => hc e.symm)
      rw [nodeAt] at h0
      cases hr : (E.map fun r => r.map (storeAs true))[c]? with
      | none => rw [hr] at h0; cases h0
      | some r =>
        rw [hr] at h0
        change r[j]? = some 0 at h0
        have := (hF.pos r (List.mem_of_getElem? hr) 0 (List.mem_of_getElem? h0)).1
        exact lt_irrefl _ this
    · intro hns
      have : (E.map fun r => r.map (storeAs true)) = E := by
        have hlen : E.length = topo.length := by simpa using congrArg List.length hP.shape
        conv_rhs => rw [← List.map_id E]
        apply List.map_congr_left
        intro r hr
        conv_rhs => rw [id, ← List.map_id r]
        apply List.map_congr_left
        intro x hx
        obtain ⟨c, hc, rfl⟩ := List.mem_iff_getElem.1 hr
        obtain ⟨j, hj, rfl⟩ := List.mem_iff_getElem.1 hx
        have hct : c < topo.length := by omega
        have hlr : E[c].length = topo[c].length := by
          have := congrArg (fun l => l[c]?) hP.shape
          simpa [List.getElem?_eq_getElem hc, List.getElem?_eq_getElem hct] using this
        have hjt : j < topo[c].length := by omega
        have hn : nodeAt topo c j = some topo[c][j] := by
          simp [nodeAt, List.getElem?_eq_getElem hct, List.getElem?_eq_getElem hjt]
        obtain ⟨f, hf, h1, -⟩ := partition_cut hP hnd hn
        have hEf : nodeAt E c j = some E[c][j] := by
          simp [nodeAt, List.getElem?_eq_getElem hc, List.getElem?_eq_getElem hj]
        rw [hEf] at hf
        rw [Option.some.inj hf, h1 fun c' j' h' => hns _ _ _ _ _ h' hn]
        exact store_isInt ⟨1, by simp⟩ true
      rw [this]
      exact hP

/-- A permutation of mapped values is a permutation of the values, mapped. -/
theorem perm_map_split {α β : Type} {f : α → β} (l : List α) (s : List β) (h : (l.map f).Perm s) : ∃ s', l.Perm s' ∧ s = s'.map f := by
  have h1 : List.Forall₂ (fun a b => f a = b) l (l.map f) := by
    rw [List.forall₂_map_right_iff]
    exact List.forall₂_same.2 fun _ _ => rfl
  have h2 : Relation.Comp (List.Forall₂ fun a b => f a = b) List.Perm l s := ⟨_, h1, h⟩
  rw [List.forall₂_comp_perm_eq_perm_comp_forall₂] at h2
  obtain ⟨s', h3, h4⟩ := h2
  refine ⟨s', h3, ?_⟩
  clear h3 h1 h
  induction h4 with
  | nil => rfl
  | cons e _ ih => rw [List.map_cons, e, ← ih]

/-- **C114** the same for ragged topologies in csr format: the flat array holds the factors of the dense function. -/
theorem C114_factors_csr {topo : Topo} {w : List K} (hl : w.length = topo.length) (hne : topo.flatten ≠ []) (hnd : ∀ r ∈ topo, r.Nodup)
    (hw : ∀ x ∈ w, 0 < x) {sched : List (Nat × K)} (hp : (ndfCsrWAs true topo.flatten (rowPtr topo) w).Perm sched) :
    ∃ F, ndfAs true topo w = some F ∧ ndfCsrWith topo.flatten (rowPtr topo) w sched = some F.flatten := by
  -- the schedule is a schedule of the exact factors, without decimals
  obtain ⟨s', h1, rfl⟩ := perm_map_split _ _ hp
  obtain ⟨E, hE, hEP⟩ := C24_csr hl hne hnd hw h1
  obtain ⟨F, hF, hshape, hent, -⟩ := C114_factors_partial hl hne hnd hw
  refine ⟨F, hF, ?_⟩
  have hEF : (E.map fun r => r.map (storeAs true)) = F := by
    have hlE : E.length = topo.length := by simpa using congrArg List.length hEP.shape
    have hlF : F.length = topo.length := by simpa using congrArg List.length hshape
    refine List.ext_getElem (by simp [hlE, hlF]) fun c hc hcF => ?_
    have hcE : c < E.length := by simpa using hc
    have hct : c < topo.length := by omega
    have hlr : E[c].length = topo[c].length := by
      have := congrArg (fun l => l[c]?) hEP.shape
      simpa [List.getElem?_eq_getElem hcE, List.getElem?_eq_getElem hct] using this
    have hlr' : F[c].length = topo[c].length := by
      have := congrArg (fun l => l[c]?) hshape
      simpa [List.getElem?_eq_getElem hcF, List.getElem?_eq_getElem hct] using this
    rw [List.getElem_map]
    refine List.ext_getElem (by simp [hlr, hlr']) fun j hj hjF => ?_
    rw [List.getElem_map]
    have hjE : j < E[c].length := by simpa using hj
    have hjt : j < topo[c].length := by omega
    have hn : nodeAt topo c j = some topo[c][j] := by
      simp [nodeAt, List.getElem?_eq_getElem hct, List.getElem?_eq_getElem hjt]
    have hEf : nodeAt E c j = some E[c][j] := by
      simp [nodeAt, List.getElem?_eq_getElem hcE, List.getElem?_eq_getElem hjE]
    have hFf : nodeAt F c j = some F[c][j] := by
      simp [nodeAt, List.getElem?_eq_getElem hcF, List.getElem?_eq_getElem hjF]
    obtain ⟨f, hf, k1, k2⟩ := partition_cut hEP hnd hn
    obtain ⟨m1, m2⟩ := hent c j _ hn
    rw [hEf] at hf
    rw [Option.some.inj hf]
    rw [hFf] at m1 m2
    by_cases ho : ∀ c' j', nodeAt topo c' j' = some topo[c][j] → c' = c
    · rw [k1 ho, Option.some.inj (m1 ho)]
      exact store_isInt ⟨1, by simp⟩ true
    · push Not at ho
      obtain ⟨c', j', g1, g2⟩ := ho
      obtain ⟨a, b⟩ := k2 c' j' g1 g2
      rw [Option.some.inj (m2 c' j' g1 g2)]
      have hz : IsCut f 0 := ⟨⟨0, by simp⟩, by simp, by rw [sub_zero, abs_of_pos a]; exact b⟩
      rw [storeAs, if_pos rfl, isCut_unique (isCut_trunc f) hz]
  have hrun := runW_mapVal (storeAs true) s' fun _ => (0 : K)
  rw [store_zero] at hrun
  rw [ndfCsrWith] at hE ⊢
  split at hE
  · cases hE
  · rename_i hcond
    rw [if_neg hcond, hrun, ← hEF]
    have := Option.some.inj hE
    congr 1
    rw [← List.map_flatten, ← this, toArr, toArr, List.map_map]
    rfl

/-- Two triangles with a common edge: only the nodes of one triangle get a factor. -/
example : ndfAs (K := ℚ) true [[0, 1, 2], [2, 1, 3]] [1, 3] = some [[1, 0, 0], [0, 0, 1]] := by decide +kernel

/-- **C114** fails for factors: the same triangles; the sum of the factors at node 1 is zero. -/
theorem C114_factors_false : ∃ (topo : Topo) (w : List ℚ) (F : List (List ℚ)), w.length = topo.length ∧ (∀ x ∈ w, IsInt x ∧ 0 < x) ∧
    ndfAs true topo w = some F ∧ ¬ IsPartition topo w F ∧ nodeAt F 0 1 = some 0 ∧ nodeAt F 1 1 = some 0 ∧ nodeAt topo 0 1 = nodeAt topo 1 1 := by
  refine ⟨[[0, 1, 2], [2, 1, 3]], [1, 3], [[1, 0, 0], [0, 0, 1]], rfl, ?_, by decide +kernel, ?_, by decide +kernel, by decide +kernel, by decide⟩
  · intro x hx
    simp only [List.mem_cons, List.not_mem_nil, or_false] at hx
    rcases hx with rfl | rfl
    · exact ⟨⟨1, by simp⟩, by norm_num⟩
    · exact ⟨⟨3, by norm_num⟩, by norm_num⟩
  · intro h
    have := (h.pos [1, 0, 0] (by simp) 0 (by simp)).1
    exact lt_irrefl _ this

/-! ## data -/

/-- **C114** `homogenize_nodal_values` with data in an array of integers: the value of a cell is the exact one without its decimals; all values are
right if and only if the exact values are integers. -/
theorem C114_homogenize_partial {data : List (List K)} {measure : List K} (hl : measure.length = data.length) (h0 : ∀ m ∈ measure, m ≠ 0) :
    ∃ R E, homogenizeAs true data measure = some R ∧ homogenize data measure = some E ∧ List.Forall₂ IsCut E R ∧
      (R = E ↔ ∀ x ∈ E, IsInt x) := by
  have key : ∀ int, homogenizeAs int data measure = some ((data.zip measure).map fun x => storeAs int (x.1.sum / x.2)) := by
    intro int
    unfold homogenizeAs
    rw [mapM_eq_some_iff, List.forall₂_iff_get]
    refine ⟨by simp [hl], fun i h1 h2 => ?_⟩
    have hi : i < measure.length := by simp at h1; omega
    have hm := h0 _ (List.getElem_mem hi)
    simp [List.getElem?_eq_getElem hi, hm]
  have hE : homogenize data measure = some ((data.zip measure).map fun x => x.1.sum / x.2) := by
    have h1 := (C114_float (K := K) [] [] [] 0 [] [] [] 0 0 0 0 0 0 0 [] measure [] [] data id [] [] [] none none none false 0 0).2.2.2.2.2.2.2.1
    rw [← h1, key]
    rfl
  refine ⟨_, _, key true, hE, ?_, ?_⟩
  · rw [List.forall₂_map_left_iff, List.forall₂_map_right_iff]
    exact List.forall₂_same.2 fun x _ => isCut_trunc _
  · constructor
    · intro h x hx
      rw [← h] at hx
      obtain ⟨y, -, rfl⟩ := List.mem_map.1 hx
      exact isInt_trunc _
    · intro h
      apply List.map_congr_left
      intro x hx
      exact store_isInt (h _ (List.mem_map.2 ⟨x, hx, rfl⟩)) true

/-- **C114** fails for homogenized data: the values 1, 2, 2 with measure 3 give 1. -/
theorem C114_homogenize_false : homogenizeAs true [[(1 : ℚ), 2, 2]] [3] = some [1] ∧ homogenize [[(1 : ℚ), 2, 2]] [(3 : ℚ)] = some [5 / 3] := by
  refine ⟨by decide +kernel, by decide +kernel⟩

/-- **C114** exploding a mesh with data: if the coordinates are in an array of integers, the *data* lose their decimals, whatever their type. Points and
cells are right; the data are right if and only if they are integers. -/
theorem C114_explode_partial {α : Type} {coords : List α} {topo : Topo} {nNE : Nat} (hr : ∀ r ∈ topo, r.length = nNE)
    (hin : ∀ r ∈ topo, ∀ n ∈ r, n < coords.length) {data : List (List K)} (hd : data.length = topo.length) (hdr : ∀ r ∈ data, r.length = nNE)
    (zero : α) :
    ∃ C T D, explodeDataAs true zero coords topo data nNE = some (C, T, D) ∧ IsExploded coords topo nNE C T ∧ D.length = C.length ∧
      (∀ i j m x, nodeAt T i j = some m → nodeAt data i j = some x → ∃ y, D[m]? = some y ∧ IsCut x y) ∧
      ((∀ i j m, nodeAt T i j = some m → D[m]? = nodeAt data i j) ↔ ∀ r ∈ data, ∀ x ∈ r, IsInt x) := by
  have hW : (explodeDataW topo.length data nNE).map (fun w => (w.1, w.2.map (storeAs true))) =
      explodeDataW topo.length (data.map (List.map (storeAs true))) nNE := by
    simp only [explodeDataW, List.map_flatMap, List.map_map]
    congr 1
    funext i
    apply List.map_congr_left
    intro j _
    simp only [Function.comp, nodeAt_map']
  obtain ⟨C, T, D, h1, h2, h3, h4⟩ := C23_explode_data hr hin (data := data.map (List.map (storeAs true))) (by simpa using hd)
    (by intro r hx; obtain ⟨s, hs, rfl⟩ := List.mem_map.1 hx; simpa using hdr s hs) zero (0 : K) (.refl _) (.refl _) (.refl _)
  refine ⟨C, T, D, by rw [explodeDataAs, hW]; exact h1, h2, h3, ?_, ?_⟩
  · intro i j m x hm hx
    refine ⟨truncK x, ?_, isCut_trunc x⟩
    rw [h4 i j m hm, nodeAt_map', hx]; rfl
  · constructor
    · intro h r hrm x hx
      obtain ⟨i, hi, rfl⟩ := List.mem_iff_getElem.1 hrm
      obtain ⟨j, hj, rfl⟩ := List.mem_iff_getElem.1 hx
      have hit : i < topo.length := by omega
      have hjn : j < topo[i].length := by rw [hr _ (List.getElem_mem hit), ← hdr _ (List.getElem_mem hi)]; exact hj
      have hn : nodeAt topo i j = some topo[i][j] := by
        simp [nodeAt, List.getElem?_eq_getElem hit, List.getElem?_eq_getElem hjn]
      have hx' : nodeAt data i j = some data[i][j] := by
        simp [nodeAt, List.getElem?_eq_getElem hi, List.getElem?_eq_getElem hj]
      obtain ⟨m, hm, -⟩ := h2.place i j _ hn
      have e := h i j m hm
      rw [h4 i j m hm, nodeAt_map', hx', Option.map_some] at e
      exact (trunc_eq_iff _).1 (Option.some.inj e)
    · intro h i j m hm
      rw [h4 i j m hm, nodeAt_map']
      cases hx : nodeAt data i j with
      | none => rfl
      | some x =>
        rw [Option.map_some]
        congr 1
        apply store_isInt
        rw [nodeAt] at hx
        cases hrow : data[i]? with
        | none => rw [hrow] at hx; cases hx
        | some r =>
          rw [hrow] at hx
          exact h r (List.mem_of_getElem? hrow) x (List.mem_of_getElem? hx)

/-- **C114** fails for data of exploded meshes: temperatures 20.5 and 21.7 on a line between integer points become 20 and 21. -/
theorem C114_explode_false : explodeDataAs true ([0] : List ℚ) [[0], [4]] [[0, 1]] ([[41 / 2, 217 / 10]] : List (List ℚ)) 2 = some ([[0], [4]], [[0, 1]], [20, 21]) ∧
    explodeDataAs false ([0] : List ℚ) [[0], [4]] [[0, 1]] ([[41 / 2, 217 / 10]] : List (List ℚ)) 2 = some ([[0], [4]], [[0, 1]], [41 / 2, 217 / 10]) := by
  refine ⟨by decide +kernel, by decide +kernel⟩

/-! ## points of line cells -/

/-- Specification: the points without decimals. -/
def IsCut3 (x y : V3 K) : Prop := IsCut x.x y.x ∧ IsCut x.y y.y ∧ IsCut x.z y.z

/-- Specification: as `LineEval`, with the points without their decimals. -/
def LineEvalCut (coords : List (V3 K)) (topo : Topo) (cells : List Nat) (points : List K) (s : K × K) (r : List (List (V3 K))) : Prop :=
  r.length = cells.length ∧ ∀ (k c : Nat) (cell : List Nat), cells[k]? = some c → topo[c]? = some cell →
    ∃ e, r[k]? = some e ∧ e.length = points.length ∧ ∀ (j : Nat) (p : K) (m n : Nat) (a b : V3 K), points[j]? = some p →
      cell.head? = some m → cell.getLast? = some n → coords[m]? = some a → coords[n]? = some b →
      ∃ x y, e[j]? = some y ∧ OnSegment a b ((p - s.1) / (s.2 - s.1)) x ∧ IsCut3 x y

/-- Points of a result mapped. -/
def LinePts.mapPts (f : V3 K → V3 K) : LinePts K → LinePts K
  | .empty => .empty
  | .flat l => .flat (l.map f)
  | .grid l => .grid (l.map fun r => r.map f)

theorem v3_store_zero (int : Bool) : (0 : V3 K).storeAs int = 0 := by
  show (⟨storeAs int 0, storeAs int 0, storeAs int 0⟩ : V3 K) = ⟨0, 0, 0⟩
  rw [store_zero]

theorem v3_store_int {p : V3 K} (h : IsInt p.x ∧ IsInt p.y ∧ IsInt p.z) (int : Bool) : p.storeAs int = p := by
  rw [V3.storeAs, store_isInt h.1, store_isInt h.2.1, store_isInt h.2.2]

theorem linePtsOutAs_eq (int : Bool) (ord : List (Nat × V3 K) → List (Nat × V3 K)) (ts : List K) (ec : List (List (V3 K))) (fl : Bool) :
    linePtsOutAs int ord ts ec fl = (linePtsOut ord ts ec fl).map (LinePts.mapPts (V3.storeAs int)) := by
  unfold linePtsOutAs linePtsOut
  cases pcoords1dWrites ts ec with
  | none => rfl
  | some w =>
    have hrun := runW_mapVal (V3.storeAs int) (ord w) fun _ => (0 : V3 K)
    rw [v3_store_zero] at hrun
    have hres : pcoords1dRun ts ec ((ord w).map fun x => (x.1, x.2.storeAs int)) = (pcoords1dRun ts ec (ord w)).map (V3.storeAs int) := by
      rw [pcoords1dRun, pcoords1dRun, hrun, toArr, toArr, List.map_map]
      rfl
    simp only [Option.bind_some, hres]
    cases fl
    · simp only [Bool.false_eq_true, if_false, reshapeCells, List.length_map]
      split
      · simp [LinePts.mapPts, List.map_drop, List.map_take]
      · rfl
    · rfl

theorem linePointsAs_eq (int : Bool) {coords : List (V3 K)} (hi : ∀ p ∈ coords, IsInt p.x ∧ IsInt p.y ∧ IsInt p.z)
    (ord : List (Nat × V3 K) → List (Nat × V3 K)) (lc : List K) (ids : List Nat) (topo : Topo) (points : Option (List K)) (cells : Option (List Nat))
    (rng : Option (K × K)) (fl : Bool) :
    linePointsAs int ord lc coords ids topo points cells rng fl =
      (linePoints ord lc coords ids topo points cells rng fl).map (LinePts.mapPts (V3.storeAs int)) := by
  unfold linePointsAs linePoints
  cases he : topo.mapM fun row => gather? coords row with
  | none => rfl
  | some ec =>
    rw [Option.bind_some, Option.bind_some]
    split
    · simp only [Option.map_some, LinePts.mapPts]
      congr 2
      conv_lhs => rw [← List.map_id ec]
      apply List.map_congr_left
      intro r hr
      conv_lhs => rw [id, ← List.map_id r]
      apply List.map_congr_left
      intro p hp
      rw [id]
      refine (v3_store_int (hi p ?_) int).symm
      obtain ⟨i, hil, rfl⟩ := List.mem_iff_getElem.1 hr
      have hit : i < topo.length := by rw [← mapM_length he]; exact hil
      obtain ⟨b, h2, h3⟩ := mapM_get he (List.getElem?_eq_getElem hit)
      rw [List.getElem?_eq_getElem hil] at h3
      rw [← Option.some.inj h3] at h2
      obtain ⟨j, hj, rfl⟩ := List.mem_iff_getElem.1 hp
      have hjt : j < topo[i].length := by rw [← mapM_length h2]; exact hj
      obtain ⟨q, h4, h5⟩ := mapM_get h2 (List.getElem?_eq_getElem hjt)
      rw [List.getElem?_eq_getElem hj] at h5
      rw [Option.some.inj h5]
      exact List.mem_of_getElem? h4
    · cases lineCells ids ec cells with
      | none => rfl
      | some sel =>
        cases sel with
        | none => rfl
        | some e =>
          simp only [Option.bind_some]
          cases lineParams lc points rng with
          | none => rfl
          | some ts => exact linePtsOutAs_eq int ord ts e fl

theorem lineEval_cut {coords : List (V3 K)} {topo : Topo} {cells : List Nat} {points : List K} {s : K × K} {r : List (List (V3 K))}
    (h : LineEval coords topo cells points s r) : LineEvalCut coords topo cells points s (r.map fun e => e.map (V3.storeAs true)) := by
  obtain ⟨h1, h2⟩ := h
  refine ⟨by simp [h1], fun k c cell hk hc => ?_⟩
  obtain ⟨e, e1, e2, e3⟩ := h2 k c cell hk hc
  refine ⟨e.map (V3.storeAs true), by rw [List.getElem?_map, e1]; rfl, by simp [e2], fun j p m n a b hj hm hn ha hb => ?_⟩
  obtain ⟨x, x1, x2⟩ := e3 j p m n a b hj hm hn ha hb
  exact ⟨x, x.storeAs true, by rw [List.getElem?_map, x1]; rfl, x2, isCut_trunc _, isCut_trunc _, isCut_trunc _⟩

/-- **C114** points of chosen line cells between integer points: the exact points without their decimals. -/
theorem C114_lines_partial {ord : List (Nat × V3 K) → List (Nat × V3 K)} (hord : ∀ w, (ord w).Perm w) {lco : List K} {coords : List (V3 K)}
    (hi : ∀ p ∈ coords, IsInt p.x ∧ IsInt p.y ∧ IsInt p.z) {topo : Topo} {cells : List Nat} {points : List K} {rng : Option (K × K)}
    (hne : cells ≠ []) (hin : ∀ c ∈ cells, c < topo.length) (hnode : ∀ cell ∈ topo, cell ≠ [] ∧ ∀ n ∈ cell, n < coords.length)
    (hrng : (rng.getD (0, 1)).1 ≠ (rng.getD (0, 1)).2) :
    ∃ r, linePointsAs true ord lco coords (List.range topo.length) topo (some points) (some cells) rng false = some (.grid r) ∧
      linePointsAs true ord lco coords (List.range topo.length) topo (some points) (some cells) rng true = some (.flat r.flatten) ∧
      LineEvalCut coords topo cells points (rng.getD (0, 1)) r := by
  obtain ⟨r, h1, h2, h3⟩ := C82_cells_partial hord (lco := lco) hne hin hnode hrng (points := points)
  refine ⟨r.map fun e => e.map (V3.storeAs true), ?_, ?_, lineEval_cut h3⟩
  · rw [linePointsAs_eq true hi, h1]; rfl
  · rw [linePointsAs_eq true hi, h2, Option.map_some, LinePts.mapPts, List.map_flatten]

/-- **C114** the same for all cells of the block. -/
theorem C114_lines_all {ord : List (Nat × V3 K) → List (Nat × V3 K)} (hord : ∀ w, (ord w).Perm w) {lco : List K} {ids : List Nat}
    {coords : List (V3 K)} (hi : ∀ p ∈ coords, IsInt p.x ∧ IsInt p.y ∧ IsInt p.z) {topo : Topo} {points : List K} {rng : Option (K × K)}
    (hnode : ∀ cell ∈ topo, cell ≠ [] ∧ ∀ n ∈ cell, n < coords.length) (hrng : (rng.getD (0, 1)).1 ≠ (rng.getD (0, 1)).2) :
    ∃ r, linePointsAs true ord lco coords ids topo (some points) none rng false = some (.grid r) ∧
      linePointsAs true ord lco coords ids topo (some points) none rng true = some (.flat r.flatten) ∧
      LineEvalCut coords topo (List.range topo.length) points (rng.getD (0, 1)) r := by
  obtain ⟨r, h1, h2, h3⟩ := C82_all hord (lco := lco) (ids := ids) hnode hrng (points := points)
  refine ⟨r.map fun e => e.map (V3.storeAs true), ?_, ?_, lineEval_cut h3⟩
  · rw [linePointsAs_eq true hi, h1]; rfl
  · rw [linePointsAs_eq true hi, h2, Option.map_some, LinePts.mapPts, List.map_flatten]

omit [IsStrictOrderedRing K] in
/-- **C114** the nodes themselves are right. -/
theorem C114_lines_nodes {ord : List (Nat × V3 K) → List (Nat × V3 K)} {lco : List K} {ids : List Nat} {coords : List (V3 K)} {topo : Topo}
    {rng : Option (K × K)} {fl : Bool} :
    linePointsAs true ord lco coords ids topo none none rng fl = linePoints ord lco coords ids topo none none rng fl := by
  unfold linePointsAs linePoints
  congr 1

/-- **C114** fails for points of lines: the midpoint of the line from the origin to (1, 2, 3) is (0, 1, 1). -/
theorem C114_lines_false :
    linePointsAs true id [-1, 1] [⟨0, 0, 0⟩, (⟨1, 2, 3⟩ : V3 ℚ)] [0] [[0, 1]] (some [0, 1 / 2, 1]) none none false =
      some (.grid [[⟨0, 0, 0⟩, ⟨0, 1, 1⟩, ⟨1, 2, 3⟩]]) ∧
    linePointsAs false id [-1, 1] [⟨0, 0, 0⟩, (⟨1, 2, 3⟩ : V3 ℚ)] [0] [[0, 1]] (some [0, 1 / 2, 1]) none none false =
      some (.grid [[⟨0, 0, 0⟩, ⟨1 / 2, 1, 3 / 2⟩, ⟨1, 2, 3⟩]]) := by
  refine ⟨by decide +kernel, by decide +kernel⟩

end

end PM
