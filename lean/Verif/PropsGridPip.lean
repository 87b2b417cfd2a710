import Verif.PropsGridLocate
import Verif.PropsLocateTri

/-!
# C108: points in grids
-/

namespace PM

open V3

section
variable {K : Type} [Field K] [LinearOrder K] [IsStrictOrderedRing K]

/-- A row of coordinates as a point of the plane. -/
def rowP2 (r : List K) : P2 K := ⟨r.getD 0 0, r.getD 1 0⟩

/-- The corners of a cell of a plane grid, one after the other. -/
theorem grid_cell2 {ax ay : Axis K} {C : List (List K)} {T : List (List Int)} (h : VtkGrid2 lcQ4 ax ay 0 C T) {a b : Nat} (ha : a < ax.n)
    (hb : b < ay.n) : ∃ n0 n1 n2 n3, (asTopo T)[a * ay.n + b]? = some [n0, n1, n2, n3] ∧
      (C.map rowP2)[n0]? = some ⟨ax.b a, ay.b b⟩ ∧ (C.map rowP2)[n1]? = some ⟨ax.b (a + 1), ay.b b⟩ ∧
      (C.map rowP2)[n2]? = some ⟨ax.b (a + 1), ay.b (b + 1)⟩ ∧ (C.map rowP2)[n3]? = some ⟨ax.b a, ay.b (b + 1)⟩ := by
  obtain ⟨h1, h2, h3⟩ := h
  obtain ⟨n0, t0, P0, e0, c0⟩ := h3 a b 0 ha hb (by decide)
  obtain ⟨n1, t1, P1, e1, c1⟩ := h3 a b 1 ha hb (by decide)
  obtain ⟨n2, t2, P2, e2, c2⟩ := h3 a b 2 ha hb (by decide)
  obtain ⟨n3, t3, P3, e3, c3⟩ := h3 a b 3 ha hb (by decide)
  have hlt : a * ay.n + b < T.length := by
    rw [h1]
    calc a * ay.n + b < (a + 1) * ay.n := by rw [Nat.succ_mul]; omega
      _ ≤ ax.n * ay.n := Nat.mul_le_mul_right _ ha
  have hrow := List.getElem?_eq_getElem hlt
  have hl := h2 _ (List.getElem_mem hlt)
  generalize T[a * ay.n + b] = row at hrow hl
  match row, hl with
  | [m0, m1, m2, m3], _ =>
    simp only [nodeAt, hrow, Option.bind_eq_bind, Option.bind_some, List.getElem?_cons_zero, List.getElem?_cons_succ, Option.some.injEq,
      add_zero] at t0 t1 t2 t3
    subst t0 t1 t2 t3
    refine ⟨n0, n1, n2, n3, by simp [asTopo, hrow], ?_, ?_, ?_, ?_⟩
    all_goals
      rw [List.getElem?_map]
      first
        | rw [c0, e0]
        | rw [c1, e1]
        | rw [c2, e2]
        | rw [c3, e3]
      simp [rowP2, boxAff, Aff.app, half, lcQ4]
      try constructor
      all_goals ring

theorem cellNo2 {nx ny c : Nat} (h : c < nx * ny) : ∃ a b, a < nx ∧ b < ny ∧ c = a * ny + b := by
  obtain ⟨xs, hw, hx⟩ := lexNo_surj (ds := [nx, ny]) (r := c) (by simpa using h)
  obtain ⟨a, b, rfl, ha, hb⟩ := within2.1 hw
  exact ⟨a, b, ha, hb, by rw [← hx]; simp [lexNo]⟩

/-- The lower and the upper triangle of a rectangle. -/
def lowerTri (x0 x1 y0 y1 : K) : Tri K := ⟨⟨x0, y0⟩, ⟨x1, y0⟩, ⟨x1, y1⟩⟩
def upperTri (x0 x1 y0 y1 : K) : Tri K := ⟨⟨x0, y0⟩, ⟨x1, y1⟩, ⟨x0, y1⟩⟩

theorem lowerTri_ccw {x0 x1 y0 y1 : K} (hx : x0 < x1) (hy : y0 < y1) : Ccw (lowerTri x0 x1 y0 y1) := by
  have := mul_pos (sub_pos.2 hx) (sub_pos.2 hy)
  simp only [Ccw, turn, lowerTri]
  linarith

theorem upperTri_ccw {x0 x1 y0 y1 : K} (hx : x0 < x1) (hy : y0 < y1) : Ccw (upperTri x0 x1 y0 y1) := by
  have := mul_pos (sub_pos.2 hx) (sub_pos.2 hy)
  simp only [Ccw, turn, upperTri]
  linarith

/-- Every point of a rectangle is in one of its two triangles. -/
theorem rect_cover {x0 x1 y0 y1 : K} (hx : x0 < x1) (hy : y0 < y1) {p : P2 K} (px : x0 ≤ p.x ∧ p.x ≤ x1) (py : y0 ≤ p.y ∧ p.y ≤ y1) :
    InTri (lowerTri x0 x1 y0 y1) p ∨ InTri (upperTri x0 x1 y0 y1) p := by
  have dx := sub_pos.2 hx
  have dy := sub_pos.2 hy
  have ux : (p.x - x0) / (x1 - x0) * (x1 - x0) = p.x - x0 := div_mul_cancel₀ _ dx.ne'
  have uy : (p.y - y0) / (y1 - y0) * (y1 - y0) = p.y - y0 := div_mul_cancel₀ _ dy.ne'
  have u0 : 0 ≤ (p.x - x0) / (x1 - x0) := div_nonneg (by linarith [px.1]) dx.le
  have v0 : 0 ≤ (p.y - y0) / (y1 - y0) := div_nonneg (by linarith [py.1]) dy.le
  have u1 : (p.x - x0) / (x1 - x0) ≤ 1 := (div_le_one dx).2 (by linarith [px.2])
  have v1 : (p.y - y0) / (y1 - y0) ≤ 1 := (div_le_one dy).2 (by linarith [py.2])
  generalize (p.x - x0) / (x1 - x0) = u at ux u0 u1
  generalize (p.y - y0) / (y1 - y0) = v at uy v0 v1
  rcases le_total v u with huv | huv
  · refine .inl ⟨⟨1 - u, u - v, v⟩, ⟨by ring, ?_, ?_⟩, by linarith, by linarith, v0⟩
    · simp only [lowerTri]; linear_combination ux
    · simp only [lowerTri]; linear_combination uy
  · refine .inr ⟨⟨1 - v, u, v - u⟩, ⟨by ring, ?_, ?_⟩, by linarith, u0, by linarith⟩
    · simp only [upperTri]; linear_combination ux
    · simp only [upperTri]; linear_combination uy

/-- The triangles of a cell of a plane grid. -/
theorem grid_tri2 {ax ay : Axis K} {C : List (List K)} {T : List (List Int)} (h : VtkGrid2 lcQ4 ax ay 0 C T) {cell : List Nat}
    (hc : cell ∈ asTopo T) {m : List Nat} (hm : m ∈ pathQ4T3) {t : Tri K} (ht : TriOfCell (C.map rowP2) cell m t) :
    ∃ a b, a < ax.n ∧ b < ay.n ∧ (t = lowerTri (ax.b a) (ax.b (a + 1)) (ay.b b) (ay.b (b + 1)) ∨
      t = upperTri (ax.b a) (ax.b (a + 1)) (ay.b b) (ay.b (b + 1))) := by
  obtain ⟨c, hc⟩ := List.getElem?_of_mem hc
  have hlt := (List.getElem?_eq_some_iff.1 hc).1
  rw [asTopo, List.length_map, h.1] at hlt
  obtain ⟨a, b, ha, hb, rfl⟩ := cellNo2 hlt
  obtain ⟨n0, n1, n2, n3, e, e0, e1, e2, e3⟩ := grid_cell2 h ha hb
  rw [hc, Option.some.injEq] at e
  subst e
  obtain ⟨i, j, k, ni, nj, nk, rfl, hi, hj, hk, pi, pj, pk⟩ := ht
  obtain ⟨p1, p2, p3⟩ := t
  refine ⟨a, b, ha, hb, ?_⟩
  simp only [pathQ4T3, List.mem_cons, List.not_mem_nil, or_false, List.cons.injEq, and_true] at hm
  rcases hm with ⟨rfl, rfl, rfl⟩ | ⟨rfl, rfl, rfl⟩
  · simp only [List.getElem?_cons_zero, List.getElem?_cons_succ, Option.some.injEq] at hi hj hk
    subst hi hj hk
    simp only at pi pj pk
    rw [e0, Option.some.injEq] at pi
    rw [e1, Option.some.injEq] at pj
    rw [e2, Option.some.injEq] at pk
    subst pi pj pk
    exact .inl rfl
  · simp only [List.getElem?_cons_zero, List.getElem?_cons_succ, Option.some.injEq] at hi hj hk
    subst hi hj hk
    simp only at pi pj pk
    rw [e0, Option.some.injEq] at pi
    rw [e2, Option.some.injEq] at pj
    rw [e3, Option.some.injEq] at pk
    subst pi pj pk
    exact .inr rfl

/-- Answers of the question whether points are in one of the rectangles of a grid: yes for every point of the whole rectangle; if yes,
the point is in the rectangle of a cell, widened by the double of the tolerance in units of its sides. -/
structure InsideGrid2 (X Y : Nat → K) (nx ny : Nat) (tol : K) (x : List (P2 K)) (r : List Bool) : Prop where
  len : r.length = x.length
  yes : ∀ (i : Nat) (p : P2 K), x[i]? = some p → X 0 ≤ p.x → p.x ≤ X nx → Y 0 ≤ p.y → p.y ≤ Y ny → r[i]? = some true
  only : ∀ (i : Nat) (p : P2 K), x[i]? = some p → r[i]? = some true → ∃ a b, a < nx ∧ b < ny ∧
    X a - 2 * tol * (X (a + 1) - X a) ≤ p.x ∧ p.x ≤ X (a + 1) + 2 * tol * (X (a + 1) - X a) ∧
    Y b - 2 * tol * (Y (b + 1) - Y b) ≤ p.y ∧ p.y ≤ Y (b + 1) + 2 * tol * (Y (b + 1) - Y b)

theorem nat_bound {n1 n2 n3 t d : K} (ht : 0 < t) (hd : 0 < d) (hs : n1 + n2 + n3 = 1) (h1 : -t < n1) (h2 : -t < n2) (h3 : -t < n3) :
    -(2 * t * d) ≤ (n2 + n3) * d ∧ (n2 + n3) * d ≤ d + 2 * t * d ∧ -(2 * t * d) ≤ n3 * d ∧ n3 * d ≤ d + 2 * t * d := by
  refine ⟨?_, ?_, ?_, ?_⟩
  · have := mul_le_mul_of_nonneg_right (by linarith : -(2 * t) ≤ n2 + n3) hd.le; linarith
  · have := mul_le_mul_of_nonneg_right (by linarith : n2 + n3 ≤ 1 + 2 * t) hd.le; linarith
  · have := mul_le_mul_of_nonneg_right (by linarith : -(2 * t) ≤ n3) hd.le; linarith
  · have := mul_le_mul_of_nonneg_right (by linarith : n3 ≤ 1 + 2 * t) hd.le; linarith

omit [LinearOrder K] [IsStrictOrderedRing K] in
theorem quad_path {ax ay : Axis K} {C : List (List K)} {T : List (List Int)} (h : VtkGrid2 lcQ4 ax ay 0 C T) : PathOK (asTopo T) pathQ4T3 3 :=
  pathOK_of_width (w := 4) (by
    intro r hr
    rw [asTopo, List.mem_map] at hr
    obtain ⟨r', hr', rfl⟩ := hr
    rw [List.length_map, h.2.1 r' hr']
    rfl) (by decide)

theorem quad_nodes {ax ay : Axis K} {C : List (List K)} {T : List (List Int)} (h : VtkGrid2 lcQ4 ax ay 0 C T) :
    ∀ cell ∈ asTopo T, ∀ k ∈ cell, k < (C.map rowP2).length := by
  intro cell hc k hk
  obtain ⟨c, hc⟩ := List.getElem?_of_mem hc
  have hlt := (List.getElem?_eq_some_iff.1 hc).1
  rw [asTopo, List.length_map, h.1] at hlt
  obtain ⟨a, b, ha, hb, rfl⟩ := cellNo2 hlt
  obtain ⟨n0, n1, n2, n3, e, e0, e1, e2, e3⟩ := grid_cell2 h ha hb
  rw [hc, Option.some.injEq] at e
  subst e
  simp only [List.mem_cons, List.not_mem_nil, or_false] at hk
  rcases hk with rfl | rfl | rfl | rfl
  · exact (List.getElem?_eq_some_iff.1 e0).1
  · exact (List.getElem?_eq_some_iff.1 e1).1
  · exact (List.getElem?_eq_some_iff.1 e2).1
  · exact (List.getElem?_eq_some_iff.1 e3).1

theorem grid_inside2 {tol : K} (htol : 0 < tol) {ax ay : Axis K} (hn : 1 ≤ ax.n ∧ 1 ≤ ay.n) (hx : ax.Inc) (hy : ay.Inc) {C : List (List K)}
    {T : List (List Int)} (h : VtkGrid2 lcQ4 ax ay 0 C T) (x : List (P2 K)) :
    ∃ r, pipCells2d (C.map rowP2) (asTopo T) pathQ4T3 tol x = some r ∧ InsideGrid2 ax.b ay.b ax.n ay.n tol x r := by
  obtain ⟨r, r1, r2, r3⟩ := C73_plane (quad_path h) (quad_nodes h) (by
    intro cell hc m hm t ht
    obtain ⟨a, b, ha, hb, rfl | rfl⟩ := grid_tri2 h hc hm ht
    · exact lowerTri_ccw (hx a ha) (hy b hb)
    · exact upperTri_ccw (hx a ha) (hy b hb)) tol x
  refine ⟨r, r1, r2, ?_, ?_⟩
  · intro i p hi px px' py py'
    obtain ⟨b', g1, -, g2, -⟩ := r3 i p hi
    rw [g1, g2 htol ?_]
    obtain ⟨a, ha, a1, a2⟩ := axis_cover px hn.1 px'
    obtain ⟨b, hb, b1, b2⟩ := axis_cover py hn.2 py'
    obtain ⟨n0, n1, n2, n3, e, e0, e1, e2, e3⟩ := grid_cell2 h ha hb
    rcases rect_cover (hx a ha) (hy b hb) ⟨a1, a2⟩ ⟨b1, b2⟩ with hin | hin
    · exact ⟨_, List.mem_of_getElem? e, [0, 1, 2], by decide, _, ⟨0, 1, 2, n0, n1, n2, rfl, rfl, rfl, rfl, e0, e1, e2⟩, hin⟩
    · exact ⟨_, List.mem_of_getElem? e, [0, 2, 3], by decide, _, ⟨0, 2, 3, n0, n2, n3, rfl, rfl, rfl, rfl, e0, e2, e3⟩, hin⟩
  · intro i p hi hr
    obtain ⟨b', g1, g2, -⟩ := r3 i p hi
    rw [g1, Option.some.injEq] at hr
    obtain ⟨cell, hc, m, hm, t, n, ht, hnat, k1, k2, k3⟩ := g2 hr
    obtain ⟨a, b, ha, hb, rfl | rfl⟩ := grid_tri2 h hc hm ht
    · obtain ⟨s, sx, sy⟩ := hnat
      simp only [lowerTri] at sx sy
      have dx := nat_bound htol (sub_pos.2 (hx a ha)) s k1 k2 k3
      have dy := nat_bound htol (sub_pos.2 (hy b hb)) s k1 k2 k3
      have ex : p.x = ax.b a + (n.n2 + n.n3) * (ax.b (a + 1) - ax.b a) := by linear_combination (-1) * sx + ax.b a * s
      have ey : p.y = ay.b b + n.n3 * (ay.b (b + 1) - ay.b b) := by linear_combination (-1) * sy + ay.b b * s
      exact ⟨a, b, ha, hb, by linarith [dx.1], by linarith [dx.2.1], by linarith [dy.2.2.1], by linarith [dy.2.2.2]⟩
    · obtain ⟨s, sx, sy⟩ := hnat
      simp only [upperTri] at sx sy
      have s' : n.n1 + n.n3 + n.n2 = 1 := by linear_combination s
      have dx := nat_bound htol (sub_pos.2 (hx a ha)) s' k1 k3 k2
      have dy := nat_bound htol (sub_pos.2 (hy b hb)) s k1 k2 k3
      have ex : p.x = ax.b a + n.n2 * (ax.b (a + 1) - ax.b a) := by linear_combination (-1) * sx + ax.b a * s
      have ey : p.y = ay.b b + (n.n2 + n.n3) * (ay.b (b + 1) - ay.b b) := by linear_combination (-1) * sy + ay.b b * s
      exact ⟨a, b, ha, hb, by linarith [dx.2.2.1], by linarith [dx.2.2.2], by linarith [dy.1], by linarith [dy.2.1]⟩

/-- **C108** `pip` of the quadrilaterals of `gridQ4`. -/
theorem C108_inside_plane {tol : K} (htol : 0 < tol) {lX lY : K} (hX : 0 < lX) (hY : 0 < lY) {nx ny : Nat} (s0 s1 : K) (h : 1 ≤ nx ∧ 1 ≤ ny)
    (x : List (P2 K)) : ∃ C T r, gridQ4 (args2 lX lY nx ny s0 s1 0) = some (C, T) ∧
      pipCells2d (C.map rowP2) (asTopo T) pathQ4T3 tol x = some r ∧
      InsideGrid2 (fun i => s0 + lX / nx * i) (fun i => s1 + lY / ny * i) nx ny tol x r := by
  obtain ⟨C, T, g1, g2⟩ := C19_gridQ4 lX lY nx ny s0 s1 0 h
  obtain ⟨r, r1, r2⟩ := grid_inside2 htol h (uniAxis_inc hX h.1) (uniAxis_inc hY h.2) g2 x
  exact ⟨C, T, r, g1, r1, r2⟩

/-- **C108** with bins in increasing order. -/
theorem C108_inside_plane_bins {tol : K} (htol : 0 < tol) {bx bY : List K} (hx : bx.Pairwise (· < ·)) (hy : bY.Pairwise (· < ·)) (s0 s1 : K)
    (h : 2 ≤ bx.length ∧ 2 ≤ bY.length) (x : List (P2 K)) : ∃ C T r, gridQ4 (argsB2 bx bY s0 s1 0) = some (C, T) ∧
      pipCells2d (C.map rowP2) (asTopo T) pathQ4T3 tol x = some r ∧
      InsideGrid2 (fun i => s0 + bx.getD i 0) (fun i => s1 + bY.getD i 0) (bx.length - 1) (bY.length - 1) tol x r := by
  obtain ⟨C, T, g1, g2⟩ := C21_gridQ4_bins bx bY s0 s1 0 h
  obtain ⟨r, r1, r2⟩ := grid_inside2 htol (by simp only [binAxis]; omega) (binAxis_inc hx) (binAxis_inc hy) g2 x
  exact ⟨C, T, r, g1, r1, r2⟩

/-! ## locating points in the triangles -/

omit [IsStrictOrderedRing K] in
theorem locateTri_sorted {sched : List (Nat × Nat) → List (Nat × Nat)} {coords : List (P2 K)} {triangles trimap : Topo}
    {nb : List (List Nat)} {tol : K} {x : List (P2 K)} {r : List (Nat × Nat × P2 K)}
    (hr : locateTri sched coords triangles trimap nb tol x = some r) : (r.map fun q => q.1).Pairwise (· < ·) := by
  unfold locateTri at hr
  simp only [Option.bind_eq_some_iff] at hr
  obtain ⟨tris, h1, nat, h2, h4⟩ := hr
  unfold searchHits at h4
  have hl : (r.map fun q => q.1) = sourcesOf (nat.map fun ns => ns.map (pipTri tol)) := by
    have hlen : (hitsRun (sourcesOf (nat.map fun ns => ns.map (pipTri tol))).length
        (sched (hitWrites ((sourcesOf (nat.map fun ns => ns.map (pipTri tol))).map fun i => (nat.map fun ns => ns.map (pipTri tol)).getD i [])))).length =
          (sourcesOf (nat.map fun ns => ns.map (pipTri tol))).length := by simp [hitsRun]
    simp only at h4
    generalize hitsRun _ _ = rel at h4 hlen
    generalize sourcesOf (nat.map fun ns => ns.map (pipTri tol)) = src at h4 hlen
    have := mapM_length h4
    apply List.ext_getElem?
    intro i
    by_cases hi : i < src.length
    · have hz : (src.zip rel)[i]? = some (src[i], rel[i]) := by
        rw [List.getElem?_eq_getElem (by simp; omega), List.getElem_zip]
      obtain ⟨y, y1, y2⟩ := mapM_get h4 hz
      rw [List.getElem?_map, y2, Option.map_some, List.getElem?_eq_getElem hi]
      unfold locateTriOne at y1
      simp only [Option.bind_eq_some_iff, Option.map_eq_some_iff] at y1
      obtain ⟨_, _, _, _, _, _, _, _, _, _, _, _, rfl⟩ := y1
      rfl
    · rw [List.getElem?_eq_none (by simp; simp at this; omega), List.getElem?_eq_none (by omega)]
  rw [hl]
  exact sourcesOf_sorted _

/-- `r` lists points of `x` found in the triangles of a plane grid: point `i`, the number of the triangle — the lower and the upper one of
each rectangle in turn — and its coordinates along the sides of the triangle, within the master triangle up to the tolerance; no point
twice, and every point of the whole rectangle. -/
structure LocatedTri (X Y : Nat → K) (nx ny : Nat) (tol : K) (x : List (P2 K)) (r : List (Nat × Nat × P2 K)) : Prop where
  once : (r.map fun q => q.1).Pairwise (· < ·)
  found : ∀ (i : Nat) (p : P2 K), x[i]? = some p → X 0 ≤ p.x → p.x ≤ X nx → Y 0 ≤ p.y → p.y ≤ Y ny → ∃ c loc, (i, c, loc) ∈ r
  right : ∀ (i c : Nat) (loc : P2 K), (i, c, loc) ∈ r → -tol < loc.x ∧ -tol < loc.y ∧ loc.x + loc.y < 1 + tol ∧
    ∃ p a b, x[i]? = some p ∧ a < nx ∧ b < ny ∧
      ((c = 2 * (a * ny + b) ∧ p.x = X a + (loc.x + loc.y) * (X (a + 1) - X a) ∧ p.y = Y b + loc.y * (Y (b + 1) - Y b)) ∨
       (c = 2 * (a * ny + b) + 1 ∧ p.x = X a + loc.x * (X (a + 1) - X a) ∧ p.y = Y b + (loc.x + loc.y) * (Y (b + 1) - Y b)))

theorem grid_locatedTri {sched : List (Nat × Nat) → List (Nat × Nat)} (hsched : ∀ w : List (Nat × Nat), w.Perm (sched w)) {tol : K} (htol : 0 < tol)
    {ax ay : Axis K} (hn : 1 ≤ ax.n ∧ 1 ≤ ay.n) (hx : ax.Inc) (hy : ay.Inc) {C : List (List K)} {T : List (List Int)}
    (h : VtkGrid2 lcQ4 ax ay 0 C T) (x : List (P2 K)) :
    ∃ R r, transformTopology (asTopo T) pathQ4T3 3 0 = some R ∧ locateTri2d sched (C.map rowP2) R none none tol x = some r ∧
      LocatedTri ax.b ay.b ax.n ay.n tol x r := by
  have hp := quad_path h
  have hR : (transformed (asTopo T) pathQ4T3 0).length = 2 * (ax.n * ay.n) := by
    rw [length_transformed, asTopo, List.length_map, h.1]; rfl
  -- the rows
  have hrow : ∀ a b, a < ax.n → b < ay.n → ∃ n0 n1 n2 n3, (transformed (asTopo T) pathQ4T3 0)[2 * (a * ay.n + b)]? = some [n0, n1, n2] ∧
      (transformed (asTopo T) pathQ4T3 0)[2 * (a * ay.n + b) + 1]? = some [n0, n2, n3] ∧
      (C.map rowP2)[n0]? = some ⟨ax.b a, ay.b b⟩ ∧ (C.map rowP2)[n1]? = some ⟨ax.b (a + 1), ay.b b⟩ ∧
      (C.map rowP2)[n2]? = some ⟨ax.b (a + 1), ay.b (b + 1)⟩ ∧ (C.map rowP2)[n3]? = some ⟨ax.b a, ay.b (b + 1)⟩ := by
    intro a b ha hb
    obtain ⟨n0, n1, n2, n3, e, e0, e1, e2, e3⟩ := grid_cell2 h ha hb
    have r0 := transformed_row (topo := asTopo T) (path := pathQ4T3) (zero := 0) (i := a * ay.n + b) (k := 0) (by decide)
    have r1 := transformed_row (topo := asTopo T) (path := pathQ4T3) (zero := 0) (i := a * ay.n + b) (k := 1) (by decide)
    rw [e] at r0 r1
    refine ⟨n0, n1, n2, n3, ?_, ?_, e0, e1, e2, e3⟩
    · rw [Nat.mul_comm]; exact r0
    · rw [Nat.mul_comm]; exact r1
  have hcase : ∀ (c : Nat) (row : List Nat), (transformed (asTopo T) pathQ4T3 0)[c]? = some row → ∃ a b, a < ax.n ∧ b < ay.n ∧
      ((c = 2 * (a * ay.n + b) ∧ ∀ t, TriOfPoints (C.map rowP2) row t → t = lowerTri (ax.b a) (ax.b (a + 1)) (ay.b b) (ay.b (b + 1))) ∨
       (c = 2 * (a * ay.n + b) + 1 ∧ ∀ t, TriOfPoints (C.map rowP2) row t → t = upperTri (ax.b a) (ax.b (a + 1)) (ay.b b) (ay.b (b + 1)))) := by
    intro c row hc
    have hlt := (List.getElem?_eq_some_iff.1 hc).1
    rw [hR] at hlt
    obtain ⟨a, b, ha, hb, hab⟩ := cellNo2 (nx := ax.n) (ny := ay.n) (c := c / 2) (by omega)
    obtain ⟨n0, n1, n2, n3, f0, f1, e0, e1, e2, e3⟩ := hrow a b ha hb
    refine ⟨a, b, ha, hb, ?_⟩
    rcases Nat.mod_two_eq_zero_or_one c with hc2 | hc2
    · have : c = 2 * (a * ay.n + b) := by omega
      subst this
      rw [f0, Option.some.injEq] at hc
      subst hc
      refine .inl ⟨rfl, ?_⟩
      rintro ⟨p1, p2, p3⟩ ⟨i, j, k, he, q1, q2, q3⟩
      simp only [List.cons.injEq, and_true] at he
      obtain ⟨rfl, rfl, rfl⟩ := he
      simp only at q1 q2 q3
      rw [e0, Option.some.injEq] at q1
      rw [e1, Option.some.injEq] at q2
      rw [e2, Option.some.injEq] at q3
      subst q1 q2 q3
      rfl
    · have : c = 2 * (a * ay.n + b) + 1 := by omega
      subst this
      rw [f1, Option.some.injEq] at hc
      subst hc
      refine .inr ⟨rfl, ?_⟩
      rintro ⟨p1, p2, p3⟩ ⟨i, j, k, he, q1, q2, q3⟩
      simp only [List.cons.injEq, and_true] at he
      obtain ⟨rfl, rfl, rfl⟩ := he
      simp only at q1 q2 q3
      rw [e0, Option.some.injEq] at q1
      rw [e2, Option.some.injEq] at q2
      rw [e3, Option.some.injEq] at q3
      subst q1 q2 q3
      rfl
  have hccw : ∀ row ∈ transformed (asTopo T) pathQ4T3 0, ∀ t, TriOfPoints (C.map rowP2) row t → Ccw t := by
    intro row hr t ht
    obtain ⟨c, hc⟩ := List.getElem?_of_mem hr
    obtain ⟨a, b, ha, hb, ⟨-, h1⟩ | ⟨-, h1⟩⟩ := hcase c row hc
    · rw [h1 t ht]; exact lowerTri_ccw (hx a ha) (hy b hb)
    · rw [h1 t ht]; exact upperTri_ccw (hx a ha) (hy b hb)
  obtain ⟨r, hr⟩ := C69_total hsched (coords := C.map rowP2) (triangles := transformed (asTopo T) pathQ4T3 0)
    (nb := x.map fun _ => List.range (transformed (asTopo T) pathQ4T3 0).length) (tol := tol) (x := x)
    (by
      intro row hr
      obtain ⟨cell, -, hr⟩ := List.mem_flatMap.1 hr
      obtain ⟨m, hm, rfl⟩ := List.mem_map.1 hr
      rw [List.length_map, hp.rect m hm])
    (by
      intro row hr n hn'
      obtain ⟨cell, hc, hr⟩ := List.mem_flatMap.1 hr
      obtain ⟨m, hm, rfl⟩ := List.mem_map.1 hr
      obtain ⟨q, hq, rfl⟩ := List.mem_map.1 hn'
      refine quad_nodes h cell hc _ ?_
      rw [List.getD_eq_getElem?_getD, List.getElem?_eq_getElem (hp.inside cell hc m hm q hq)]
      exact List.getElem_mem _) (by simp)
    (by
      intro row hrow τ hτ
      obtain ⟨_, -, rfl⟩ := List.mem_map.1 hrow
      exact List.mem_range.1 hτ)
  refine ⟨_, r, transformTopology_eq hp, hr, locateTri_sorted hr, ?_, ?_⟩
  · intro i p hi px px' py py'
    obtain ⟨a, ha, a1, a2⟩ := axis_cover px hn.1 px'
    obtain ⟨b, hb, b1, b2⟩ := axis_cover py hn.2 py'
    obtain ⟨n0, n1, n2, n3, f0, f1, e0, e1, e2, e3⟩ := hrow a b ha hb
    have hr' : locateTri2d sched (C.map rowP2) (transformed (asTopo T) pathQ4T3 0) none none tol x = some r := hr
    rcases rect_cover (hx a ha) (hy b hb) ⟨a1, a2⟩ ⟨b1, b2⟩ with hin | hin
    · exact C69_complete hsched htol hr' hi (List.mem_of_getElem? f0) (t := lowerTri (ax.b a) (ax.b (a + 1)) (ay.b b) (ay.b (b + 1)))
        ⟨n0, n1, n2, rfl, e0, e1, e2⟩ (lowerTri_ccw (hx a ha) (hy b hb)) hin
    · exact C69_complete hsched htol hr' hi (List.mem_of_getElem? f1) (t := upperTri (ax.b a) (ax.b (a + 1)) (ay.b b) (ay.b (b + 1)))
        ⟨n0, n2, n3, rfl, e0, e2, e3⟩ (upperTri_ccw (hx a ha) (hy b hb)) hin
  · intro i c loc hm
    obtain ⟨p, row, t, n, hi, hc, ht, ⟨s, sx, sy⟩, ⟨k1, k2, k3⟩, lx, ly⟩ := C69_sound hsched hr hccw hm
    obtain ⟨a, b, ha, hb, ⟨rfl, h1⟩ | ⟨rfl, h1⟩⟩ := hcase c row hc
    · obtain rfl := h1 t ht
      simp only [lowerTri] at sx sy lx ly
      have dx := (sub_pos.2 (hx a ha)).ne'
      have dy := (sub_pos.2 (hy b hb)).ne'
      have q3 : n.n3 = loc.y := mul_right_cancel₀ dy (by linear_combination sy - ly - ay.b b * s)
      have q2 : n.n2 + n.n3 = loc.x + loc.y := mul_right_cancel₀ dx (by linear_combination sx - lx - ax.b a * s)
      refine ⟨by linarith, by linarith, by linarith, p, a, b, hi, ha, hb, .inl ⟨rfl, ?_, ?_⟩⟩
      · linear_combination (-1) * lx
      · linear_combination (-1) * ly
    · obtain rfl := h1 t ht
      simp only [upperTri] at sx sy lx ly
      have dx := (sub_pos.2 (hx a ha)).ne'
      have dy := (sub_pos.2 (hy b hb)).ne'
      have q2 : n.n2 = loc.x := mul_right_cancel₀ dx (by linear_combination sx - lx - ax.b a * s)
      have q3 : n.n2 + n.n3 = loc.x + loc.y := mul_right_cancel₀ dy (by linear_combination sy - ly - ay.b b * s)
      refine ⟨by linarith, by linarith, by linarith, p, a, b, hi, ha, hb, .inr ⟨rfl, ?_, ?_⟩⟩
      · linear_combination (-1) * lx
      · linear_combination (-1) * ly

/-- **C108** `locate_tri_2d(x, coords, triangles, lazy=False)` for the triangles `Q4_to_T3` of `gridQ4`. -/
theorem C108_located {sched : List (Nat × Nat) → List (Nat × Nat)} (hsched : ∀ w : List (Nat × Nat), w.Perm (sched w)) {tol : K} (htol : 0 < tol)
    {lX lY : K} (hX : 0 < lX) (hY : 0 < lY) {nx ny : Nat} (s0 s1 : K) (h : 1 ≤ nx ∧ 1 ≤ ny) (x : List (P2 K)) :
    ∃ C T R r, gridQ4 (args2 lX lY nx ny s0 s1 0) = some (C, T) ∧ transformTopology (asTopo T) pathQ4T3 3 0 = some R ∧
      locateTri2d sched (C.map rowP2) R none none tol x = some r ∧
      LocatedTri (fun i => s0 + lX / nx * i) (fun i => s1 + lY / ny * i) nx ny tol x r := by
  obtain ⟨C, T, g1, g2⟩ := C19_gridQ4 lX lY nx ny s0 s1 0 h
  obtain ⟨R, r, r1, r2, r3⟩ := grid_locatedTri hsched htol h (uniAxis_inc hX h.1) (uniAxis_inc hY h.2) g2 x
  exact ⟨C, T, R, r, g1, r1, r2, r3⟩

/-- **C108** with bins in increasing order. -/
theorem C108_located_bins {sched : List (Nat × Nat) → List (Nat × Nat)} (hsched : ∀ w : List (Nat × Nat), w.Perm (sched w)) {tol : K} (htol : 0 < tol)
    {bx bY : List K} (hx : bx.Pairwise (· < ·)) (hy : bY.Pairwise (· < ·)) (s0 s1 : K) (h : 2 ≤ bx.length ∧ 2 ≤ bY.length) (x : List (P2 K)) :
    ∃ C T R r, gridQ4 (argsB2 bx bY s0 s1 0) = some (C, T) ∧ transformTopology (asTopo T) pathQ4T3 3 0 = some R ∧
      locateTri2d sched (C.map rowP2) R none none tol x = some r ∧
      LocatedTri (fun i => s0 + bx.getD i 0) (fun i => s1 + bY.getD i 0) (bx.length - 1) (bY.length - 1) tol x r := by
  obtain ⟨C, T, g1, g2⟩ := C21_gridQ4_bins bx bY s0 s1 0 h
  obtain ⟨R, r, r1, r2, r3⟩ := grid_locatedTri hsched htol (by simp only [binAxis]; omega) (binAxis_inc hx) (binAxis_inc hy) g2 x
  exact ⟨C, T, R, r, g1, r1, r2, r3⟩

/-! ## hexahedra -/

theorem grid_vol {ax ay az : Axis K} (hx : ax.Inc) (hy : ay.Inc) (hz : az.Inc) {C : List (List K)} {T : List (List Int)}
    (h : VtkGrid3 lcH8 ax ay az 0 C T) : ∀ cell ∈ asTopo T, ∀ m ∈ pathH8TET4, ∀ t, TetOfCell (C.map rowPt) cell m t → volTet t ≠ 0 := by
  intro cell hc m hm t ht
  obtain ⟨c, hc⟩ := List.getElem?_of_mem hc
  obtain ⟨a, b, d, ha, hb, hd, -, hP⟩ := grid_tet h hc
  obtain ⟨i0, i1, i2, i3, n0, n1, n2, n3, rfl, c0, c1, c2, c3, e0, e1, e2, e3⟩ := ht
  have q0 := (hP _ _ _ c0 e0).2
  have q1 := (hP _ _ _ c1 e1).2
  have q2 := (hP _ _ _ c2 e2).2
  have q3 := (hP _ _ _ c3 e3).2
  obtain ⟨p0, p1, p2, p3⟩ := t
  simp only at q0 q1 q2 q3
  subst q0 q1 q2 q3
  have hA := (C30_affine (boxAff (ax.b a) (ax.b (a + 1)) (ay.b b) (ay.b (b + 1)) (az.b d) (az.b (d + 1)))
    ⟨half (lcH8.getD i0 0), half (lcH8.getD i1 0), half (lcH8.getD i2 0), half (lcH8.getD i3 0)⟩).1
  rw [hA]
  refine mul_ne_zero ?_ ?_
  · rw [boxAff_det]
    have := mul_pos (mul_pos (sub_pos.2 (hx _ ha)) (sub_pos.2 (hy _ hb))) (sub_pos.2 (hz _ hd))
    exact (by linarith : (0 : K) < _).ne'
  · simp only [pathH8TET4, List.mem_cons, List.not_mem_nil, or_false, List.cons.injEq, and_true] at hm
    rcases hm with ⟨rfl, rfl, rfl, rfl⟩ | ⟨rfl, rfl, rfl, rfl⟩ | ⟨rfl, rfl, rfl, rfl⟩ | ⟨rfl, rfl, rfl, rfl⟩ | ⟨rfl, rfl, rfl, rfl⟩ <;>
    · simp only [lcH8, List.getD_cons_zero, List.getD_cons_succ, half, volTet, dot, cross, sub_x, sub_y, sub_z]
      norm_num

/-- Answers of the question whether points are in one of the boxes of a grid: yes for every point of the whole box; if yes, the point is
in the box of a cell, widened by four times the tolerance in units of its sides. -/
structure InsideGrid3 (X Y Z : Nat → K) (nx ny nz : Nat) (tol : K) (x : List (V3 K)) (r : List Bool) : Prop where
  len : r.length = x.length
  yes : ∀ (i : Nat) (p : V3 K), x[i]? = some p → InB ⟨X 0, Y 0, Z 0⟩ ⟨X nx, Y ny, Z nz⟩ p → r[i]? = some true
  only : ∀ (i : Nat) (p : V3 K), x[i]? = some p → r[i]? = some true → ∃ a b d, a < nx ∧ b < ny ∧ d < nz ∧
    X a - 4 * tol * (X (a + 1) - X a) ≤ p.x ∧ p.x ≤ X (a + 1) + 4 * tol * (X (a + 1) - X a) ∧
    Y b - 4 * tol * (Y (b + 1) - Y b) ≤ p.y ∧ p.y ≤ Y (b + 1) + 4 * tol * (Y (b + 1) - Y b) ∧
    Z d - 4 * tol * (Z (d + 1) - Z d) ≤ p.z ∧ p.z ≤ Z (d + 1) + 4 * tol * (Z (d + 1) - Z d)

theorem box_bound {l t x0 x1 p : K} (hx : x0 < x1) (hl : |l| ≤ 1 + 8 * t) (hp : p = (x0 + x1) / 2 + l * ((x1 - x0) / 2)) :
    x0 - 4 * t * (x1 - x0) ≤ p ∧ p ≤ x1 + 4 * t * (x1 - x0) := by
  obtain ⟨h1, h2⟩ := abs_le.1 hl
  have d : 0 ≤ (x1 - x0) / 2 := by linarith
  have a := mul_le_mul_of_nonneg_right h1 d
  have b := mul_le_mul_of_nonneg_right h2 d
  subst hp
  constructor <;> linarith

theorem grid_inside3 {tol : K} (htol : 0 < tol) {ax ay az : Axis K} (hn : 1 ≤ ax.n ∧ 1 ≤ ay.n ∧ 1 ≤ az.n) (hx : ax.Inc) (hy : ay.Inc)
    (hz : az.Inc) {C : List (List K)} {T : List (List Int)} (h : VtkGrid3 lcH8 ax ay az 0 C T) (x : List (V3 K)) :
    ∃ r, pipCells3dAll (C.map rowPt) (asTopo T) pathH8TET4 tol x = some r ∧ InsideGrid3 ax.b ay.b az.b ax.n ay.n az.n tol x r := by
  have hT : ∀ r ∈ asTopo T, r.length = 8 := by
    intro r hr
    rw [asTopo, List.mem_map] at hr
    obtain ⟨r', hr', rfl⟩ := hr
    rw [List.length_map, h.2.1 r' hr']
    rfl
  have hpts := cellPoints3 h
  have hmap : ∀ m ∈ pathH8TET4, m.length = 4 ∧ ∀ q ∈ m, q < 8 := by decide
  obtain ⟨r, r1, r2, r3⟩ := C73_solid (pathOK_of_width hT hmap) (by
    intro cell hc n hn'
    obtain ⟨c, hc⟩ := List.getElem?_of_mem hc
    obtain ⟨pts, p1, -⟩ := mapM_get hpts hc
    obtain ⟨k, hk⟩ := List.getElem?_of_mem hn'
    obtain ⟨y, y1, -⟩ := mapM_get p1 hk
    exact (List.getElem?_eq_some_iff.1 y1).1) (grid_vol hx hy hz h) tol x
  refine ⟨r, r1, r2, ?_, ?_⟩
  · intro i p hi hp
    obtain ⟨b', g1, -, g2, -⟩ := r3 i p hi
    rw [g1, g2 htol ?_]
    obtain ⟨s, hs, hh⟩ := (tiles_grid3 split_H8_TET4 hn hx hy hz).cover p hp
    obtain ⟨q, hq, hs⟩ := List.mem_flatMap.1 hs
    obtain ⟨m, hm, rfl⟩ := List.mem_map.1 hs
    obtain ⟨q1, q2, q3⟩ := mem_latCells.1 hq
    have hct : (q.1 * ay.n + q.2.1) * az.n + q.2.2 < (asTopo T).length := by
      have := latCells_get (fun p => p) q1 q2 q3
      have := (List.getElem?_eq_some_iff.1 this).1
      rw [asTopo, List.length_map, h.1]
      simpa [latCells, List.length_flatMap, Nat.mul_assoc] using this
    have hc : (asTopo T)[(q.1 * ay.n + q.2.1) * az.n + q.2.2]? = some (asTopo T)[(q.1 * ay.n + q.2.1) * az.n + q.2.2] := List.getElem?_eq_getElem hct
    obtain ⟨pts, p1, p2⟩ := mapM_get hpts hc
    rw [latCells_get _ q1 q2 q3, Option.some.injEq] at p2
    subst p2
    generalize (asTopo T)[(q.1 * ay.n + q.2.1) * az.n + q.2.2] = cell at hc p1
    have hnode : ∀ k, k < 8 → ∃ n, cell[k]? = some n ∧ (C.map rowPt)[n]? = some ((boxAff (ax.b q.1) (ax.b (q.1 + 1)) (ay.b q.2.1)
        (ay.b (q.2.1 + 1)) (az.b q.2.2) (az.b (q.2.2 + 1))).app (half (lcH8.getD k 0))) := by
      intro k hk
      have hk' : k < cell.length := by rw [hT _ (List.mem_of_getElem? hc)]; exact hk
      obtain ⟨y, y1, y2⟩ := mapM_get p1 (List.getElem?_eq_getElem hk')
      refine ⟨cell[k], List.getElem?_eq_getElem hk', ?_⟩
      rw [y1, ← y2, List.getElem?_map, List.getElem?_eq_getElem (l := lcH8) hk, List.getD_eq_getElem?_getD, List.getElem?_eq_getElem (l := lcH8) hk]
      rfl
    obtain ⟨hm4, hm8⟩ := hmap m hm
    match m, hm4 with
    | [i0, i1, i2, i3], _ =>
      obtain ⟨n0, c0, e0⟩ := hnode i0 (hm8 i0 (by simp))
      obtain ⟨n1, c1, e1⟩ := hnode i1 (hm8 i1 (by simp))
      obtain ⟨n2, c2, e2⟩ := hnode i2 (hm8 i2 (by simp))
      obtain ⟨n3, c3, e3⟩ := hnode i3 (hm8 i3 (by simp))
      exact ⟨cell, List.mem_of_getElem? hc, _, hm, ⟨_, _, _, _⟩, ⟨i0, i1, i2, i3, n0, n1, n2, n3, rfl, c0, c1, c2, c3, e0, e1, e2, e3⟩, hh⟩
  · intro i p hi hr
    obtain ⟨b', g1, g2, -⟩ := r3 i p hi
    rw [g1, Option.some.injEq] at hr
    obtain ⟨cell, hc, m, hm, t, n, ht, hnat, k1, k2, k3, k4⟩ := g2 hr
    obtain ⟨c, hc⟩ := List.getElem?_of_mem hc
    obtain ⟨a, b, d, ha, hb, hd, -, hP⟩ := grid_tet h hc
    obtain ⟨i0, i1, i2, i3, n0, n1, n2, n3, rfl, c0, c1, c2, c3, e0, e1, e2, e3⟩ := ht
    have q0 := hP _ _ _ c0 e0
    have q1 := hP _ _ _ c1 e1
    have q2 := hP _ _ _ c2 e2
    have q3 := hP _ _ _ c3 e3
    have hl : ∀ k, k < 8 → |(half (lcH8.getD k 0) : V3 K).x| ≤ 1 ∧ |(half (lcH8.getD k 0) : V3 K).y| ≤ 1 ∧ |(half (lcH8.getD k 0) : V3 K).z| ≤ 1 := by
      intro k hk
      have hb : ∀ k, k < 8 → ((lcH8.getD k 0).x = 2 ∨ (lcH8.getD k 0).x = -2) ∧ ((lcH8.getD k 0).y = 2 ∨ (lcH8.getD k 0).y = -2) ∧
        ((lcH8.getD k 0).z = 2 ∨ (lcH8.getD k 0).z = -2) := by decide
      obtain ⟨g1, g2, g3⟩ := hb k hk
      refine ⟨?_, ?_, ?_⟩
      · rcases g1 with g | g <;> (simp only [half]; rw [g]; simp)
      · rcases g2 with g | g <;> (simp only [half]; rw [g]; simp)
      · rcases g3 with g | g <;> (simp only [half]; rw [g]; simp)
    obtain ⟨x0, y0, z0⟩ := hl i0 q0.1
    obtain ⟨x1, y1, z1⟩ := hl i1 q1.1
    obtain ⟨x2, y2, z2⟩ := hl i2 q2.1
    obtain ⟨x3, y3, z3⟩ := hl i3 q3.1
    obtain ⟨m0, m1, m2, m3⟩ := isNat4_iff.1 hnat
    obtain ⟨p0, p1, p2, p3⟩ := t
    have w0 := q0.2
    have w1 := q1.2
    have w2 := q2.2
    have w3 := q3.2
    simp only at w0 w1 w2 w3
    clear q0 q1 q2 q3
    rw [w0, w1, w2, w3] at m1 m2 m3
    simp only [boxAff, Aff.app, add_x, smul_x, add_y, smul_y, add_z, smul_z] at m1 m2 m3
    have bx := box_bound (hx a ha) (loc_bound x0 x1 x2 x3 k1 k2 k3 k4 m0 htol) (p := p.x) (by
      rw [← m1]; linear_combination ((ax.b a + ax.b (a + 1)) / 2) * m0)
    have bY := box_bound (hy b hb) (loc_bound y0 y1 y2 y3 k1 k2 k3 k4 m0 htol) (p := p.y) (by
      rw [← m2]; linear_combination ((ay.b b + ay.b (b + 1)) / 2) * m0)
    have bz := box_bound (hz d hd) (loc_bound z0 z1 z2 z3 k1 k2 k3 k4 m0 htol) (p := p.z) (by
      rw [← m3]; linear_combination ((az.b d + az.b (d + 1)) / 2) * m0)
    exact ⟨a, b, d, ha, hb, hd, bx.1, bx.2, bY.1, bY.2, bz.1, bz.2⟩

/-- **C108** `pip(x, lazy=False)` of the hexahedra of `gridH8`. -/
theorem C108_inside_solid {tol : K} (htol : 0 < tol) {lX lY lZ : K} (hX : 0 < lX) (hY : 0 < lY) (hZ : 0 < lZ) {nx ny nz : Nat} (s0 s1 s2 : K)
    (h : 1 ≤ nx ∧ 1 ≤ ny ∧ 1 ≤ nz) (x : List (V3 K)) : ∃ C T r, gridH8 (args3 lX lY lZ nx ny nz s0 s1 s2 0) = some (C, T) ∧
      pipCells3dAll (C.map rowPt) (asTopo T) pathH8TET4 tol x = some r ∧
      InsideGrid3 (fun i => s0 + lX / nx * i) (fun i => s1 + lY / ny * i) (fun i => s2 + lZ / nz * i) nx ny nz tol x r := by
  obtain ⟨C, T, g1, g2⟩ := C19_gridH8 lX lY lZ nx ny nz s0 s1 s2 0 h
  obtain ⟨r, r1, r2⟩ := grid_inside3 htol h (uniAxis_inc hX h.1) (uniAxis_inc hY h.2.1) (uniAxis_inc hZ h.2.2) g2 x
  exact ⟨C, T, r, g1, r1, r2⟩

/-- **C108** with bins in increasing order. -/
theorem C108_inside_solid_bins {tol : K} (htol : 0 < tol) {bx bY bz : List K} (hx : bx.Pairwise (· < ·)) (hy : bY.Pairwise (· < ·))
    (hz : bz.Pairwise (· < ·)) (s0 s1 s2 : K) (h : 2 ≤ bx.length ∧ 2 ≤ bY.length ∧ 2 ≤ bz.length) (x : List (V3 K)) :
    ∃ C T r, gridH8 (argsB3 bx bY bz s0 s1 s2 0) = some (C, T) ∧ pipCells3dAll (C.map rowPt) (asTopo T) pathH8TET4 tol x = some r ∧
      InsideGrid3 (fun i => s0 + bx.getD i 0) (fun i => s1 + bY.getD i 0) (fun i => s2 + bz.getD i 0) (bx.length - 1) (bY.length - 1)
        (bz.length - 1) tol x r := by
  obtain ⟨C, T, g1, g2⟩ := C21_gridH8_bins bx bY bz s0 s1 s2 0 h
  obtain ⟨r, r1, r2⟩ := grid_inside3 htol (by simp only [binAxis]; omega) (binAxis_inc hx) (binAxis_inc hy) (binAxis_inc hz) g2 x
  exact ⟨C, T, r, g1, r1, r2⟩

end

/-- **C108** is false for tolerance 0: the middle of a square is on the diagonal that cuts it, and the middle of its side on the side. -/
theorem C108_zero_false : ∃ (C : List (List ℚ)) (T : List (List Int)), gridQ4 (args2 (2 : ℚ) 2 1 1 0 0 0) = some (C, T) ∧
    pipCells2d (C.map rowP2) (asTopo T) pathQ4T3 0 [⟨1, 1⟩, ⟨1, 0⟩, ⟨3 / 2, 1⟩] = some [false, false, true] := by
  refine ⟨[[0, 0], [0, 2], [2, 0], [2, 2]], [[0, 2, 3, 1]], by decide +kernel, by decide +kernel⟩

/-- **C108** is false for bins in decreasing order: the triangles are clockwise, the middle of the lower one is not found. -/
theorem C108_order_false : ∃ (C : List (List ℚ)) (T : List (List Int)), gridQ4 (argsB2 [(2 : ℚ), 0] [0, 2] 0 0 0) = some (C, T) ∧
    pipCells2d (C.map rowP2) (asTopo T) pathQ4T3 (1 / 1000) [⟨3 / 2, 1⟩, ⟨1 / 2, 1⟩] = some [false, false] := by
  refine ⟨[[2, 0], [2, 2], [0, 0], [0, 2]], [[0, 2, 3, 1]], by decide +kernel, by decide +kernel⟩

/-- A case: a grid of two squares, points inside, outside, on a side and on a diagonal. -/
example : ∃ (C : List (List ℚ)) (T : List (List Int)), gridQ4 (args2 (4 : ℚ) 2 2 1 0 0 0) = some (C, T) ∧
    pipCells2d (C.map rowP2) (asTopo T) pathQ4T3 (1 / 1000) [⟨3, 1⟩, ⟨5, 1⟩, ⟨2, 2⟩, ⟨1 / 2, 0⟩] = some [true, false, true, true] ∧
    ∃ R, transformTopology (asTopo T) pathQ4T3 3 0 = some R ∧
      locateTri2d id (C.map rowP2) R none none (1 / 1000) [⟨7 / 2, 1⟩, ⟨5, 1⟩, ⟨1 / 2, 1⟩] = some [(0, 2, ⟨1 / 4, 1 / 2⟩), (2, 1, ⟨1 / 4, 1 / 4⟩)] := by
  refine ⟨_, _, rfl, by decide +kernel, [[0, 2, 3], [0, 3, 1], [2, 4, 5], [2, 5, 3]], by decide +kernel, by decide +kernel⟩

/-- A case in space. -/
example : ∃ (C : List (List ℚ)) (T : List (List Int)), gridH8 (args3 (4 : ℚ) 2 2 2 1 1 0 0 0 0) = some (C, T) ∧
    pipCells3dAll (C.map rowPt) (asTopo T) pathH8TET4 (1 / 1000) [⟨7 / 2, 1, 1 / 2⟩, ⟨5, 1, 1⟩, ⟨2, 0, 2⟩] = some [true, false, true] := by
  refine ⟨_, _, rfl, by decide +kernel⟩

end PM
