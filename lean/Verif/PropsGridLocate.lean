import Verif.PropsGridTiles
import Verif.PropsLocate

/-!
# C103: points located in grids
-/

namespace PM

open V3

section
variable {K : Type} [Field K] [LinearOrder K] [IsStrictOrderedRing K]

omit [Field K] [LinearOrder K] [IsStrictOrderedRing K] in
theorem sourcesOf_sorted (pips : List (List Bool)) : (sourcesOf pips).Pairwise (· < ·) := by
  unfold sourcesOf
  have h : ((pips.zipIdx.filter fun r => r.1.any id).map Prod.snd).Sublist (pips.zipIdx.map Prod.snd) := List.filter_sublist.map _
  refine List.Pairwise.sublist h ?_
  rw [List.zipIdx_map_snd]
  exact List.pairwise_lt_range'

omit [IsStrictOrderedRing K] in
/-- The located points come in their order, none twice. -/
theorem locate_sorted {sched : List (Nat × Nat) → List (Nat × Nat)} {coords : List (V3 K)} {topo tetmap : Topo} {lcoords : List (V3 K)}
    {nb : List (List Nat)} {tol : K} {x : List (V3 K)} {r : List (Nat × Nat × V3 K)}
    (hr : locate sched coords topo tetmap lcoords nb tol x = some r) : (r.map fun q => q.1).Pairwise (· < ·) := by
  unfold locate at hr
  simp only [Option.bind_eq_some_iff] at hr
  obtain ⟨tt, h1, tets, h2, nat, h3, h4⟩ := hr
  have hl : (r.map fun q => q.1) = sourcesOf (nat.map fun ns => ns.map (pipTet tol)) := by
    have hlen : (hitsRun (sourcesOf (nat.map fun ns => ns.map (pipTet tol))).length
        (sched (hitWrites ((sourcesOf (nat.map fun ns => ns.map (pipTet tol))).map fun i => (nat.map fun ns => ns.map (pipTet tol)).getD i [])))).length =
          (sourcesOf (nat.map fun ns => ns.map (pipTet tol))).length := by simp [hitsRun]
    generalize hitsRun _ _ = rel at h4 hlen
    generalize sourcesOf (nat.map fun ns => ns.map (pipTet tol)) = src at h4 hlen
    have := mapM_length h4
    apply List.ext_getElem?
    intro i
    by_cases hi : i < src.length
    · have hz : (src.zip rel)[i]? = some (src[i], rel[i]) := by
        rw [List.getElem?_eq_getElem (by simp; omega), List.getElem_zip]
      obtain ⟨y, y1, y2⟩ := mapM_get h4 hz
      rw [List.getElem?_map, y2, Option.map_some, List.getElem?_eq_getElem hi]
      unfold locateOne at y1
      simp only [Option.bind_eq_some_iff, Option.map_eq_some_iff] at y1
      obtain ⟨_, _, _, _, _, _, _, _, _, _, _, _, rfl⟩ := y1
      rfl
    · rw [List.getElem?_eq_none (by simp; simp at this; omega), List.getElem?_eq_none (by omega)]
  rw [hl]
  exact sourcesOf_sorted _

omit [LinearOrder K] [IsStrictOrderedRing K] in
/-- The tetrahedra of a cell of a grid. -/
theorem grid_tet {ax ay az : Axis K} {C : List (List K)} {T : List (List Int)} (h : VtkGrid3 lcH8 ax ay az 0 C T) {c : Nat}
    {cell : List Nat} (hc : (asTopo T)[c]? = some cell) : ∃ a b d, a < ax.n ∧ b < ay.n ∧ d < az.n ∧ c = (a * ay.n + b) * az.n + d ∧
      ∀ (k n : Nat) (P : V3 K), cell[k]? = some n → (C.map rowPt)[n]? = some P → k < 8 ∧
        P = (boxAff (ax.b a) (ax.b (a + 1)) (ay.b b) (ay.b (b + 1)) (az.b d) (az.b (d + 1))).app (half (lcH8.getD k 0)) := by
  have hlt := (List.getElem?_eq_some_iff.1 hc).1
  rw [asTopo, List.length_map, h.1] at hlt
  obtain ⟨xs, hw, hx'⟩ := lexNo_surj (ds := [ax.n, ay.n, az.n]) (r := c) (by simpa [Nat.mul_assoc] using hlt)
  obtain ⟨a, b, d, rfl, ha, hb, hd⟩ := within3.1 hw
  have hno : c = (a * ay.n + b) * az.n + d := by rw [← hx']; simp [lexNo]; ring
  refine ⟨a, b, d, ha, hb, hd, hno, fun k n P hk hP => ?_⟩
  obtain ⟨pts, p1, p2⟩ := mapM_get (cellPoints3 h) hc
  rw [hno, latCells_get _ ha hb hd, Option.some.injEq] at p2
  obtain ⟨y, y1, y2⟩ := mapM_get p1 hk
  rw [hP, Option.some.injEq] at y1
  subst y1
  rw [← p2, List.getElem?_map, Option.map_eq_some_iff] at y2
  obtain ⟨v, v1, rfl⟩ := y2
  exact ⟨(List.getElem?_eq_some_iff.1 v1).1, by rw [List.getD_eq_getElem?_getD, v1]; rfl⟩

/-- `r` lists points of `x` found in the boxes of a grid: point `i`, the number of the cell, and the local coordinates of the point in
it, which run from -1 to 1 over the box up to the tolerance; no point twice, and every point of the whole box. -/
structure LocatedIn (X Y Z : Nat → K) (nx ny nz : Nat) (tol : K) (x : List (V3 K)) (r : List (Nat × Nat × V3 K)) : Prop where
  once : (r.map fun q => q.1).Pairwise (· < ·)
  found : ∀ (i : Nat) (p : V3 K), x[i]? = some p → InB ⟨X 0, Y 0, Z 0⟩ ⟨X nx, Y ny, Z nz⟩ p → ∃ c loc, (i, c, loc) ∈ r
  right : ∀ (i c : Nat) (loc : V3 K), (i, c, loc) ∈ r → ∃ p a b d, x[i]? = some p ∧ a < nx ∧ b < ny ∧ d < nz ∧ c = (a * ny + b) * nz + d ∧
    2 * p.x = (1 - loc.x) * X a + (1 + loc.x) * X (a + 1) ∧ 2 * p.y = (1 - loc.y) * Y b + (1 + loc.y) * Y (b + 1) ∧
    2 * p.z = (1 - loc.z) * Z d + (1 + loc.z) * Z (d + 1) ∧ |loc.x| ≤ 1 + 8 * tol ∧ |loc.y| ≤ 1 + 8 * tol ∧ |loc.z| ≤ 1 + 8 * tol

theorem loc_bound {a b c d t n1 n2 n3 n4 : K} (ha : |a| ≤ 1) (hb : |b| ≤ 1) (hc : |c| ≤ 1) (hd : |d| ≤ 1) (h1 : -t < n1) (h2 : -t < n2)
    (h3 : -t < n3) (h4 : -t < n4) (hs : n1 + n2 + n3 + n4 = 1) (ht : 0 < t) : |n1 * a + n2 * b + n3 * c + n4 * d| ≤ 1 + 8 * t := by
  have key : ∀ n a : K, -t < n → |a| ≤ 1 → n * a ≤ n + 2 * t ∧ -(n + 2 * t) ≤ n * a := by
    intro n a hn ha
    obtain ⟨a1, a2⟩ := abs_le.1 ha
    constructor <;> nlinarith
  obtain ⟨p1, q1⟩ := key n1 a h1 ha
  obtain ⟨p2, q2⟩ := key n2 b h2 hb
  obtain ⟨p3, q3⟩ := key n3 c h3 hc
  obtain ⟨p4, q4⟩ := key n4 d h4 hd
  rw [abs_le]
  constructor <;> linarith

theorem grid_located {sched : List (Nat × Nat) → List (Nat × Nat)} (hsched : ∀ w : List (Nat × Nat), w.Perm (sched w)) {tol : K} (htol : 0 < tol)
    {ax ay az : Axis K} (hn : 1 ≤ ax.n ∧ 1 ≤ ay.n ∧ 1 ≤ az.n) (hx : ax.Inc) (hy : ay.Inc) (hz : az.Inc) {C : List (List K)} {T : List (List Int)}
    (h : VtkGrid3 lcH8 ax ay az 0 C T) (x : List (V3 K)) :
    ∃ r, locateAll sched (C.map rowPt) (asTopo T) pathH8TET4 (lcH8.map half) tol x = some r ∧ LocatedIn ax.b ay.b az.b ax.n ay.n az.n tol x r := by
  have hT : ∀ r ∈ asTopo T, r.length = 8 := by
    intro r hr
    rw [asTopo, List.mem_map] at hr
    obtain ⟨r', hr', rfl⟩ := hr
    rw [List.length_map, h.2.1 r' hr']
    rfl
  have hpts := cellPoints3 h
  have hmap : ∀ m ∈ pathH8TET4, m.length = 4 ∧ ∀ q ∈ m, q < 8 := by decide
  obtain ⟨r, hr⟩ := C47_total hsched (coords := C.map rowPt) (topo := asTopo T) (tetmap := pathH8TET4) (lcoords := lcH8.map half)
    (nb := x.map fun _ => List.range ((asTopo T).length * pathH8TET4.length)) (tol := tol) (x := x) (fun m hm => (hmap m hm).1)
    (fun m hm k hk cell hc => by rw [hT cell hc]; exact (hmap m hm).2 k hk)
    (by
      intro cell hc n hn'
      obtain ⟨c, hc⟩ := List.getElem?_of_mem hc
      obtain ⟨pts, p1, -⟩ := mapM_get hpts hc
      obtain ⟨k, hk⟩ := List.getElem?_of_mem hn'
      obtain ⟨y, y1, -⟩ := mapM_get p1 hk
      exact (List.getElem?_eq_some_iff.1 y1).1)
    (fun m hm k hk => by rw [List.length_map]; exact (hmap m hm).2 k hk) (by simp)
    (by
      intro row hrow τ hτ
      obtain ⟨_, -, rfl⟩ := List.mem_map.1 hrow
      exact List.mem_range.1 hτ)
  -- the tetrahedra of the cells
  have hvol : ∀ cell ∈ asTopo T, ∀ m ∈ pathH8TET4, ∀ t, TetOfCell (C.map rowPt) cell m t → volTet t ≠ 0 := by
    intro cell hc m hm t ht
    obtain ⟨c, hc⟩ := List.getElem?_of_mem hc
    obtain ⟨a, b, d, ha, hb, hd, -, hP⟩ := grid_tet h hc
    obtain ⟨i0, i1, i2, i3, n0, n1, n2, n3, rfl, c0, c1, c2, c3, e0, e1, e2, e3⟩ := ht
    have q0 := (hP _ _ _ c0 e0).2
    have q1 := (hP _ _ _ c1 e1).2
    have q2 := (hP _ _ _ c2 e2).2
    have q3 := (hP _ _ _ c3 e3).2
    obtain ⟨p0, p1, p2, p3⟩ := t
    simp only at q0 q1 q2 q3
    subst q0 q1 q2 q3
    have hA := (C30_affine (boxAff (ax.b a) (ax.b (a + 1)) (ay.b b) (ay.b (b + 1)) (az.b d) (az.b (d + 1)))
      ⟨half (lcH8.getD i0 0), half (lcH8.getD i1 0), half (lcH8.getD i2 0), half (lcH8.getD i3 0)⟩).1
    rw [hA]
    refine mul_ne_zero ?_ ?_
    · rw [boxAff_det]
      have := mul_pos (mul_pos (sub_pos.2 (hx _ ha)) (sub_pos.2 (hy _ hb))) (sub_pos.2 (hz _ hd))
      exact (by linarith : (0 : K) < _).ne'
    · simp only [pathH8TET4, List.mem_cons, List.not_mem_nil, or_false, List.cons.injEq, and_true] at hm
      rcases hm with ⟨rfl, rfl, rfl, rfl⟩ | ⟨rfl, rfl, rfl, rfl⟩ | ⟨rfl, rfl, rfl, rfl⟩ | ⟨rfl, rfl, rfl, rfl⟩ | ⟨rfl, rfl, rfl, rfl⟩ <;>
      · simp only [lcH8, List.getD_cons_zero, List.getD_cons_succ, half, volTet, dot, cross, sub_x, sub_y, sub_z]
        norm_num
  refine ⟨r, hr, locate_sorted hr, ?_, ?_⟩
  · intro i p hi hp
    obtain ⟨s, hs, hh⟩ := (tiles_grid3 split_H8_TET4 hn hx hy hz).cover p hp
    obtain ⟨q, hq, hs⟩ := List.mem_flatMap.1 hs
    obtain ⟨m, hm, rfl⟩ := List.mem_map.1 hs
    obtain ⟨q1, q2, q3⟩ := mem_latCells.1 hq
    have hct : (q.1 * ay.n + q.2.1) * az.n + q.2.2 < (asTopo T).length := by
      have := latCells_get (fun p => p) q1 q2 q3
      have := (List.getElem?_eq_some_iff.1 this).1
      rw [asTopo, List.length_map, h.1]
      simpa [latCells, List.length_flatMap, Nat.mul_assoc] using this
    have hc : (asTopo T)[(q.1 * ay.n + q.2.1) * az.n + q.2.2]? = some (asTopo T)[(q.1 * ay.n + q.2.1) * az.n + q.2.2] := List.getElem?_eq_getElem hct
    obtain ⟨pts, p1, p2⟩ := mapM_get hpts hc
    rw [latCells_get _ q1 q2 q3, Option.some.injEq] at p2
    subst p2
    generalize (asTopo T)[(q.1 * ay.n + q.2.1) * az.n + q.2.2] = cell at hc p1
    have hnode : ∀ k, k < 8 → ∃ n, cell[k]? = some n ∧ (C.map rowPt)[n]? = some ((boxAff (ax.b q.1) (ax.b (q.1 + 1)) (ay.b q.2.1)
        (ay.b (q.2.1 + 1)) (az.b q.2.2) (az.b (q.2.2 + 1))).app (half (lcH8.getD k 0))) := by
      intro k hk
      have hk' : k < cell.length := by rw [hT _ (List.mem_of_getElem? hc)]; exact hk
      obtain ⟨y, y1, y2⟩ := mapM_get p1 (List.getElem?_eq_getElem hk')
      refine ⟨cell[k], List.getElem?_eq_getElem hk', ?_⟩
      rw [y1, ← y2, List.getElem?_map, List.getElem?_eq_getElem (l := lcH8) hk, List.getD_eq_getElem?_getD, List.getElem?_eq_getElem (l := lcH8) hk]
      rfl
    obtain ⟨hm4, hm8⟩ := hmap m hm
    match m, hm4 with
    | [i0, i1, i2, i3], _ =>
      obtain ⟨n0, c0, e0⟩ := hnode i0 (hm8 i0 (by simp))
      obtain ⟨n1, c1, e1⟩ := hnode i1 (hm8 i1 (by simp))
      obtain ⟨n2, c2, e2⟩ := hnode i2 (hm8 i2 (by simp))
      obtain ⟨n3, c3, e3⟩ := hnode i3 (hm8 i3 (by simp))
      have htc : TetOfCell (C.map rowPt) cell [i0, i1, i2, i3] ⟨_, _, _, _⟩ :=
        ⟨i0, i1, i2, i3, n0, n1, n2, n3, rfl, c0, c1, c2, c3, e0, e1, e2, e3⟩
      exact C47_complete hsched htol hr hi (List.mem_of_getElem? hc) hm htc (hvol cell (List.mem_of_getElem? hc) _ hm _ htc) hh
  · intro i c loc hm
    obtain ⟨p, cell, m, t, l, n, hp, hc, hm', htc, htl, hn1, hn2, b1, b2, b3, b4⟩ := C47_sound hsched hr hvol hm
    obtain ⟨a, b, d, ha, hb, hd, hno, hP⟩ := grid_tet h hc
    have haff := C47_affine hsched hr hvol hm hc (boxAff (ax.b a) (ax.b (a + 1)) (ay.b b) (ay.b (b + 1)) (az.b d) (az.b (d + 1))) (by
      intro k n ξ P hk hξ hPn
      rw [(hP k n P hk hPn).2]
      rw [List.getElem?_map, Option.map_eq_some_iff] at hξ
      obtain ⟨v, v1, rfl⟩ := hξ
      rw [List.getD_eq_getElem?_getD, v1]
      rfl) hp
    refine ⟨p, a, b, d, hp, ha, hb, hd, hno, ?_, ?_, ?_, ?_⟩
    · rw [← haff]; simp only [boxAff, Aff.app, add_x, smul_x]; ring
    · rw [← haff]; simp only [boxAff, Aff.app, add_y, smul_y]; ring
    · rw [← haff]; simp only [boxAff, Aff.app, add_z, smul_z]; ring
    · obtain ⟨i0, i1, i2, i3, rfl, f0, f1, f2, f3⟩ := htl
      have hl : ∀ (k : Nat) (P : V3 K), (lcH8.map half)[k]? = some P → |P.x| ≤ 1 ∧ |P.y| ≤ 1 ∧ |P.z| ≤ 1 := by
        intro k P hk
        rw [List.getElem?_map, Option.map_eq_some_iff] at hk
        obtain ⟨v, v1, rfl⟩ := hk
        have hv := List.mem_of_getElem? v1
        have hb : ∀ v ∈ lcH8, (v.x = 2 ∨ v.x = -2) ∧ (v.y = 2 ∨ v.y = -2) ∧ (v.z = 2 ∨ v.z = -2) := by decide
        obtain ⟨g1, g2, g3⟩ := hb v hv
        refine ⟨?_, ?_, ?_⟩
        · rcases g1 with g | g <;> simp [half, g]
        · rcases g2 with g | g <;> simp [half, g]
        · rcases g3 with g | g <;> simp [half, g]
      obtain ⟨x0, y0, z0⟩ := hl _ _ f0
      obtain ⟨x1, y1, z1⟩ := hl _ _ f1
      obtain ⟨x2, y2, z2⟩ := hl _ _ f2
      obtain ⟨x3, y3, z3⟩ := hl _ _ f3
      obtain ⟨m0, m1, m2, m3⟩ := isNat4_iff.1 hn2
      rw [← m1, ← m2, ← m3]
      exact ⟨loc_bound x0 x1 x2 x3 b1 b2 b3 b4 m0 htol, loc_bound y0 y1 y2 y3 b1 b2 b3 b4 m0 htol, loc_bound z0 z1 z2 z3 b1 b2 b3 b4 m0 htol⟩

/-- **C103** `locate(x, lazy=False)` of the cells of `gridH8`: every point of the box is found, once, and the local coordinates are those
of the point in the cell. -/
theorem C103_grid {sched : List (Nat × Nat) → List (Nat × Nat)} (hsched : ∀ w : List (Nat × Nat), w.Perm (sched w)) {tol : K} (htol : 0 < tol)
    {lX lY lZ : K} (hX : 0 < lX) (hY : 0 < lY) (hZ : 0 < lZ) {nx ny nz : Nat} (s0 s1 s2 : K) (h : 1 ≤ nx ∧ 1 ≤ ny ∧ 1 ≤ nz) (x : List (V3 K)) :
    ∃ C T r, gridH8 (args3 lX lY lZ nx ny nz s0 s1 s2 0) = some (C, T) ∧
      locateAll sched (C.map rowPt) (asTopo T) pathH8TET4 (lcH8.map half) tol x = some r ∧
      LocatedIn (fun i => s0 + lX / nx * i) (fun i => s1 + lY / ny * i) (fun i => s2 + lZ / nz * i) nx ny nz tol x r := by
  obtain ⟨C, T, g1, g2⟩ := C19_gridH8 lX lY lZ nx ny nz s0 s1 s2 0 h
  obtain ⟨r, r1, r2⟩ := grid_located hsched htol h (uniAxis_inc hX h.1) (uniAxis_inc hY h.2.1) (uniAxis_inc hZ h.2.2) g2 x
  exact ⟨C, T, r, g1, r1, r2⟩

/-- **C103** with bins in increasing order. -/
theorem C103_bins {sched : List (Nat × Nat) → List (Nat × Nat)} (hsched : ∀ w : List (Nat × Nat), w.Perm (sched w)) {tol : K} (htol : 0 < tol)
    {bx bY bz : List K} (hx : bx.Pairwise (· < ·)) (hy : bY.Pairwise (· < ·)) (hz : bz.Pairwise (· < ·)) (s0 s1 s2 : K)
    (h : 2 ≤ bx.length ∧ 2 ≤ bY.length ∧ 2 ≤ bz.length) (x : List (V3 K)) :
    ∃ C T r, gridH8 (argsB3 bx bY bz s0 s1 s2 0) = some (C, T) ∧
      locateAll sched (C.map rowPt) (asTopo T) pathH8TET4 (lcH8.map half) tol x = some r ∧
      LocatedIn (fun i => s0 + bx.getD i 0) (fun i => s1 + bY.getD i 0) (fun i => s2 + bz.getD i 0) (bx.length - 1) (bY.length - 1)
        (bz.length - 1) tol x r := by
  obtain ⟨C, T, g1, g2⟩ := C21_gridH8_bins bx bY bz s0 s1 s2 0 h
  obtain ⟨r, r1, r2⟩ := grid_located hsched htol (by simp only [binAxis]; omega) (binAxis_inc hx) (binAxis_inc hy) (binAxis_inc hz) g2 x
  exact ⟨C, T, r, g1, r1, r2⟩

end

/-- **C103** is false with tolerance 0: a corner of the grid is not found. -/
theorem C103_zero_false : ∃ (C : List (List ℚ)) (T : List (List Int)), gridH8 (args3 (2 : ℚ) 2 2 1 1 1 0 0 0 0) = some (C, T) ∧
    locateAll id (C.map rowPt) (asTopo T) pathH8TET4 (lcH8.map half) 0 [⟨0, 0, 0⟩] = some [] := by
  refine ⟨[[0, 0, 0], [0, 0, 2], [0, 2, 0], [0, 2, 2], [2, 0, 0], [2, 0, 2], [2, 2, 0], [2, 2, 2]], [[0, 4, 6, 2, 1, 5, 7, 3]],
    by decide +kernel, by decide +kernel⟩

/-- A case: a grid of two cells, three points, one of them outside. -/
example : ∃ (C : List (List ℚ)) (T : List (List Int)), gridH8 (args3 (4 : ℚ) 2 2 2 1 1 0 0 0 0) = some (C, T) ∧
    locateAll id (C.map rowPt) (asTopo T) pathH8TET4 (lcH8.map half) (1 / 1000) [⟨7 / 2, 1, 1 / 2⟩, ⟨5, 1, 1⟩, ⟨1 / 2, 1, 1⟩] =
      some [(0, 1, ⟨1 / 2, 0, -1 / 2⟩), (2, 0, ⟨-1 / 2, 0, 0⟩)] := by
  refine ⟨_, _, rfl, by decide +kernel⟩

end PM
