import Verif.PropsTile

/-!
# Exact accounts: which tilings repeat points (C56)
-/

namespace PM

section
variable {K : Type} [Field K] [LinearOrder K] [IsStrictOrderedRing K]

/-- **C56** exact: if the cells of the tile use all its points, each point of the result occurs once exactly if the tiles form one row or
one column, or if the tile has no point in the corner `(x0, y1)`. -/
theorem C56_exact {coords : List (V3 K)} {x0 x1 y0 y1 tol : K} (h : IsTile coords x0 x1 y0 y1 tol) (hx : x0 < x1) (hy : y0 < y1)
    (hd : coords.Nodup) {nX nY : Nat} (hX : 0 < nX) (hY : 0 < nY) {topo : Topo} {order : List (Nat × Nat)}
    (ho : (tileBlocks nX nY).Perm order) (hn : ∀ k, UsesNode topo k ↔ k < coords.length) :
    ∃ (C : List (V3 K)) (T : Topo), tile2d order coords topo nX nY tol = some (C, T) ∧
      (C.Nodup ↔ nX = 1 ∨ nY = 1 ∨ ∀ p ∈ coords, ¬ (p.x = x0 ∧ p.y = y1)) := by
  have hn' : ∀ row ∈ topo, ∀ n ∈ row, n < coords.length := fun row hr n hm => (hn n).1 ⟨row, hr, hm⟩
  obtain ⟨C, T, t, imap, ids, h1, h2, h3, h4, h5, h6, h7, h8, -, -, -⟩ := tile2d_spec h (nX := nX) (nY := nY) ho hn'
  refine ⟨C, T, h1, ?_, ?_⟩
  · intro hC
    by_contra hcon
    have hX2 : 1 < nX := by
      by_contra h0
      exact hcon (Or.inl (by omega))
    have hY2 : 1 < nY := by
      by_contra h0
      exact hcon (Or.inr (Or.inl (by omega)))
    obtain ⟨p, hp, hpx, hpy⟩ : ∃ p ∈ coords, p.x = x0 ∧ p.y = y1 := by
      by_contra h0
      exact hcon (Or.inr (Or.inr fun p hp hq => h0 ⟨p, hp, hq⟩))
    obtain ⟨k01, hk01⟩ := List.getElem?_of_mem hp
    have hl01 := (List.getElem?_eq_some_iff.1 hk01).1
    -- the point below
    obtain ⟨k00, hpair⟩ : ∃ k00, PairOf (atCoord V3.y coords y0) (atCoord V3.y coords y1) k00 k01 := by
      obtain ⟨s, hs⟩ := List.getElem?_of_mem (mem_atCoord.2 ⟨p, hk01, hpy⟩ : k01 ∈ atCoord V3.y coords y1)
      have hsl : s < (atCoord V3.y coords y0).length := by rw [h.shifty.1]; exact (List.getElem?_eq_some_iff.1 hs).1
      exact ⟨_, s, List.getElem?_eq_getElem hsl, hs⟩
    have hk00 : k00 ∈ atCoord V3.y coords y0 := by
      obtain ⟨s, hs, -⟩ := hpair
      exact List.mem_of_getElem? hs
    have hl00 := (atCoord_paired h.shifty).lt k00 hk00
    -- the point to the right
    obtain ⟨k11, hpr, hm11⟩ := (atCoord_paired h.shiftx).exists (mem_atCoord.2 ⟨p, hk01, hpx⟩ : k01 ∈ atCoord V3.x coords x0)
    have hk11 := pair_shift h.shiftx hpr hk01
    have hl11 := (List.getElem?_eq_some_iff.1 hk11).1
    have used : ∀ i j k m, i < nX → j < nY → k < coords.length → imap[tileNo nY coords.length i j k]? = some m → m ∈ ids := by
      intro i j k m hi hj hk hm
      obtain ⟨row, hr, hkr⟩ := (hn k).2 hk
      rw [h6, h4]
      refine ⟨_, List.mem_map.2 ⟨_, List.mem_flatMap.2 ⟨(i, j), mem_tileBlocks.2 ⟨hi, hj⟩, List.mem_map.2 ⟨row, hr, rfl⟩⟩, rfl⟩, ?_⟩
      refine List.mem_map.2 ⟨k + (i * nY + j) * coords.length, List.mem_map.2 ⟨k, hkr, rfl⟩, ?_⟩
      have hno : k + (i * nY + j) * coords.length = tileNo nY coords.length i j k := by unfold tileNo; omega
      rw [hno, List.getD_eq_getElem?_getD, hm]
      rfl
    have u1 := used 1 1 k00 _ hX2 hY2 hl00 ((h3 1 1 k00 hX2 hY2 hl00).1 k01 Nat.one_pos hpair)
    have u2 := used 0 0 k11 _ hX hY hl11 ((h3 0 0 k11 hX hY hl11).2.2 (Or.inl rfl) (Or.inl rfl))
    obtain ⟨a, ha⟩ := List.getElem?_of_mem u1
    obtain ⟨b, hb⟩ := List.getElem?_of_mem u2
    have hal : a < C.length := by rw [h7]; exact (List.getElem?_eq_some_iff.1 ha).1
    have hCa := h8 a _ ha
    have hCb := h8 b _ hb
    rw [tileCoords_get hX2 hY hk01] at hCa
    rw [tileCoords_get hX hY hk11] at hCb
    have heq : C[a]? = C[b]? := by
      rw [hCa, hCb]
      congr 1
      ext <;> simp
    have hab := (List.getElem?_inj hal hC).1 heq
    subst hab
    rw [ha] at hb
    have := (tileNo_inj hY hY hl01 hl11 (Option.some.inj hb)).1
    omega
  · intro hcorner
    obtain ⟨C', T', e, hC⟩ := C56_partial h hx hy hd ho hn' hcorner
    rw [h1] at e
    rwa [(Prod.mk.inj (Option.some.inj e)).1]

end

/-- Squares with their corners: two by two tiles repeat a point. -/
example : ∃ (C : List (V3 ℚ)) (T : Topo), tile2d (tileBlocks 2 2) sqTile [[0, 1, 3, 2]] 2 2 (1 / 10) = some (C, T) ∧ ¬ C.Nodup := by
  obtain ⟨C, T, e, h⟩ := C56_exact sqTile_isTile (by norm_num) (by norm_num) (by decide +kernel) (nX := 2) (nY := 2) (by decide) (by decide)
    (topo := [[0, 1, 3, 2]]) (List.Perm.refl _) (by
      intro k
      simp only [UsesNode, exists_eq_left, List.mem_cons, List.not_mem_nil, or_false]
      show _ ↔ k < 4
      omega)
  refine ⟨C, T, e, fun hC => ?_⟩
  rcases h.1 hC with h | h | h
  · cases h
  · cases h
  · exact h ⟨0, 1, 0⟩ (by decide +kernel) ⟨rfl, rfl⟩

end PM
