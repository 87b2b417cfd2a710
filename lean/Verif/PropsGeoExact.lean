import Verif.PropsCloudMore
import Verif.PropsTriMore
import Verif.PropsJacobian
import Verif.PropsKnn
import Verif.PropsLocateTri

/-!
# C61, C65, C67, C68, C69: what happens where the claims fail

Exact accounts of what the functions give for the arguments for which the documented result is not returned.
-/

namespace PM

/-! ## C61: motions without a frame -/

section
variable {K : Type} [Field K]

/-- The frame at the origin with the axes of space. -/
def spaceFrame : CFrame K := ⟨⟨1, 0, 0⟩, ⟨0, 1, 0⟩, ⟨0, 0, 1⟩, 0⟩

theorem spaceFrame_vec (v : V3 K) : (spaceFrame : CFrame K).vecAmb v = v := by
  ext <;> simp [spaceFrame, CFrame.vecAmb]

/-- **C61** Without a frame the cloud moves by the vector with the given components in its own frame. This is the documented
motion exactly if the frame of the cloud leaves the vector as it is. -/
theorem C61_move_default_exact (F : CFrame K) (x : List (V3 K)) (v : V3 K) :
    MovedBy F (F.vecAmb v) x (pcMove F x v none) ∧
      (x ≠ [] → (MovedBy F v x (pcMove F x v none) ↔ F.vecAmb v = v)) := by
  have h := C61_vector_partial F spaceFrame x v none
  rw [spaceFrame_vec] at h
  exact h

/-- **C61** Centring without a frame: the centre `c` goes to `c` less the vector with its components in the frame of the cloud.
This is the origin exactly if the frame leaves `c` as it is. -/
theorem C61_centralize_default_exact [CharZero K] (F : CFrame K) {x : List (V3 K)} (hx : x ≠ []) :
    pcCenter F none (pcCentralize F none x) = pcCenter F none x - F.vecAmb (pcCenter F none x) ∧
      (pcCenter F none (pcCentralize F none x) = 0 ↔ F.vecAmb (pcCenter F none x) = pcCenter F none x) := by
  have h := pcCenter_moved hx (C61_move_default_exact F x (-(pcCenter F none x))).1
  have e : F.vecAmb (-(pcCenter F none x)) = -F.vecAmb (pcCenter F none x) := by
    ext <;> simp [CFrame.vecAmb] <;> ring
  rw [e] at h
  have h' : pcCenter F none (pcCentralize F none x) = pcCenter F none x - F.vecAmb (pcCenter F none x) := by
    rw [pcCentralize, h]
    ext <;> simp [sub_eq_add_neg]
  refine ⟨h', ?_⟩
  rw [h']
  constructor
  · intro h0
    ext
    · have := congrArg V3.x h0; simp [sub_eq_zero] at this; exact this.symm
    · have := congrArg V3.y h0; simp [sub_eq_zero] at this; exact this.symm
    · have := congrArg V3.z h0; simp [sub_eq_zero] at this; exact this.symm
  · intro h0
    rw [h0]
    ext <;> simp

end

/-- A cloud in a frame turned by a right angle, moved by the first axis: it moves along the second. -/
example : (⟨⟨0, 1, 0⟩, ⟨-1, 0, 0⟩, ⟨0, 0, 1⟩, 0⟩ : CFrame ℚ).vecAmb ⟨1, 0, 0⟩ = ⟨0, 1, 0⟩ := by decide +kernel

/-! ## C28, C69: clockwise triangles -/

section
variable {K : Type} [Field K] [LinearOrder K] [IsStrictOrderedRing K]

/-- The point of which the coordinates in a triangle are computed: the point itself in triangles listed counter-clockwise, its
mirror image in the third corner in triangles listed clockwise. -/
def seenIn (t : Tri K) (p : P2 K) : P2 K :=
  if 0 < turn t.p1 t.p2 t.p3 then p else ⟨2 * t.p3.x - p.x, 2 * t.p3.y - p.y⟩

/-- **C28** What `glob_to_nat_tri` computes in triangles of both kinds. -/
theorem C28_both_exact {t : Tri K} (h : turn t.p1 t.p2 t.p3 ≠ 0) (p : P2 K) : IsNat t (seenIn t p) (globToNatTri p t) := by
  rcases lt_or_gt_of_ne h with hlt | hgt
  · simp only [seenIn, not_lt.2 hlt.le, if_false]
    simp only [globToNatTri, denom_eq, abs_of_neg hlt]
    generalize hd : turn t.p1 t.p2 t.p3 = d at h
    simp only [turn] at hd
    refine ⟨by ring, ?_, ?_⟩ <;> field_simp <;> rw [← hd] <;> ring
  · simp only [seenIn, hgt, if_true]
    exact (C28_glob_to_nat_partial hgt p).1

/-- **C69** Triangles of both kinds: reported points are seen in the reported triangle up to the tolerance, at the place the reported
local coordinates name. -/
theorem C69_both_exact {sched : List (Nat × Nat) → List (Nat × Nat)} (hs : ∀ w : List (Nat × Nat), w.Perm (sched w))
    {coords : List (P2 K)} {triangles : Topo} {nb : List (List Nat)} {tol : K} {x : List (P2 K)} {r : List (Nat × Nat × P2 K)}
    (hr : locateTri sched coords triangles [[0, 1, 2]] nb tol x = some r)
    (hdeg : ∀ row ∈ triangles, ∀ t, TriOfPoints coords row t → turn t.p1 t.p2 t.p3 ≠ 0) {i c : Nat} {loc : P2 K}
    (hm : (i, c, loc) ∈ r) :
    ∃ p row t n, x[i]? = some p ∧ triangles[c]? = some row ∧ TriOfPoints coords row t ∧ IsNat t (seenIn t p) n ∧
      (-tol < n.n1 ∧ -tol < n.n2 ∧ -tol < n.n3) ∧
      t.p1.x + loc.x * (t.p2.x - t.p1.x) + loc.y * (t.p3.x - t.p1.x) = (seenIn t p).x ∧
      t.p1.y + loc.x * (t.p2.y - t.p1.y) + loc.y * (t.p3.y - t.p1.y) = (seenIn t p).y := by
  unfold locateTri at hr
  simp only [Option.bind_eq_some_iff] at hr
  obtain ⟨tris, h1, nat, h2, h3⟩ := hr
  obtain ⟨i', j, pr, e1, e2, e3⟩ := (searchHits_mem hs h3).1 _ hm
  rw [List.getElem?_map] at e1
  obtain ⟨ns, hns, rfl⟩ := Option.map_eq_some_iff.1 e1
  rw [List.getElem?_map] at e2
  obtain ⟨n, hn, hp⟩ := Option.map_eq_some_iff.1 e2
  obtain ⟨p, row, τ, t, f1, f2, f3, f4, rfl⟩ := natTableTri_get h2 hns hn
  unfold locateTriOne at e3
  rw [f2, Option.bind_some, f3, Option.bind_some, hns] at e3
  simp only [List.length_singleton, Nat.mod_one, List.getElem?_cons_zero, Option.bind_some, hn, Nat.div_one, ntriToLoc, triOf,
    List.getElem?_cons_succ, Option.map_some, Option.some.injEq, Prod.mk.injEq] at e3
  obtain ⟨rfl, rfl, rfl⟩ := e3
  have hτ : τ < triangles.length := by rw [← mapM_length h1]; exact (List.getElem?_eq_some_iff.1 f4).1
  obtain ⟨t', g1, g2⟩ := mapM_get h1 (List.getElem?_eq_getElem hτ)
  rw [f4] at g2
  obtain rfl := Option.some.inj g2
  have ht := triOf_some.1 g1
  have hnat := C28_both_exact (hdeg _ (List.getElem_mem hτ) t ht) p
  refine ⟨p, _, t, _, f1, List.getElem?_eq_getElem hτ, ht, hnat, ?_, ?_, ?_⟩
  · simp only [pipTri, Bool.and_eq_true, decide_eq_true_eq] at hp
    exact ⟨hp.1.1.1, hp.1.1.2, hp.1.2⟩
  · have e1 := hnat.sum
    have e2 := hnat.x
    simp only [natToGlobTri]
    rw [← e2]
    linear_combination (-t.p1.x) * e1
  · have e1 := hnat.sum
    have e2 := hnat.y
    simp only [natToGlobTri]
    rw [← e2]
    linear_combination (-t.p1.y) * e1

/-- **C69** Triangles of both kinds, `lazy=False`: every point that is seen in a triangle is reported. -/
theorem C69_both_complete {sched : List (Nat × Nat) → List (Nat × Nat)} (hs : ∀ w : List (Nat × Nat), w.Perm (sched w))
    {coords : List (P2 K)} {triangles : Topo} {trimap : Option Topo} {tol : K} (htol : 0 < tol) {x : List (P2 K)}
    {r : List (Nat × Nat × P2 K)} (hr : locateTri2d sched coords triangles trimap none tol x = some r)
    {i : Nat} {p : P2 K} (hp : x[i]? = some p) {row : List Nat} (hrow : row ∈ triangles) {t : Tri K} (ht : TriOfPoints coords row t)
    (hdeg : turn t.p1 t.p2 t.p3 ≠ 0) (hin : InTri t (seenIn t p)) : ∃ c loc, (i, c, loc) ∈ r := by
  simp only [locateTri2d, locateTri, Option.bind_eq_some_iff] at hr
  obtain ⟨tris, h1, nat, h2, h3⟩ := hr
  obtain ⟨c, hc⟩ := List.getElem?_of_mem hrow
  obtain ⟨t', g1, g2⟩ := mapM_get h1 hc
  rw [triOf_some.2 ht] at g1
  obtain rfl := Option.some.inj g1
  have hcl : c < triangles.length := (List.getElem?_eq_some_iff.1 hc).1
  have hz : (x.zip (x.map fun _ => List.range triangles.length))[i]? = some (p, List.range triangles.length) := by
    rw [List.getElem?_zip_eq_some]
    refine ⟨hp, ?_⟩
    rw [List.getElem?_map, hp]
    rfl
  obtain ⟨ns, e1, e2⟩ := mapM_get h2 hz
  obtain ⟨n, f1, f2⟩ := mapM_get e1 (i := c) (List.getElem?_range hcl)
  rw [g2] at f1
  obtain rfl := Option.some.inj f1
  have hpip : pipTri tol (globToNatTri p t) = true := by
    obtain ⟨m, hm, m1, m2, m3⟩ := hin
    have := C28_unique hdeg hm (C28_both_exact hdeg p)
    rw [← this]
    have := hm.sum
    simp only [pipTri, Bool.and_eq_true, decide_eq_true_eq]
    refine ⟨⟨⟨?_, ?_⟩, ?_⟩, ⟨?_, ?_⟩, ?_⟩ <;> linarith
  obtain ⟨j, y, -, k2, k3⟩ := (searchHits_mem hs h3).2 i (ns.map (pipTri tol)) (by rw [List.getElem?_map, e2]; rfl)
    (List.mem_map.2 ⟨_, List.mem_of_getElem? f2, hpip⟩)
  unfold locateTriOne at k2
  simp only [Option.bind_eq_some_iff, Option.map_eq_some_iff] at k2
  obtain ⟨_, _, _, _, _, _, _, _, _, _, loc, _, rfl⟩ := k2
  exact ⟨_, _, k3⟩

/-- **C29** `pip_tri_bulk` in triangles of both kinds and for every tolerance. -/
theorem C29_pip_both_exact {t : Tri K} (h : turn t.p1 t.p2 t.p3 ≠ 0) (tol : K) (p : P2 K) :
    pipTri tol (globToNatTri p t) = true ↔ ∃ n, IsNat t (seenIn t p) n ∧ (-tol < n.n1 ∧ -tol < n.n2 ∧ -tol < n.n3) ∧
      n.n1 < 1 + tol ∧ n.n2 < 1 + tol ∧ n.n3 < 1 + tol := by
  have hx := C28_both_exact h p
  constructor
  · intro hp
    simp only [pipTri, Bool.and_eq_true, decide_eq_true_eq] at hp
    exact ⟨_, hx, ⟨hp.1.1.1, hp.1.1.2, hp.1.2⟩, hp.2.1.1, hp.2.1.2, hp.2.2⟩
  · rintro ⟨n, hn, ⟨a1, a2, a3⟩, b1, b2, b3⟩
    rw [C28_unique h hn hx] at *
    simp only [pipTri, Bool.and_eq_true, decide_eq_true_eq]
    exact ⟨⟨⟨a1, a2⟩, a3⟩, ⟨b1, b2⟩, b3⟩

/-- **C73** Plane cells whose triangles are listed in either sense, for every tolerance: the answer is whether the point is seen in one
of the triangles. -/
theorem C73_plane_exact {coords : List (P2 K)} {topo trimap : Topo} (hp : PathOK topo trimap 3)
    (hnode : ∀ cell ∈ topo, ∀ k ∈ cell, k < coords.length)
    (hdeg : ∀ cell ∈ topo, ∀ m ∈ trimap, ∀ t, TriOfCell coords cell m t → turn t.p1 t.p2 t.p3 ≠ 0) (tol : K) (x : List (P2 K)) :
    ∃ r, pipCells2d coords topo trimap tol x = some r ∧ r.length = x.length ∧
      ∀ (i : Nat) (p : P2 K), x[i]? = some p → ∃ b, r[i]? = some b ∧
        (b = true ↔ ∃ cell ∈ topo, ∃ m ∈ trimap, ∃ t n, TriOfCell coords cell m t ∧ IsNat t (seenIn t p) n ∧
          (-tol < n.n1 ∧ -tol < n.n2 ∧ -tol < n.n3) ∧ n.n1 < 1 + tol ∧ n.n2 < 1 + tol ∧ n.n3 < 1 + tol) := by
  obtain ⟨h1, ts, h2, -, h4⟩ := simplices_exist (of := triOf coords) hp hnode fun row hl hk => triOf_exists hl hk
  have hts : ∀ t, t ∈ ts ↔ ∃ cell ∈ topo, ∃ m ∈ trimap, TriOfCell coords cell m t := by
    intro t
    rw [h4]
    constructor
    · rintro ⟨cell, hc, m, hm, h⟩
      exact ⟨cell, hc, m, hm, (triOfCell_iff (hp.inside cell hc m hm)).1 h⟩
    · rintro ⟨cell, hc, m, hm, h⟩
      exact ⟨cell, hc, m, hm, (triOfCell_iff (hp.inside cell hc m hm)).2 h⟩
  refine ⟨(pipTriBulk tol x ts).map fun r => r.any id, by simp only [pipCells2d, h1, h2, Option.bind_some, Option.map_some],
    by simp [pipTriBulk], fun i p hi => ⟨(ts.map fun t => pipTri tol (globToNatTri p t)).any id, ?_, ?_, ?_⟩⟩
  · simp [pipTriBulk, hi]
  · intro hb
    obtain ⟨b, hb1, hb2⟩ := List.any_eq_true.1 hb
    obtain ⟨t, ht, rfl⟩ := List.mem_map.1 hb1
    obtain ⟨cell, hc, m, hm, htc⟩ := (hts t).1 ht
    obtain ⟨n, hn⟩ := (C29_pip_both_exact (hdeg cell hc m hm t htc) tol p).1 hb2
    exact ⟨cell, hc, m, hm, t, n, htc, hn⟩
  · rintro ⟨cell, hc, m, hm, t, n, htc, hn⟩
    exact List.any_eq_true.2 ⟨_, List.mem_map.2 ⟨t, (hts t).2 ⟨cell, hc, m, hm, htc⟩, rfl⟩,
      (C29_pip_both_exact (hdeg cell hc m hm t htc) tol p).2 ⟨n, hn⟩⟩

end

/-- A clockwise triangle: a point outside of it is reported. -/
example : locateTri2d id ([⟨0, 0⟩, ⟨0, 1⟩, ⟨1, 0⟩] : List (P2 ℚ)) [[0, 1, 2]] none none (1 / 10 ^ 12) [⟨7 / 4, -1 / 4⟩] =
    some [(0, 0, ⟨1 / 4, 1 / 4⟩)] ∧
    seenIn (⟨⟨0, 0⟩, ⟨0, 1⟩, ⟨1, 0⟩⟩ : Tri ℚ) ⟨7 / 4, -1 / 4⟩ = ⟨1 / 4, 1 / 4⟩ := by decide +kernel

/-! ## C65: where the values go -/

section
variable {K : Type} [Field K] [LinearOrder K] [IsStrictOrderedRing K]

/-- `v` are the values interpolated linearly at `p` from the data of the corners of triangle number `i`. -/
def Interpolated (points : List (P2 K)) (tris : List (Nat × Nat × Nat)) (data : List (List K)) (nD i : Nat) (p : P2 K)
    (v : List K) : Prop :=
  ∃ r t n a b c, tris[i]? = some r ∧ triCoords points r = some t ∧ IsNat t p n ∧ data[r.1]? = some a ∧
    data[r.2.1]? = some b ∧ data[r.2.2]? = some c ∧
    v = (List.range nD).map fun j => a.getD j 0 * n.n1 + b.getD j 0 * n.n2 + c.getD j 0 * n.n3

omit [Field K] [LinearOrder K] [IsStrictOrderedRing K] in
theorem triCoords_nodes {points : List (P2 K)} {r : Nat × Nat × Nat} {t : Tri K} (h : triCoords points r = some t) :
    r.1 < points.length ∧ r.2.1 < points.length ∧ r.2.2 < points.length := by
  rw [triCoords] at h
  refine ⟨?_, ?_, ?_⟩
  · by_contra hc
    rw [List.getElem?_eq_none (Nat.le_of_not_lt hc)] at h
    simp at h
  · by_contra hc
    rw [List.getElem?_eq_none (Nat.le_of_not_lt hc)] at h
    cases h1 : points[r.1]? <;> simp [h1] at h
  · by_contra hc
    rw [List.getElem?_eq_none (Nat.le_of_not_lt hc)] at h
    cases h1 : points[r.1]? <;> cases h2 : points[r.2.1]? <;> simp [h1, h2] at h

theorem approx_one {points : List (P2 K)} {tris : List (Nat × Nat × Nat)} {ts : List (Tri K)}
    (ht : tris.mapM (triCoords points) = some ts) (hc : ∀ t ∈ ts, Ccw t) {data : List (List K)}
    (hd : data.length = points.length) (nD : Nat) {p : P2 K} {i : Nat} {n : N3 K}
    (hl : localizeFrom p ts 0 = some (i, n)) : ∃ v, Interpolated points tris data nD i p v ∧
      ((tris[i]?).bind fun r => interpRow data nD r n) = some v := by
  obtain ⟨-, t, h1, h2, -⟩ := (C29_localize_partial hc p 0).2 i n hl
  rw [Nat.sub_zero] at h1
  obtain ⟨hi, -⟩ := List.getElem?_eq_some_iff.1 h1
  have hi' : i < tris.length := by rw [← mapM_length ht]; exact hi
  obtain ⟨b, hb1, hb2⟩ := mapM_get ht (List.getElem?_eq_getElem hi')
  rw [h1] at hb2
  cases Option.some.inj hb2
  obtain ⟨n1, n2, n3⟩ := triCoords_nodes hb1
  rw [← hd] at n1 n2 n3
  refine ⟨_, ⟨_, t, n, _, _, _, List.getElem?_eq_getElem hi', hb1, h2, List.getElem?_eq_getElem n1,
    List.getElem?_eq_getElem n2, List.getElem?_eq_getElem n3, rfl⟩, ?_⟩
  rw [List.getElem?_eq_getElem hi', Option.bind_some, interpRow, List.getElem?_eq_getElem n1, List.getElem?_eq_getElem n2,
    List.getElem?_eq_getElem n3]
  rfl

omit [IsStrictOrderedRing K] in
theorem interpolated_unique {points : List (P2 K)} {tris : List (Nat × Nat × Nat)} {ts : List (Tri K)}
    (ht : tris.mapM (triCoords points) = some ts) (hc : ∀ t ∈ ts, Ccw t) {data : List (List K)} {nD i : Nat} {p : P2 K}
    {v w : List K} (hv : Interpolated points tris data nD i p v) (hw : Interpolated points tris data nD i p w) : v = w := by
  obtain ⟨r, t, n, a, b, c, h1, h2, h3, h4, h5, h6, rfl⟩ := hv
  obtain ⟨r', t', n', a', b', c', k1, k2, k3, k4, k5, k6, rfl⟩ := hw
  rw [h1] at k1
  cases Option.some.inj k1
  rw [h2] at k2
  cases Option.some.inj k2
  rw [h4] at k4
  rw [h5] at k5
  rw [h6] at k6
  cases Option.some.inj k4
  cases Option.some.inj k5
  cases Option.some.inj k6
  obtain ⟨t', g1, g2⟩ := mapM_get ht h1
  rw [h2] at g1
  cases Option.some.inj g1
  rw [C28_unique (ne_of_gt (hc t (List.mem_of_getElem? g2))) h3 k3]

/-- The writes of `approx_data_to_points`: they fail exactly if a triangle is found with a number that is not that of a point. -/
theorem approxWrites_exact {points : List (P2 K)} {tris : List (Nat × Nat × Nat)} {ts : List (Tri K)}
    (ht : tris.mapM (triCoords points) = some ts) (hc : ∀ t ∈ ts, Ccw t) {data : List (List K)}
    (hd : data.length = points.length) (nD : Nat) (coords : List (P2 K)) :
    (approxWrites tris data nD (coords.map fun g => localizeFrom g ts 0) = none ↔
      ∃ p ∈ coords, ∃ i n, localizeFrom p ts 0 = some (i, n) ∧ coords.length ≤ i) ∧
    ∀ w, approxWrites tris data nD (coords.map fun g => localizeFrom g ts 0) = some w →
      ∀ x, x ∈ w ↔ ∃ p ∈ coords, ∃ n, localizeFrom p ts 0 = some (x.1, n) ∧ Interpolated points tris data nD x.1 p x.2 := by
  have one : ∀ (p : P2 K) (i : Nat) (n : N3 K), localizeFrom p ts 0 = some (i, n) → ∃ v, Interpolated points tris data nD i p v ∧
      ((tris[i]?).bind fun r => (interpRow data nD r n).bind fun v =>
        if i < (coords.map fun g => localizeFrom g ts 0).length then some (i, v) else none) =
        if i < coords.length then some (i, v) else none := by
    intro p i n h
    obtain ⟨v, hv, e⟩ := approx_one ht hc hd nD h
    refine ⟨v, hv, ?_⟩
    obtain ⟨r, hr, hr'⟩ := Option.bind_eq_some_iff.1 e
    rw [hr, Option.bind_some, hr', Option.bind_some, List.length_map]
  constructor
  · constructor
    · intro hn
      by_contra hcon
      push Not at hcon
      obtain ⟨w, hw, -⟩ := mapM_exists (P := fun _ _ _ => True) (l := (coords.map fun g => localizeFrom g ts 0).filterMap id)
        (f := fun (x : Nat × N3 K) => (tris[x.1]?).bind fun r => (interpRow data nD r x.2).bind fun v =>
          if x.1 < (coords.map fun g => localizeFrom g ts 0).length then some (x.1, v) else none) fun i y hy => by
        obtain ⟨o, ho, hoy⟩ := List.mem_filterMap.1 (List.mem_of_getElem? hy)
        obtain ⟨p, hp, hpo⟩ := List.mem_map.1 ho
        simp only [id] at hoy
        subst hoy
        obtain ⟨v, -, e⟩ := one p y.1 y.2 hpo
        rw [if_pos (hcon p hp y.1 y.2 hpo)] at e
        exact ⟨_, e, trivial⟩
      rw [approxWrites, hw] at hn
      cases hn
    · rintro ⟨p, hp, i, n, h, hi⟩
      by_contra hcon
      obtain ⟨w, hw⟩ := Option.ne_none_iff_exists'.1 hcon
      have hm : (i, n) ∈ (coords.map fun g => localizeFrom g ts 0).filterMap id :=
        List.mem_filterMap.2 ⟨some (i, n), List.mem_map.2 ⟨p, hp, h⟩, rfl⟩
      obtain ⟨j, hj⟩ := List.getElem?_of_mem hm
      obtain ⟨z, hz, -⟩ := mapM_get hw hj
      obtain ⟨v, -, e⟩ := one p i n h
      rw [if_neg (by omega)] at e
      simp only at hz
      rw [e] at hz
      cases hz
  · intro w hw x
    constructor
    · intro hx
      obtain ⟨j, hj⟩ := List.getElem?_of_mem hx
      have hj2 : j < ((coords.map fun g => localizeFrom g ts 0).filterMap id).length := by
        rw [← mapM_length hw]; exact (List.getElem?_eq_some_iff.1 hj).1
      obtain ⟨z, hz1, hz2⟩ := mapM_get hw (List.getElem?_eq_getElem hj2)
      rw [hj] at hz2
      cases Option.some.inj hz2
      have hmy := List.getElem_mem hj2
      generalize ((coords.map fun g => localizeFrom g ts 0).filterMap id)[j] = y at hz1 hmy
      obtain ⟨o, ho, hoy⟩ := List.mem_filterMap.1 hmy
      obtain ⟨p, hp, hpo⟩ := List.mem_map.1 ho
      simp only [id] at hoy
      rw [hoy] at hpo
      obtain ⟨v, hv, e⟩ := one p y.1 y.2 hpo
      rw [e] at hz1
      split at hz1
      · cases hz1
        exact ⟨p, hp, _, hpo, hv⟩
      · cases hz1
    · rintro ⟨p, hp, n, h, hv⟩
      have hm : (x.1, n) ∈ (coords.map fun g => localizeFrom g ts 0).filterMap id :=
        List.mem_filterMap.2 ⟨some (x.1, n), List.mem_map.2 ⟨p, hp, h⟩, rfl⟩
      obtain ⟨j, hj⟩ := List.getElem?_of_mem hm
      obtain ⟨z, hz1, hz2⟩ := mapM_get hw hj
      obtain ⟨v, hv', e⟩ := one p _ _ h
      simp only at hz1
      rw [e] at hz1
      split at hz1
      · cases hz1
        have : x = (x.1, v) := Prod.ext rfl (interpolated_unique ht hc hv hv')
        rw [this]
        exact List.mem_of_getElem? hz2
      · cases hz1

/-- **C65** What `approx_data_to_points` does, for all nodal data and every order of the writes. It fails exactly if a point is found in
a triangle with a number that no point has; otherwise row `i` has the values interpolated at a point found in triangle number `i`
(at one of them, if there are several), and the default value if there is no such point. -/
theorem C65_exact {points : List (P2 K)} {tris : List (Nat × Nat × Nat)} {ts : List (Tri K)}
    (ht : tris.mapM (triCoords points) = some ts) (hc : ∀ t ∈ ts, Ccw t) {data : List (List K)}
    (hd : data.length = points.length) (nD : Nat) (coords : List (P2 K)) (defval : K)
    {sched : List (Nat × List K) → List (Nat × List K)} (hs : ∀ w : List (Nat × List K), w.Perm (sched w)) :
    (approxData points tris data nD coords defval sched = none ↔
      ∃ p ∈ coords, ∃ i n, localizeFrom p ts 0 = some (i, n) ∧ coords.length ≤ i) ∧
    ∀ res, approxData points tris data nD coords defval sched = some res → res.length = coords.length ∧
      ∀ i, i < coords.length →
        ((∀ p ∈ coords, ∀ n, localizeFrom p ts 0 ≠ some (i, n)) → res[i]? = some (List.replicate nD defval)) ∧
        ((∃ p ∈ coords, ∃ n, localizeFrom p ts 0 = some (i, n)) → ∃ p ∈ coords, ∃ n v, localizeFrom p ts 0 = some (i, n) ∧
          Interpolated points tris data nD i p v ∧ res[i]? = some v) := by
  have hloc : localizePoints points tris coords = some (coords.map fun g => localizeFrom g ts 0) := by
    rw [localizePoints, ht, Option.map_some]
  obtain ⟨h1, h2⟩ := approxWrites_exact ht hc hd nD coords
  rw [approxData, hloc, Option.bind_some]
  refine ⟨by rw [Option.map_eq_none_iff, h1], fun res hres => ?_⟩
  obtain ⟨w, hw, rfl⟩ := Option.map_eq_some_iff.1 hres
  refine ⟨by simp, fun i hi => ?_⟩
  have hget : ((List.range coords.length).map (runW (sched w) fun _ => List.replicate nD defval))[i]? =
      some (runW (sched w) (fun _ => List.replicate nD defval) i) := by
    rw [List.getElem?_map, List.getElem?_range hi, Option.map_some]
  rw [hget]
  have hmem : ∀ x, x ∈ sched w ↔ ∃ p ∈ coords, ∃ n, localizeFrom p ts 0 = some (x.1, n) ∧
      Interpolated points tris data nD x.1 p x.2 := fun x => by rw [← h2 w hw x]; exact (hs w).mem_iff.symm
  constructor
  · intro hno
    rw [runW_of_not_mem]
    intro x hx hxi
    obtain ⟨p, hp, n, hl, -⟩ := (hmem x).1 hx
    exact hno p hp n (hxi ▸ hl)
  · rintro ⟨p, hp, n, hl⟩
    obtain ⟨v, hv, -⟩ := approx_one ht hc hd nD hl
    obtain ⟨x, hx, hxi, hrun⟩ := runW_some (sched w) (fun _ => List.replicate nD defval) i
      ⟨(i, v), (hmem (i, v)).2 ⟨p, hp, n, hl, hv⟩, rfl⟩
    obtain ⟨q, hq, m, hql, hqv⟩ := (hmem x).1 hx
    subst hxi
    exact ⟨q, hq, m, x.2, hql, hqv, by rw [hrun]⟩

/-- **C65** If several points are found in one triangle, the values of each of them are the result for some order of the writes. -/
theorem C65_any_value {points : List (P2 K)} {tris : List (Nat × Nat × Nat)} {ts : List (Tri K)}
    (ht : tris.mapM (triCoords points) = some ts) (hc : ∀ t ∈ ts, Ccw t) {data : List (List K)}
    (hd : data.length = points.length) (nD : Nat) (coords : List (P2 K)) (defval : K)
    (hok : ∀ p ∈ coords, ∀ i n, localizeFrom p ts 0 = some (i, n) → i < coords.length)
    {p : P2 K} (hp : p ∈ coords) {i : Nat} {n : N3 K} (hl : localizeFrom p ts 0 = some (i, n)) {v : List K}
    (hv : Interpolated points tris data nD i p v) :
    ∃ sched : List (Nat × List K) → List (Nat × List K), (∀ w : List (Nat × List K), w.Perm (sched w)) ∧
      ∃ res, approxData points tris data nD coords defval sched = some res ∧ res[i]? = some v := by
  have hloc : localizePoints points tris coords = some (coords.map fun g => localizeFrom g ts 0) := by
    rw [localizePoints, ht, Option.map_some]
  obtain ⟨h1, h2⟩ := approxWrites_exact ht hc hd nD coords
  have hne : approxWrites tris data nD (coords.map fun g => localizeFrom g ts 0) ≠ none := by
    rw [Ne, h1]
    rintro ⟨q, hq, j, m, hj, hle⟩
    have := hok q hq j m hj
    omega
  obtain ⟨w, hw⟩ := Option.ne_none_iff_exists'.1 hne
  have hin : (i, v) ∈ w := (h2 w hw (i, v)).2 ⟨p, hp, n, hl, hv⟩
  refine ⟨fun u => if (i, v) ∈ u then u.erase (i, v) ++ [(i, v)] else u, fun u => ?_, _, by
    rw [approxData, hloc, Option.bind_some, hw, Option.map_some], ?_⟩
  · dsimp only
    split
    · next h => exact (List.perm_cons_erase h).trans (List.perm_append_singleton _ _).symm
    · exact List.Perm.refl _
  · rw [List.getElem?_map, List.getElem?_range (hok p hp i n hl), Option.map_some, if_pos hin, runW_append]
    simp [runW]

end

/-- Two points in the first of two triangles, none in the second: the first row has values of one of them. -/
example : localizeFrom (⟨1, 1⟩ : P2 ℚ) [⟨⟨0, 0⟩, ⟨4, 0⟩, ⟨0, 4⟩⟩, ⟨⟨20, 0⟩, ⟨24, 0⟩, ⟨20, 4⟩⟩] 0 = some (0, ⟨1 / 2, 1 / 4, 1 / 4⟩) ∧
    localizeFrom (⟨2, 1⟩ : P2 ℚ) [⟨⟨0, 0⟩, ⟨4, 0⟩, ⟨0, 4⟩⟩, ⟨⟨20, 0⟩, ⟨24, 0⟩, ⟨20, 4⟩⟩] 0 = some (0, ⟨1 / 4, 1 / 2, 1 / 4⟩) := by
  decide +kernel

/-! ## C67: lines -/

/-- **C67** The value for any line, straight or not: half of the distance between the first and the last node, at all points. -/
theorem C67_line_exact {coords : List (V3 ℝ)} {topo : Topo} {Fs : List Frame} {pts : List (List (V3 ℝ))}
    (hp : topo.mapM (fun row => row.mapM fun n => coords[n]?) = some pts) (hF : Fs.length = topo.length)
    (hFr : ∀ F ∈ Fs, IsFrame F) (hne : ∀ P ∈ pts, P ≠ []) (nP : Nat) :
    ∃ J, lineJacobian nP coords topo Fs = some J ∧ J.length = topo.length ∧
      ∀ (e : Nat) (P : List (V3 ℝ)) (p q : V3 ℝ), pts[e]? = some P → P.head? = some p → P.getLast? = some q →
        J[e]? = some (List.replicate nP [[vnorm (q - p) / 2]]) := by
  obtain ⟨ec, e1, e2, e3⟩ := localCoordinates_spec hp hF
  have hl := mapM_length hp
  obtain ⟨ls, l1, l2, l3⟩ := mapM_ex (l := ec) (f := fun (e : List (V3 ℝ)) => e.getLast?.bind fun q => e.head?.map fun p => vnorm (q - p))
    (P := fun e _ l => ∀ P p q, pts[e]? = some P → P.head? = some p → P.getLast? = some q → l = vnorm (q - p)) (by
    intro e X hX
    have he : e < ec.length := (List.getElem?_eq_some_iff.1 hX).1
    have he1 : e < pts.length := by omega
    have he2 : e < Fs.length := by omega
    have hX' := e3 e pts[e] Fs[e] (List.getElem?_eq_getElem he1) (List.getElem?_eq_getElem he2)
    rw [hX] at hX'
    cases hX'
    have hn := hne pts[e] (List.getElem_mem he1)
    refine ⟨_, by rw [List.getLast?_map, List.head?_map, List.getLast?_eq_some_getLast hn, List.head?_eq_some_head hn]; rfl,
      fun P p q h2 h3 h4 => ?_⟩
    rw [List.getElem?_eq_getElem he1] at h2
    cases h2
    rw [List.head?_eq_some_head hn] at h3
    rw [List.getLast?_eq_some_getLast hn] at h4
    cases h3
    cases h4
    beta_reduce
    rw [trPoint_sub, vnorm_frame (hFr _ (List.getElem_mem he2))]
    congr 1
    ext <;> simp)
  refine ⟨_, by simp only [lineJacobian, e1, Option.bind_some, jacobianMatrixBulk1d, lengthsOfLines2, l1]; rfl, by simp [l2, e2],
    fun e P p q he h3 h4 => ?_⟩
  have hel : e < ls.length := by rw [l2, e2, ← hl]; exact (List.getElem?_eq_some_iff.1 he).1
  have hec : e < ec.length := by omega
  obtain ⟨l, k1, k2⟩ := l3 e ec[e] (List.getElem?_eq_getElem hec)
  rw [List.getElem?_map, k1, Option.map_some, k2 P p q he h3 h4]

/-- **C67** Lines with three nodes, straight or not: the tangent at the point `r` is half of the chord plus `r` times what the middle
node is off. At the middle of the line the value is therefore the length of the tangent. -/
theorem C67_L3_tangent (p m q : V3 ℝ) (r : ℝ) :
    IsTangent shpL3 [p, m, q] .r ⟨r, 0, 0⟩ ((1 / 2 : ℝ) • (q - p) + r • (p + q - (2 : ℝ) • m)) := by
  have hd : Derivatives 1 shpL3 dshpL3 := derivatives_of_check (by decide +kernel)
  have key : ∀ f : V3 ℝ → ℝ, IsPartial (fun y => ((shpL3.zip [p, m, q]).map fun q => q.1.eval y * f q.2).sum) .r ⟨r, 0, 0⟩
      ((r - 1 / 2) * f p + -2 * r * f m + (r + 1 / 2) * f q) := by
    intro f
    have := isPartial_interp hd (c := [p, m, q].map f) (by simp [shpL3]) (k := 0) (by omega) rfl ⟨r, 0, 0⟩
    have hv : (((dshpVals dshpL3 (⟨r, 0, 0⟩ : V3 ℝ)).zip ([p, m, q].map f)).map fun q => q.1.getD 0 0 * q.2).sum =
        (r - 1 / 2) * f p + -2 * r * f m + (r + 1 / 2) * f q := by
      simp only [dshpVals, dshpL3, List.map_cons, List.map_nil, PE.eval, List.zip_cons_cons, List.zip_nil_right, List.sum_cons,
        List.sum_nil, List.getD_cons_zero]
      push_cast
      ring
    rw [hv] at this
    simpa only [List.zip_map_right, List.map_map, Function.comp_def, Prod.map, id] using this
  refine ⟨?_, ?_, ?_⟩
  · convert key V3.x using 1
    simp only [V3.add_x, V3.sub_x, V3.smul_x]; ring
  · convert key V3.y using 1
    simp only [V3.add_y, V3.sub_y, V3.smul_y]; ring
  · convert key V3.z using 1
    simp only [V3.add_z, V3.sub_z, V3.smul_z]; ring

/-! ## C68: the number of neighbours -/

section
variable {K : Type} [Field K] [LinearOrder K]

/-- **C68** Every point is on at least `k - 1` lines: the point itself is one of its `k` nearest points (or one of `k` points in
the same place). -/
theorem C68_count_partial {X : List (V3 K)} {k : Nat} (h2 : 2 ≤ k) (hn : k ≤ X.length) {query : Nat → List (List Nat)}
    (hq : IsQuery X k (query k)) (maxd : Option K) :
    ∃ T, knngridL2 X k maxd query = some (X, T) ∧
      ∀ i < X.length, k - 1 ≤ (T.filter fun r => decide (i ∈ r)).length := by
  obtain ⟨T, h1, hnd, -, hmem⟩ := C68_lines h2 hn hq maxd
  refine ⟨T, h1, fun i hi => ?_⟩
  obtain ⟨row, hr, -⟩ := hq.2 i _ (List.getElem?_eq_getElem hi)
  obtain ⟨p, hp, hk⟩ := hq.near hn hr
  have hlen : k - 1 ≤ (row.erase i).length := by
    rw [List.length_erase]
    rw [hk.1]; split <;> omega
  have hsub : ((row.erase i).map fun j => if i ≤ j then [i, j] else [j, i]).Subperm (T.filter fun r => decide (i ∈ r)) := by
    refine List.subperm_of_subset (List.Nodup.map_on ?_ (hk.2.1.erase i)) ?_
    · intro a ha b hb hab
      have ha' := ((List.Nodup.mem_erase_iff hk.2.1).1 ha).1
      have hb' := ((List.Nodup.mem_erase_iff hk.2.1).1 hb).1
      split at hab <;> split at hab <;> simp at hab <;> omega
    · intro r hrm
      obtain ⟨j, hj, rfl⟩ := List.mem_map.1 hrm
      obtain ⟨hji, hj⟩ := (List.Nodup.mem_erase_iff hk.2.1).1 hj
      rw [List.mem_filter]
      split
      · refine ⟨(hmem i j (by omega)).2 (.inl ⟨row, hr, hj⟩), by simp⟩
      · refine ⟨(hmem j i (by omega)).2 (.inr ⟨row, hr, hj⟩), by simp⟩
  have := hsub.length_le
  rw [List.length_map] at this
  omega

end

end PM
