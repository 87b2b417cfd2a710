import Verif.Section
import Verif.PropsAverages
import Verif.PropsExtrude
import Verif.PropsVolumes
import Verif.PropsTransform
import Verif.PropsTopo

/-!
# C86: meshes of cross sections
-/

namespace PM
open V3

section
variable {K : Type} [Field K] [LinearOrder K] [IsStrictOrderedRing K]

/-! ## specification -/

/-- Twice the signed area of a triangle of the plane. -/
def secArea2 (a b c : V3 K) : K := (b.x - a.x) * (c.y - a.y) - (c.x - a.x) * (b.y - a.y)

/-- Twice the signed area of the corners (first three nodes) of a row. -/
def rowArea2 (C : List (List K)) (r : List Nat) : K :=
  secArea2 (pt3 C (r.getD 0 0)) (pt3 C (r.getD 1 0)) (pt3 C (r.getD 2 0))

/-- What `sectionproperties` returns: plane vertices, rows of six nodes, node `i + 3` halves the side opposite to corner `i`. -/
structure SectionOK (s : SectionMesh K) : Prop where
  ne : s.vertices ≠ []
  rect : Rect 2 s.vertices
  six : ∀ r ∈ s.triangles, r.length = 6
  nodes : ∀ n, UsesNode s.triangles n → n < s.vertices.length
  h3 : ∀ r ∈ s.triangles, pt3 s.vertices (r.getD 3 0) = mid (pt3 s.vertices (r.getD 1 0)) (pt3 s.vertices (r.getD 2 0))
  h4 : ∀ r ∈ s.triangles, pt3 s.vertices (r.getD 4 0) = mid (pt3 s.vertices (r.getD 2 0)) (pt3 s.vertices (r.getD 0 0))
  h5 : ∀ r ∈ s.triangles, pt3 s.vertices (r.getD 5 0) = mid (pt3 s.vertices (r.getD 0 0)) (pt3 s.vertices (r.getD 1 0))

/-! ## the master triangle -/

/-- Doubled coordinates of the six nodes in the order of the section mesh. -/
def lcSection : List (V3 Int) := lcT3 ++ [⟨1, 1, 0⟩, ⟨0, 1, 0⟩, ⟨1, 0, 0⟩]

theorem tiles_section (K : Type) [Field K] [LinearOrder K] [IsStrictOrderedRing K] :
    Tiles K lcSection [0, 1, 2] pathSection 3 := by
  refine tiles_of_master (by decide +kernel) fun ξ hξ => ?_
  have b0 := hull_bound (⟨1, 0, 0⟩, 0) (by decide) hξ
  have b1 := hull_bound (⟨0, 1, 0⟩, 0) (by decide) hξ
  have b2 := hull_bound (⟨-1, -1, 0⟩, 2) (by decide) hξ
  have b3 := hull_bound (⟨0, 0, 1⟩, 0) (by decide) hξ
  have b4 := hull_bound (⟨0, 0, -1⟩, 0) (by decide) hξ
  norm_num at b0 b1 b2 b3 b4
  rcases le_total 0 (2 * ξ.x - 1 : K) with h | h
  · exact ⟨[5, 1, 3], by decide, hull_nil3 _ _ _ ((-2) * ξ.x + (-2) * ξ.y + (2)) ((2) * ξ.x + (-1)) ((2) * ξ.y)
      (by linarith) (by linarith) (by linarith) (by ring) ξ
      (by simp [half, lcSection, lcT3] <;> linarith) (by simp [half, lcSection, lcT3] <;> linarith) (by simp [half, lcSection, lcT3] <;> linarith)⟩
  · rcases le_total 0 (2 * ξ.y - 1 : K) with h | h
    · exact ⟨[3, 2, 4], by decide, hull_nil3 _ _ _ ((2) * ξ.x) ((2) * ξ.y + (-1)) ((-2) * ξ.x + (-2) * ξ.y + (2))
        (by linarith) (by linarith) (by linarith) (by ring) ξ
        (by simp [half, lcSection, lcT3] <;> linarith) (by simp [half, lcSection, lcT3] <;> linarith) (by simp [half, lcSection, lcT3] <;> linarith)⟩
    · rcases le_total 0 (1 - 2 * ξ.x - 2 * ξ.y : K) with h | h
      · exact ⟨[0, 5, 4], by decide, hull_nil3 _ _ _ ((-2) * ξ.x + (-2) * ξ.y + (1)) ((2) * ξ.x) ((2) * ξ.y)
          (by linarith) (by linarith) (by linarith) (by ring) ξ
          (by simp [half, lcSection, lcT3] <;> linarith) (by simp [half, lcSection, lcT3] <;> linarith) (by simp [half, lcSection, lcT3] <;> linarith)⟩
      · exact ⟨[5, 3, 4], by decide, hull_nil3 _ _ _ ((-2) * ξ.y + (1)) ((2) * ξ.x + (2) * ξ.y + (-1)) ((-2) * ξ.x + (1))
          (by linarith) (by linarith) (by linarith) (by ring) ξ
          (by simp [half, lcSection, lcT3] <;> linarith) (by simp [half, lcSection, lcT3] <;> linarith) (by simp [half, lcSection, lcT3] <;> linarith)⟩

/-! ## moved points -/

omit [LinearOrder K] [IsStrictOrderedRing K] in
theorem pt3_moved {coords : List (List K)} (hr : Rect 2 coords) {t : List K} (ht : t.length = 2) {n : Nat} (hn : n < coords.length) :
    pt3 (coords.map fun r => List.zipWith (· - ·) r t) n = pt3 coords n - ⟨t.getD 0 0, t.getD 1 0, 0⟩ := by
  have e : (coords.map fun r => List.zipWith (· - ·) r t).getD n [] = List.zipWith (· - ·) (coords.getD n []) t := by
    rw [List.getD_eq_getElem?_getD, List.getElem?_map, List.getElem?_eq_getElem hn, List.getD_eq_getElem?_getD,
      List.getElem?_eq_getElem hn]
    rfl
  have h2 : (coords.getD n []).length = 2 := by
    rw [List.getD_eq_getElem?_getD, List.getElem?_eq_getElem hn]
    exact hr _ (List.getElem_mem hn)
  match hc : coords.getD n [], t, h2, ht with
  | [x, y], [a, b], _, _ =>
    rw [hc] at e
    simp only [pt3, e, hc]
    ext <;> simp

omit [LinearOrder K] [IsStrictOrderedRing K] in
theorem secArea2_sub (a b c d : V3 K) : secArea2 (a - d) (b - d) (c - d) = secArea2 a b c := by
  simp [secArea2]

theorem mid_sub (a b d : V3 K) : mid (a - d) (b - d) = mid a b - d := by
  ext <;> simp [mid] <;> ring

/-- The affine map of a triangle of the plane. -/
def secAff (a b c : V3 K) : Aff K := ⟨a, b - a, c - a, ⟨0, 0, 1⟩⟩

omit [LinearOrder K] [IsStrictOrderedRing K] in
theorem secAff_det (a b c : V3 K) : (secAff a b c).det = secArea2 a b c := by
  simp [secAff, Aff.det, det3, secArea2]
  ring

/-! ## the subdivided mesh -/

omit [LinearOrder K] [IsStrictOrderedRing K] in
theorem SectionOK.pathOK {s : SectionMesh K} (h : SectionOK s) : PathOK s.triangles pathSection 3 := by
  refine ⟨by decide, fun r hr p hp q hq => ?_⟩
  rw [h.six r hr]
  revert q p
  decide

/-- **C86** `trimesh(subdivide=True)`: all points of the section, centred; every triangle is covered by its four parts, which do not
overlap, keep the orientation and have its area. -/
theorem C86_subdivided {s : SectionMesh K} (h : SectionOK s) :
    ∃ P T, sectionTrimesh s true 1 = some (P, T) ∧ IsCentred s.vertices 2 P ∧ T.length = 4 * s.triangles.length ∧
      (∀ r ∈ T, r.length = 3 ∧ ∀ n ∈ r, n < P.length) ∧
      (T.map (rowArea2 P)).sum = (s.triangles.map (rowArea2 s.vertices)).sum ∧
      ∀ (i : Nat) (r : List Nat), s.triangles[i]? = some r →
        (∀ (k : Nat) q, k < 4 → T[4 * i + k]? = some q → 4 * rowArea2 P q = rowArea2 s.vertices r) ∧
        (rowArea2 s.vertices r ≠ 0 →
          (∀ p, Hull ((r.take 3).map (pt3 P)) p → ∃ (k : Nat) (q : List Nat), k < 4 ∧ T[4 * i + k]? = some q ∧ Hull (q.map (pt3 P)) p) ∧
          (∀ (k l : Nat) (q q' : List Nat), k < 4 → l < 4 → k ≠ l → T[4 * i + k]? = some q → T[4 * i + l]? = some q' →
            ∀ p, ¬ (OpenHull (q.map (pt3 P)) p ∧ OpenHull (q'.map (pt3 P)) p))) := by
  obtain ⟨P, hP, hcen, -⟩ := C26_centralize_partial h.ne (Or.inl rfl) h.rect
  have hT := transformResult_eq h.pathOK 0 (w := transformWrites s.triangles pathSection 3) fun _ => mem_transformWrites
  obtain ⟨t, ht, hPt⟩ := hcen.translation
  have hlen : P.length = s.vertices.length := by rw [hPt, List.length_map]
  have hpt : ∀ r ∈ s.triangles, ∀ q, q < 6 → pt3 P (r.getD q 0) = pt3 s.vertices (r.getD q 0) - ⟨t.getD 0 0, t.getD 1 0, 0⟩ := by
    intro r hr q hq
    rw [hPt]
    refine pt3_moved h.rect ht (h.nodes _ ⟨r, hr, ?_⟩)
    rw [List.getD_eq_getElem?_getD, List.getElem?_eq_getElem (by rw [h.six r hr]; exact hq)]
    exact List.getElem_mem _
  have harea : ∀ r ∈ s.triangles, secArea2 (pt3 P (r.getD 0 0)) (pt3 P (r.getD 1 0)) (pt3 P (r.getD 2 0)) = rowArea2 s.vertices r := by
    intro r hr
    rw [hpt r hr 0 (by decide), hpt r hr 1 (by decide), hpt r hr 2 (by decide), secArea2_sub]
    rfl
  have haff : ∀ r ∈ s.triangles, ∀ q, q < 6 → pt3 P (r.getD q 0) =
      (secAff (pt3 P (r.getD 0 0)) (pt3 P (r.getD 1 0)) (pt3 P (r.getD 2 0))).app (half (lcSection.getD q 0)) := by
    intro r hr q hq
    have e3 : pt3 P (r.getD 3 0) = mid (pt3 P (r.getD 1 0)) (pt3 P (r.getD 2 0)) := by
      rw [hpt r hr 3 (by decide), hpt r hr 1 (by decide), hpt r hr 2 (by decide), mid_sub, h.h3 r hr]
    have e4 : pt3 P (r.getD 4 0) = mid (pt3 P (r.getD 2 0)) (pt3 P (r.getD 0 0)) := by
      rw [hpt r hr 4 (by decide), hpt r hr 0 (by decide), hpt r hr 2 (by decide), mid_sub, h.h4 r hr]
    have e5 : pt3 P (r.getD 5 0) = mid (pt3 P (r.getD 0 0)) (pt3 P (r.getD 1 0)) := by
      rw [hpt r hr 5 (by decide), hpt r hr 1 (by decide), hpt r hr 0 (by decide), mid_sub, h.h5 r hr]
    match q, hq with
    | 0, _ => ext <;> simp [secAff, Aff.app, half, lcSection, lcT3]
    | 1, _ => ext <;> simp [secAff, Aff.app, half, lcSection, lcT3]
    | 2, _ => ext <;> simp [secAff, Aff.app, half, lcSection, lcT3]
    | 3, _ => rw [e3]; ext <;> simp [secAff, Aff.app, half, lcSection, lcT3, mid] <;> ring
    | 4, _ => rw [e4]; ext <;> simp [secAff, Aff.app, half, lcSection, lcT3, mid] <;> ring
    | 5, _ => rw [e5]; ext <;> simp [secAff, Aff.app, half, lcSection, lcT3, mid] <;> ring
  have hrow : ∀ (i : Nat) (r : List Nat), s.triangles[i]? = some r → ∀ (k : Nat), k < 4 →
      (transformed s.triangles pathSection 0)[4 * i + k]? = some ((pathSection.getD k []).map fun q => r.getD q 0) := by
    intro i r hr k hk
    rw [Nat.mul_comm]
    have := transformed_row (topo := s.triangles) (path := pathSection) (zero := 0) (i := i) (k := k) hk
    rw [show pathSection.length = 4 from rfl] at this
    rw [this, hr, List.getD_eq_getElem?_getD, List.getElem?_eq_getElem (show k < pathSection.length from hk)]
    rfl
  have hrowA : ∀ r ∈ s.triangles, ∀ p ∈ pathSection, 4 * rowArea2 P (p.map fun q => r.getD q 0) = rowArea2 s.vertices r := by
    intro r hr p hp
    rw [← harea r hr]
    have e3 := haff r hr 3 (by decide)
    have e4 := haff r hr 4 (by decide)
    have e5 := haff r hr 5 (by decide)
    simp only [pathSection, List.mem_cons, List.not_mem_nil, or_false] at hp
    rcases hp with rfl | rfl | rfl | rfl <;>
    · simp only [rowArea2, List.map_cons, List.map_nil, List.getD_cons_zero, List.getD_cons_succ]
      simp only [e3, e4, e5]
      simp [secAff, Aff.app, half, lcSection, lcT3, secArea2]
      ring
  refine ⟨P, transformed s.triangles pathSection 0, ?_, hcen, ?_, ?_, ?_, ?_⟩
  · rw [sectionTrimesh, sectionCoords, hP, Option.bind_some, if_pos rfl, if_pos rfl, transformTopology, hT]
    rfl
  · rw [length_transformed]
    rfl
  · intro q hq
    rw [transformed, List.mem_flatMap] at hq
    obtain ⟨r, hr, hq⟩ := hq
    obtain ⟨p, hp, rfl⟩ := List.mem_map.1 hq
    refine ⟨by rw [List.length_map]; exact h.pathOK.rect p hp, fun n hn => ?_⟩
    obtain ⟨x, hx, rfl⟩ := List.mem_map.1 hn
    rw [hlen]
    refine h.nodes _ ⟨r, hr, ?_⟩
    have := h.pathOK.inside r hr p hp x hx
    rw [List.getD_eq_getElem?_getD, List.getElem?_eq_getElem this]
    exact List.getElem_mem _
  · rw [transformed, sum_flatMap']
    congr 1
    apply List.map_congr_left
    intro r hr
    have e := hrowA r hr
    simp only [pathSection, List.forall_mem_cons] at e
    obtain ⟨a1, a2, a3, a4, -⟩ := e
    simp only [pathSection, List.map_cons, List.map_nil, List.sum_cons, List.sum_nil]
    simp only [List.map_cons, List.map_nil] at a1 a2 a3 a4
    linarith
  · intro i r hr
    have hrm := List.mem_of_getElem? hr
    have hpts : ∀ p : List Nat, (∀ q ∈ p, q < 6) → (p.map fun q => r.getD q 0).map (pt3 P) =
        cellPts (secAff (pt3 P (r.getD 0 0)) (pt3 P (r.getD 1 0)) (pt3 P (r.getD 2 0))) lcSection p := by
      intro p hp
      rw [cellPts, List.map_map]
      apply List.map_congr_left
      intro q hq
      exact haff r hrm q (hp q hq)
    have hpl : ∀ k, k < 4 → ∀ q ∈ pathSection.getD k [], q < 6 := by decide
    have hp3 : ∀ k, k < 4 → (pathSection.getD k []).take 3 = pathSection.getD k [] := by decide
    have hpk : ∀ k, k < 4 → pathSection[k]? = some (pathSection.getD k []) := by decide
    refine ⟨fun k q hk hq => ?_, fun ha => ⟨?_, ?_⟩⟩
    · rw [hrow i r hr k hk, Option.some.injEq] at hq
      subst hq
      exact hrowA r hrm _ (List.mem_of_getElem? (hpk k hk))
    · intro p hp
      have ht3 : r.take 3 = [0, 1, 2].map fun q => r.getD q 0 := by
        have := h.six r hrm
        match r, this with
        | [a, b, c, d, e, f], _ => rfl
      rw [ht3, hpts _ (by decide)] at hp
      obtain ⟨u, hu, hull⟩ := (tiles_section K).cover _ (by rw [secAff_det, harea r hrm]; exact ha) p hp
      obtain ⟨k, hk'⟩ := List.mem_iff_getElem?.1 hu
      have hk : k < 4 := (List.getElem?_eq_some_iff.1 hk').1
      refine ⟨k, _, hk, hrow i r hr k hk, ?_⟩
      rw [hpts _ (hpl k hk)]
      rw [hpk k hk, Option.some.injEq] at hk'
      rw [← hk', hp3 k hk] at hull
      exact hull
    · intro k l q q' hk hl hkl hq hq' p hp
      rw [hrow i r hr k hk, Option.some.injEq] at hq
      rw [hrow i r hr l hl, Option.some.injEq] at hq'
      subst hq hq'
      rw [hpts _ (hpl k hk), hpts _ (hpl l hl)] at hp
      refine (tiles_section K).disj _ (by rw [secAff_det, harea r hrm]; exact ha) k l _ _ (hpk k hk) (hpk l hl) hkl p ?_
      rw [hp3 k hk, hp3 l hl]
      exact hp

/-! ## the mesh of the corners -/

omit [LinearOrder K] [IsStrictOrderedRing K] in
theorem getD_take3 (r : List Nat) {j : Nat} (hj : j < 3) : (r.take 3).getD j 0 = r.getD j 0 := by
  rw [List.getD_eq_getElem?_getD, List.getElem?_take_of_lt hj, List.getD_eq_getElem?_getD]

omit [LinearOrder K] [IsStrictOrderedRing K] in
theorem pt3_get {P C : List (List K)} {k n : Nat} (h : P[k]? = C[n]?) : pt3 P k = pt3 C n := by
  simp only [pt3, List.getD_eq_getElem?_getD, h]

/-- **C86** `trimesh()`: one triangle per triangle, with the corners of the section moved such that the mean of all vertices of the
section (corners and middles) is the origin; the middles are dropped; no other point is. -/
theorem C86_corners {s : SectionMesh K} (h : SectionOK s) :
    ∃ P T C, sectionTrimesh s false 1 = some (P, T) ∧ IsCentred s.vertices 2 C ∧ T.length = s.triangles.length ∧
      (∀ r ∈ T, r.length = 3) ∧ (∀ k, UsesNode T k ↔ k < P.length) ∧ (∀ p ∈ P, p.length = 2) ∧
      (∀ (i : Nat) (r q : List Nat), s.triangles[i]? = some r → T[i]? = some q →
        (∀ j, j < 3 → pt3 P (q.getD j 0) = pt3 C (r.getD j 0)) ∧ rowArea2 P q = rowArea2 s.vertices r) ∧
      (T.map (rowArea2 P)).sum = (s.triangles.map (rowArea2 s.vertices)).sum := by
  obtain ⟨C, hC, hcen, -⟩ := C26_centralize_partial h.ne (Or.inl rfl) h.rect
  obtain ⟨t, ht, hCt⟩ := hcen.translation
  have hlen : C.length = s.vertices.length := by rw [hCt, List.length_map]
  have huse : ∀ n, UsesNode (s.triangles.map (List.take 3)) n → n < C.length := by
    rintro n ⟨q, hq, hn⟩
    obtain ⟨r, hr, rfl⟩ := List.mem_map.1 hq
    rw [hlen]
    exact h.nodes n ⟨r, hr, List.mem_of_mem_take hn⟩
  obtain ⟨P, T, ids, hd, -, hids, hPl, hPg, hTl, hTu, hTn⟩ := C04_detach C _ huse
  have hlenT : T.length = s.triangles.length := by
    have := congrArg List.length hTl
    simpa using this
  have h3 : ∀ r ∈ T, r.length = 3 := by
    intro q hq
    have : q.length ∈ T.map List.length := List.mem_map_of_mem hq
    rw [hTl, List.map_map] at this
    obtain ⟨r, hr, e⟩ := List.mem_map.1 this
    rw [← e]
    simp [h.six r hr]
  have hget : ∀ (i : Nat) (r q : List Nat), s.triangles[i]? = some r → T[i]? = some q →
      ∀ j, j < 3 → pt3 P (q.getD j 0) = pt3 C (r.getD j 0) := by
    intro i r q hr hq j hj
    have hrl : j < r.length := by rw [h.six r (List.mem_of_getElem? hr)]; omega
    have hn : nodeAt (s.triangles.map (List.take 3)) i j = some (r.getD j 0) := by
      simp [nodeAt, hr, List.getElem?_take_of_lt hj, List.getElem?_eq_getElem hrl]
    obtain ⟨k, hk, e⟩ := hTn i j _ hn
    have : q.getD j 0 = k := by
      simp only [nodeAt, hq, Option.bind_eq_bind, Option.bind_some] at hk
      rw [List.getD_eq_getElem?_getD, hk, Option.getD_some]
    rw [this]
    exact pt3_get e
  have harea : ∀ (i : Nat) (r q : List Nat), s.triangles[i]? = some r → T[i]? = some q → rowArea2 P q = rowArea2 s.vertices r := by
    intro i r q hr hq
    have hrm := List.mem_of_getElem? hr
    have hpt : ∀ j, j < 3 → pt3 C (r.getD j 0) = pt3 s.vertices (r.getD j 0) - ⟨t.getD 0 0, t.getD 1 0, 0⟩ := by
      intro j hj
      rw [hCt]
      refine pt3_moved h.rect ht (h.nodes _ ⟨r, hrm, ?_⟩)
      rw [List.getD_eq_getElem?_getD, List.getElem?_eq_getElem (by rw [h.six r hrm]; omega)]
      exact List.getElem_mem _
    have e := hget i r q hr hq
    rw [rowArea2, e 0 (by decide), e 1 (by decide), e 2 (by decide), hpt 0 (by decide), hpt 1 (by decide), hpt 2 (by decide),
      secArea2_sub]
    rfl
  refine ⟨P, T, C, ?_, hcen, hlenT, h3, hTu, ?_, fun i r q hr hq => ⟨hget i r q hr hq, harea i r q hr hq⟩, ?_⟩
  · rw [sectionTrimesh, sectionCoords, hC, Option.bind_some, if_pos rfl]
    simpa [detach] using hd
  · intro p hp
    obtain ⟨k, hk, rfl⟩ := List.getElem_of_mem hp
    have hki : ids[k]? = some ids[k] := List.getElem?_eq_getElem (by omega)
    have := hPg k _ hki
    rw [List.getElem?_eq_getElem hk] at this
    exact hcen.rect _ (List.mem_of_getElem? this.symm)
  · congr 1
    apply List.ext_getElem (by simp [hlenT])
    intro i h1 h2
    simp only [List.length_map] at h1 h2
    rw [List.getElem_map, List.getElem_map]
    exact harea i _ _ (List.getElem?_eq_getElem h2) (List.getElem?_eq_getElem h1)

omit [LinearOrder K] [IsStrictOrderedRing K] in
/-- **C86** only linear triangles can be made. -/
theorem C86_order (s : SectionMesh K) (subdivide : Bool) {order : Nat} (h : order ≠ 1) : sectionTrimesh s subdivide order = none := by
  unfold sectionTrimesh
  cases sectionCoords s with
  | none => rfl
  | some _ => simp [h]

/-! ## beams -/

/-- Six times the volume of a tetrahedron given by its nodes. -/
def beamVol6 (C : List (V3 K)) (r : List Nat) : K :=
  vol6 (C.getD (r.getD 0 0) 0) (C.getD (r.getD 1 0) 0) (C.getD (r.getD 2 0) 0) (C.getD (r.getD 3 0) 0)

/-- **C86** the beam: three tetrahedra per triangle and layer, with existing nodes, of positive volume if the triangles are
counter-clockwise; all volumes add up to the area of the section times the length (six times a volume is three times the length times
twice an area); the points are those of the mesh of the section at the heights `length * i / N`. -/
theorem C86_extrude {s : SectionMesh K} (h : SectionOK s) (length : K) {N : Nat} (hN : 0 < N) :
    ∃ C T P S, sectionExtrude s length N = some (C, T) ∧ sectionTrimesh s false 1 = some (P, S) ∧
      T.length = 3 * (s.triangles.length * N) ∧ (∀ r ∈ T, r.length = 4 ∧ ∀ n ∈ r, n < C.length) ∧
      C.length = P.length * (N + 1) ∧
      (∀ i p, i ≤ N → p < P.length → C.getD (p + i * P.length) 0 = ⟨(pt3 P p).x, (pt3 P p).y, length * (i : Nat) / (N : Nat)⟩) ∧
      ((∀ r ∈ s.triangles, 0 < rowArea2 s.vertices r) → 0 < length → ∀ r ∈ T, 0 < beamVol6 C r) ∧
      (T.map (beamVol6 C)).sum = 3 * (s.triangles.map (rowArea2 s.vertices)).sum * length := by
  obtain ⟨P, S, Cc, hPS, -, hSl, hS3, hSu, hP2, hg, hsum⟩ := C86_corners h
  let pts : List (K × K) := P.map fun r => (r.getD 0 0, r.getD 1 0)
  let tris : List (Nat × Nat × Nat) := S.map fun r => (r.getD 0 0, r.getD 1 0, r.getD 2 0)
  obtain ⟨⟨L, T⟩, hLT⟩ : ∃ r, extrudeT3TET4 pts tris length N = r := ⟨_, rfl⟩
  have hnode : ∀ r ∈ S, ∀ j, j < 3 → r.getD j 0 < P.length := by
    intro r hr j hj
    refine (hSu _).1 ⟨r, hr, ?_⟩
    rw [List.getD_eq_getElem?_getD, List.getElem?_eq_getElem (by rw [hS3 r hr]; exact hj)]
    exact List.getElem_mem _
  have hok : TrisOK pts.length tris := by
    intro t ht
    obtain ⟨r, hr, rfl⟩ := List.mem_map.1 ht
    simp only [pts, List.length_map]
    exact ⟨hnode r hr 0 (by decide), hnode r hr 1 (by decide), hnode r hr 2 (by decide)⟩
  obtain ⟨hL, hTl, hT4, -, hTn, hpos, hvol⟩ := C15_extrude_TET4 pts tris length N hok L T hLT
  have hpt : ∀ n, n < L.length → (L.map fun x => (⟨x.getD 0 0, x.getD 1 0, x.getD 2 0⟩ : V3 K)).getD n 0 = pt3 L n := by
    intro n hn
    rw [List.getD_eq_getElem?_getD, List.getElem?_map, List.getElem?_eq_getElem hn, Option.map_some, Option.getD_some]
    simp [pt3, List.getElem?_eq_getElem hn]
  have hv : ∀ r ∈ T, beamVol6 (L.map fun x => (⟨x.getD 0 0, x.getD 1 0, x.getD 2 0⟩ : V3 K)) r = tetVol6 L r := by
    intro r hr
    have hn : ∀ j, j < 4 → r.getD j 0 < L.length := by
      intro j hj
      refine hTn r hr _ ?_
      rw [List.getD_eq_getElem?_getD, List.getElem?_eq_getElem (by rw [hT4 r hr]; exact hj)]
      exact List.getElem_mem _
    rw [beamVol6, tetVol6, hpt _ (hn 0 (by decide)), hpt _ (hn 1 (by decide)), hpt _ (hn 2 (by decide)), hpt _ (hn 3 (by decide))]
  have harea : ∀ r ∈ S, area2D pts (r.getD 0 0, r.getD 1 0, r.getD 2 0) = rowArea2 P r := by
    intro r hr
    have hp : ∀ n, n < P.length → pts.getD n (0, 0) = ((pt3 P n).x, (pt3 P n).y) := by
      intro n hn
      simp [pts, pt3, List.getElem?_eq_getElem hn]
    simp only [area2D, hp _ (hnode r hr 0 (by decide)), hp _ (hnode r hr 1 (by decide)), hp _ (hnode r hr 2 (by decide))]
    rfl
  have hareas : (tris.map (area2D pts)).sum = (s.triangles.map (rowArea2 s.vertices)).sum := by
    rw [← hsum, List.map_map]
    congr 1
    apply List.map_congr_left
    intro r hr
    exact harea r hr
  refine ⟨L.map fun x => ⟨x.getD 0 0, x.getD 1 0, x.getD 2 0⟩, T, P, S, ?_, hPS, ?_, ?_, ?_, ?_, ?_, ?_⟩
  · have e : (P.map fun r => (⟨r.getD 0 0, r.getD 1 0, 0⟩ : V3 K)).map (fun p => (p.x, p.y)) = pts := by
      rw [List.map_map]
      rfl
    rw [sectionExtrude, hPS, Option.bind_some, trimeshExtrude]
    simp only [e]
    rw [show extrudeT3TET4 pts (S.map fun r => (r.getD 0 0, r.getD 1 0, r.getD 2 0)) length N = (L, T) from hLT]
  · rw [hTl, show tris.length = S.length from List.length_map .., hSl]
    ring
  · intro r hr
    refine ⟨hT4 r hr, fun n hn => ?_⟩
    rw [List.length_map]
    exact hTn r hr n hn
  · rw [List.length_map, hL.length, show pts.length = P.length from List.length_map ..]
  · intro i p hi hp
    have := hL.get i p ((pt3 P p).x, (pt3 P p).y) hi (by simp [pts, pt3, List.getElem?_eq_getElem hp])
    rw [layerNode, show pts.length = P.length from List.length_map ..] at this
    rw [List.getD_eq_getElem?_getD, List.getElem?_map, Nat.add_comm, this]
    simp
  · intro hA hl r hr
    rw [hv r hr]
    refine hpos ?_ hl r hr
    intro t ht
    obtain ⟨q, hq, rfl⟩ := List.mem_map.1 ht
    rw [harea q hq]
    obtain ⟨i, hi, rfl⟩ := List.getElem_of_mem hq
    rw [(hg i _ _ (List.getElem?_eq_getElem (by omega)) (List.getElem?_eq_getElem hi)).2]
    exact hA _ (List.getElem_mem _)
  · rw [List.map_congr_left hv, hvol hN, hareas]

end

/-! ## where the origin is -/

/-- A kite of two triangles: corners 0, 1, 2 and 6, 2, 1, the other nodes are middles. -/
def kiteSection : SectionMesh ℚ :=
  ⟨[[0, 0], [4, 0], [0, 4], [2, 2], [0, 2], [2, 0], [8, 8], [6, 4], [4, 6]], [[0, 1, 2, 3, 4, 5], [6, 2, 1, 3, 7, 8]]⟩

theorem kiteSection_ok : SectionOK kiteSection := by
  refine ⟨by decide, by unfold Rect; decide +kernel, by decide, ?_, by decide +kernel, by decide +kernel, by decide +kernel⟩
  rintro n ⟨r, hr, hn⟩
  revert n
  revert r
  decide

/-- **C86** (disagreement) the points of `trimesh()` are not centred: the middles, dropped afterwards, count. -/
theorem C86_centre_false : ∃ (s : SectionMesh ℚ) (P : List (List ℚ)) (T : Topo), SectionOK s ∧ sectionTrimesh s false 1 = some (P, T) ∧
    (P.map fun r => r.getD 0 0).sum ≠ 0 :=
  ⟨kiteSection, [[-26/9, -26/9], [10/9, -26/9], [-26/9, 10/9], [46/9, 46/9]], [[0, 1, 2], [3, 2, 1]], kiteSection_ok,
    by decide +kernel, by decide +kernel⟩

/-- **C86** (disagreement) the origin is not the centroid of the section (the mean of the triangles weighted by their areas). -/
theorem C86_centroid_false : ∃ (s : SectionMesh ℚ) (P : List (List ℚ)) (T : Topo), SectionOK s ∧ sectionTrimesh s true 1 = some (P, T) ∧
    (T.map fun r => rowArea2 P r * ((pt3 P (r.getD 0 0)).x + (pt3 P (r.getD 1 0)).x + (pt3 P (r.getD 2 0)).x)).sum ≠ 0 :=
  ⟨kiteSection, kiteSection.vertices.map fun r => r.map (· - 26/9),
    [[0, 5, 4], [5, 1, 3], [3, 2, 4], [5, 3, 4], [6, 8, 7], [8, 2, 3], [3, 1, 7], [8, 3, 7]], kiteSection_ok,
    by decide +kernel, by decide +kernel⟩

/-! ## sizes -/

theorem foldl_min_spec (l : List ℝ) (a : ℝ) : l.foldl min a ≤ a ∧ (∀ x ∈ l, l.foldl min a ≤ x) ∧ (l.foldl min a = a ∨ l.foldl min a ∈ l) := by
  induction l generalizing a with
  | nil => simp
  | cons b l ih =>
    obtain ⟨h1, h2, h3⟩ := ih (min a b)
    rw [List.foldl_cons]
    refine ⟨h1.trans (min_le_left _ _), ?_, ?_⟩
    · intro x hx
      rcases List.mem_cons.1 hx with rfl | hx
      · exact h1.trans (min_le_right _ _)
      · exact h2 x hx
    · rcases h3 with h3 | h3
      · rcases min_choice a b with h | h
        · left; rw [h3, h]
        · right; rw [h3, h]; exact List.mem_cons_self
      · right; exact List.mem_cons_of_mem _ h3

/-- The area of an element allowed by the parameters: that of the equilateral triangle with the given side; the given area; the area
of the section divided by the given number. -/
def SizeBound (area : ℝ) (lMax aMax nMax : Option PyNum) (b : ℝ) : Prop :=
  (∃ l, lMax = some l ∧ b = l.val ^ 2 * Real.sqrt 3 / 4) ∨ (∃ a, aMax = some a ∧ b = a.val) ∨ (∃ n, nMax = some n ∧ b = area / n.val)

/-- **C86** the limit for the size of the elements is the least of the sizes asked for, if lengths and areas are floats and numbers are
integers other than 0; without parameters there is no limit. -/
theorem C86_size (area : ℝ) (lMax aMax nMax : Option PyNum) (hl : ∀ l, lMax = some l → ∃ x, l = .float x)
    (ha : ∀ a, aMax = some a → ∃ x, a = .float x) (hn : ∀ n, nMax = some n → ∃ k, n = .int k ∧ k ≠ 0) :
    ∃ m, meshSize area lMax aMax nMax = some m ∧ (m = none ↔ ∀ b, ¬ SizeBound area lMax aMax nMax b) ∧
      ∀ x, m = some x → SizeBound area lMax aMax nMax x ∧ ∀ b, SizeBound area lMax aMax nMax b → x ≤ b := by
  have key : ∃ sizes, meshSize area lMax aMax nMax = some (minReal sizes) ∧ ∀ b, b ∈ sizes ↔ SizeBound area lMax aMax nMax b := by
    have h1 : ∀ b, b ∈ sizeOfLength lMax ↔ ∃ l, lMax = some l ∧ b = l.val ^ 2 * Real.sqrt 3 / 4 := by
      intro b
      cases lMax with
      | none => simp [sizeOfLength]
      | some l =>
        obtain ⟨x, rfl⟩ := hl l rfl
        simp [sizeOfLength, PyNum.val]
    have h2 : ∀ b, b ∈ sizeOfArea aMax ↔ ∃ a, aMax = some a ∧ b = a.val := by
      intro b
      cases aMax with
      | none => simp [sizeOfArea]
      | some a =>
        obtain ⟨x, rfl⟩ := ha a rfl
        simp [sizeOfArea, PyNum.val]
    have h3 : ∃ l, sizeOfNumber area nMax = some l ∧ ∀ b, b ∈ l ↔ ∃ n, nMax = some n ∧ b = area / n.val := by
      cases nMax with
      | none => exact ⟨[], rfl, by simp⟩
      | some n =>
        obtain ⟨k, rfl, hk⟩ := hn n rfl
        exact ⟨[area / k], by simp [sizeOfNumber, hk], by simp [PyNum.val]⟩
    obtain ⟨l, hl, h3⟩ := h3
    refine ⟨sizeOfLength lMax ++ sizeOfArea aMax ++ l, by rw [meshSize, hl]; rfl, fun b => ?_⟩
    rw [List.mem_append, List.mem_append, h1, h2, h3, SizeBound, or_assoc]
  obtain ⟨sizes, e, hs⟩ := key
  refine ⟨_, e, ?_, ?_⟩
  · cases sizes with
    | nil => simpa [minReal] using hs
    | cons x xs =>
      simp only [minReal, reduceCtorEq, false_iff, not_forall, not_not]
      exact ⟨x, (hs x).1 List.mem_cons_self⟩
  · intro x hx
    cases sizes with
    | nil => simp [minReal] at hx
    | cons y ys =>
      simp only [minReal, Option.some.injEq] at hx
      subst hx
      obtain ⟨h1, h2, h3⟩ := foldl_min_spec ys y
      refine ⟨(hs _).1 ?_, fun b hb => ?_⟩
      · rcases h3 with h3 | h3
        · rw [h3]; exact List.mem_cons_self
        · exact List.mem_cons_of_mem _ h3
      · rcases List.mem_cons.1 ((hs b).2 hb) with rfl | hb
        · exact h1
        · exact h2 b hb

/-- **C86** (disagreement) a length or an area given as an integer, or a number given as a float, is ignored. -/
theorem C86_integer_false (area : ℝ) (l a : Int) (n : ℝ) :
    meshSize area (some (.int l)) (some (.int a)) (some (.float n)) = some none := rfl

/-- **C86** the default limit: that of equilateral triangles whose sides are the least thickness, for all shapes documented, if the
thicknesses are floats. -/
theorem C86_default (area : ℝ) (p : String → Option PyNum) (shape : String) (d t f w : ℝ) (hd : p "d" = some (.float d))
    (ht : p "t" = some (.float t)) (hf : p "t_f" = some (.float f)) (hw : p "t_w" = some (.float w)) :
    (shape ∈ ["CHS", "RHS"] → defaultMeshSize area shape p = some (some (t ^ 2 * Real.sqrt 3 / 4))) ∧
    (shape ∈ ["I", "TFI", "PFC", "TFC", "T"] → defaultMeshSize area shape p = some (some (min f w ^ 2 * Real.sqrt 3 / 4))) := by
  constructor
  · intro h
    simp only [List.mem_cons, List.not_mem_nil, or_false] at h
    rcases h with rfl | rfl <;>
      simp [defaultMeshSize, sectionSize, hd, ht, meshSize, sizeOfLength, sizeOfArea, sizeOfNumber, minReal]
  · intro h
    have e : pyMin (.float f) (.float w) = .float (min f w) := by
      rcases le_or_gt f w with h | h
      · rw [pyMin, if_neg (show ¬ ((PyNum.float w).val < (PyNum.float f).val) from not_lt.2 h), min_eq_left h]
      · rw [pyMin, if_pos (show (PyNum.float w).val < (PyNum.float f).val from h), min_eq_right h.le]
    simp only [List.mem_cons, List.not_mem_nil, or_false] at h
    rcases h with rfl | rfl | rfl | rfl | rfl <;>
      simp [defaultMeshSize, sectionSize, hf, hw, e, meshSize, sizeOfLength, sizeOfArea, sizeOfNumber, minReal]

/-- **C86** (disagreement) a rectangular section, which has a depth and a width only, needs a thickness. -/
theorem C86_rectangle_false (area : ℝ) (p : String → Option PyNum) (h : p "t" = none) : defaultMeshSize area "RS" p = none := by
  simp [defaultMeshSize, sectionSize, h]

/-- The kite in two layers: twelve tetrahedra. -/
example : (sectionExtrude kiteSection 3 2).map (fun m => m.2.length) = some 12 := by decide +kernel

end PM
