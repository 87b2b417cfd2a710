import Verif.PropsLazyExact

/-!
# C69: when the search with a map of larger cells answers, and when it fails
-/

namespace PM

section
variable {K : Type} [Field K] [LinearOrder K] [IsStrictOrderedRing K]

/-- The point is in triangle `τ` up to the tolerance. -/
def HitTri (coords : List (P2 K)) (triangles : Topo) (tol : K) (p : P2 K) (τ : Nat) : Prop :=
  ∃ nodes t n, triangles[τ]? = some nodes ∧ TriOfPoints coords nodes t ∧ IsNat t p n ∧
    (-tol < n.n1 ∧ -tol < n.n2 ∧ -tol < n.n3) ∧ (n.n1 < 1 + tol ∧ n.n2 < 1 + tol ∧ n.n3 < 1 + tol)

/-- The row of the map for triangle `τ` names corners of the master triangle. -/
def CornersOnly (trimap : Topo) (τ : Nat) : Prop := ∃ m, trimap[τ % trimap.length]? = some m ∧ m.length = 3 ∧ ∀ q ∈ m, q < 3

omit [LinearOrder K] [IsStrictOrderedRing K] in
theorem ntriToLoc_some (m : List Nat) (n : N3 K) : (∃ l, ntriToLoc m n = some l) ↔ m.length = 3 ∧ ∀ q ∈ m, q < 3 := by
  constructor
  · rintro ⟨l, h⟩
    obtain ⟨t, ht, -⟩ := Option.map_eq_some_iff.1 h
    obtain ⟨a, b, c, rfl, h1, h2, h3⟩ := triOf_some.1 ht
    have g : ∀ {q : Nat} {p : P2 K}, ([⟨0, 0⟩, ⟨1, 0⟩, ⟨0, 1⟩] : List (P2 K))[q]? = some p → q < 3 := fun h => (List.getElem?_eq_some_iff.1 h).1
    refine ⟨rfl, fun q hq => ?_⟩
    simp only [List.mem_cons, List.not_mem_nil, or_false] at hq
    rcases hq with rfl | rfl | rfl
    exacts [g h1, g h2, g h3]
  · rintro ⟨h1, h2⟩
    obtain ⟨t, ht⟩ := triOf_exists (coords := ([⟨0, 0⟩, ⟨1, 0⟩, ⟨0, 1⟩] : List (P2 K))) h1 h2
    exact ⟨_, by rw [ntriToLoc, ht, Option.map_some]⟩

/-- What the tables of the search say, in terms of the points. -/
theorem tables_hit {coords : List (P2 K)} {triangles : Topo} {nb : List (List Nat)} {tol : K} {x : List (P2 K)} {tris : List (Tri K)}
    {nat : List (List (N3 K))} (h1 : triangles.mapM (triOf coords) = some tris) (h2 : natTableTri tris nb x = some nat)
    (hccw : ∀ row ∈ triangles, ∀ t, TriOfPoints coords row t → Ccw t) {i j : Nat} {ns : List (N3 K)} {n : N3 K} (hi : nat[i]? = some ns)
    (hj : ns[j]? = some n) : ∃ p row τ, x[i]? = some p ∧ nb[i]? = some row ∧ row[j]? = some τ ∧ (pipTri tol n = true ↔ HitTri coords triangles tol p τ) := by
  obtain ⟨p, row, τ, t, f1, f2, f3, f4, rfl⟩ := natTableTri_get h2 hi hj
  have hτ : τ < triangles.length := by rw [← mapM_length h1]; exact (List.getElem?_eq_some_iff.1 f4).1
  obtain ⟨t', g1, g2⟩ := mapM_get h1 (List.getElem?_eq_getElem hτ)
  rw [f4] at g2
  obtain rfl := Option.some.inj g2
  have ht := triOf_some.1 g1
  have hc := hccw _ (List.getElem_mem hτ) t ht
  obtain ⟨hnat, -, -⟩ := C28_glob_to_nat_partial hc p
  refine ⟨p, row, τ, f1, f2, f3, ?_⟩
  simp only [pipTri, Bool.and_eq_true, decide_eq_true_eq]
  constructor
  · intro hpn
    exact ⟨_, t, _, List.getElem?_eq_getElem hτ, ht, hnat, ⟨hpn.1.1.1, hpn.1.1.2, hpn.1.2⟩, hpn.2.1.1, hpn.2.1.2, hpn.2.2⟩
  · rintro ⟨nodes, s, n, e1, e2, e3, hlo, hup⟩
    rw [List.getElem?_eq_getElem hτ] at e1
    obtain rfl := Option.some.inj e1
    have := triOf_some.2 e2
    rw [g1] at this
    obtain rfl := Option.some.inj this
    obtain rfl : n = globToNatTri p t := C28_unique (ne_of_gt hc) e3 hnat
    exact ⟨⟨⟨hlo.1, hlo.2.1⟩, hlo.2.2⟩, ⟨hup.1, hup.2.1⟩, hup.2.2⟩

omit [IsStrictOrderedRing K] in
theorem search_tables {coords : List (P2 K)} {triangles : Topo} {nb : List (List Nat)} {x : List (P2 K)}
    (h3 : ∀ row ∈ triangles, row.length = 3) (hn : ∀ row ∈ triangles, ∀ n ∈ row, n < coords.length)
    (hcand : ∀ row ∈ nb, ∀ τ ∈ row, τ < triangles.length) :
    ∃ tris nat, triangles.mapM (triOf coords) = some tris ∧ natTableTri tris nb x = some nat := by
  obtain ⟨tris, u1, u2, -⟩ := mapM_exists (f := triOf coords) (l := triangles) (P := fun _ _ _ => True) (by
    intro i row hr
    have hm := List.mem_of_getElem? hr
    obtain ⟨t, ht⟩ := triOf_exists (h3 row hm) (hn row hm)
    exact ⟨t, ht, trivial⟩)
  obtain ⟨nat, v1, -, -⟩ := mapM_exists
    (f := fun q : P2 K × List Nat => q.2.mapM fun k => (tris[k]?).map fun t => globToNatTri q.1 t) (l := x.zip nb)
    (P := fun _ _ _ => True) (by
      rintro i ⟨p, row⟩ hq
      have hrw : row ∈ nb := (List.of_mem_zip (List.mem_of_getElem? hq)).2
      obtain ⟨ns, w1, w2, -⟩ := mapM_exists (f := fun k => (tris[k]?).map fun t => globToNatTri p t) (l := row)
        (P := fun _ _ _ => True) (by
          intro j k hk
          have hkl : k < tris.length := by rw [u2]; exact hcand row hrw k (List.mem_of_getElem? hk)
          exact ⟨globToNatTri p tris[k], by rw [List.getElem?_eq_getElem hkl]; rfl, trivial⟩)
      exact ⟨ns, w1, trivial⟩)
  exact ⟨tris, nat, u1, v1⟩

/-- **C69** (maps of larger cells): the search answers, in every order of the loop, if every candidate that contains a point has a row of the map that names
corners of the master triangle only. -/
theorem C69_trimap_total {sched : List (Nat × Nat) → List (Nat × Nat)} (hs : ∀ w : List (Nat × Nat), w.Perm (sched w))
    {coords : List (P2 K)} {triangles trimap : Topo} {nb : List (List Nat)} {tol : K} {x : List (P2 K)}
    (h3 : ∀ row ∈ triangles, row.length = 3) (hn : ∀ row ∈ triangles, ∀ n ∈ row, n < coords.length)
    (hcand : ∀ row ∈ nb, ∀ τ ∈ row, τ < triangles.length) (hccw : ∀ row ∈ triangles, ∀ t, TriOfPoints coords row t → Ccw t)
    (hgood : ∀ (i : Nat) (p : P2 K) (row : List Nat), x[i]? = some p → nb[i]? = some row → ∀ τ ∈ row, HitTri coords triangles tol p τ → CornersOnly trimap τ) :
    ∃ r, locateTri sched coords triangles trimap nb tol x = some r := by
  obtain ⟨tris, nat, u1, v1⟩ := search_tables (x := x) h3 hn hcand
  unfold locateTri
  rw [u1, Option.bind_some, v1, Option.bind_some]
  refine searchHits_total hs fun i j prow hi hj => ?_
  rw [List.getElem?_map] at hi
  obtain ⟨ns, hns, rfl⟩ := Option.map_eq_some_iff.1 hi
  rw [List.getElem?_map] at hj
  obtain ⟨n, hn', hpip⟩ := Option.map_eq_some_iff.1 hj
  obtain ⟨p, row, τ, f1, f2, f3, f4⟩ := tables_hit (tol := tol) u1 v1 hccw hns hn'
  obtain ⟨m, hm, hm'⟩ := hgood i p row f1 f2 τ (List.mem_of_getElem? f3) (f4.1 hpip)
  obtain ⟨l, hl⟩ := (ntriToLoc_some m n).2 hm'
  exact ⟨(i, τ / trimap.length, l), by rw [locateTriOne, f2, Option.bind_some, f3, Option.bind_some, hm, Option.bind_some, hns, Option.bind_some, hn',
    Option.bind_some, hl, Option.map_some]⟩

/-- **C69** (maps of larger cells): the search fails, in every order of the loop, if a point is in a candidate and every candidate that contains it has a row of
the map that names something else than corners of the master triangle. -/
theorem C69_trimap_fails {sched : List (Nat × Nat) → List (Nat × Nat)} (hs : ∀ w : List (Nat × Nat), w.Perm (sched w))
    {coords : List (P2 K)} {triangles trimap : Topo} {nb : List (List Nat)} {tol : K} {x : List (P2 K)}
    (hccw : ∀ row ∈ triangles, ∀ t, TriOfPoints coords row t → Ccw t) {i : Nat} {p : P2 K} {row : List Nat} (hp : x[i]? = some p)
    (hrow : nb[i]? = some row) (hin : ∃ τ ∈ row, HitTri coords triangles tol p τ)
    (hbad : ∀ τ ∈ row, HitTri coords triangles tol p τ → ¬ CornersOnly trimap τ) :
    locateTri sched coords triangles trimap nb tol x = none := by
  rw [Option.eq_none_iff_forall_ne_some]
  intro r hr
  unfold locateTri at hr
  simp only [Option.bind_eq_some_iff] at hr
  obtain ⟨tris, h1, nat, h2, h3⟩ := hr
  have hz : (x.zip nb)[i]? = some (p, row) := List.getElem?_zip_eq_some.2 ⟨hp, hrow⟩
  obtain ⟨ns, e1, e2⟩ := mapM_get h2 hz
  obtain ⟨τ, hτ, hhit⟩ := hin
  obtain ⟨j, hj⟩ := List.getElem?_of_mem hτ
  obtain ⟨n, -, hnj⟩ := mapM_get e1 hj
  have look : ∀ {j : Nat} {n : N3 K}, ns[j]? = some n → ∃ τ, row[j]? = some τ ∧ (pipTri tol n = true ↔ HitTri coords triangles tol p τ) := by
    intro j n hnj
    obtain ⟨p', row', τ', f1, f2, f3, f4⟩ := tables_hit (tol := tol) h1 h2 hccw e2 hnj
    rw [hp] at f1
    rw [hrow] at f2
    obtain rfl := Option.some.inj f1
    obtain rfl := Option.some.inj f2
    exact ⟨τ', f3, f4⟩
  have hpip : pipTri tol n = true := by
    obtain ⟨τ', f3, f4⟩ := look hnj
    rw [hj] at f3
    obtain rfl := Option.some.inj f3
    exact f4.2 hhit
  obtain ⟨j', y, k1, k2, -⟩ := (searchHits_mem hs h3).2 i (ns.map (pipTri tol)) (by rw [List.getElem?_map, e2]; rfl)
    (List.mem_map.2 ⟨n, List.mem_of_getElem? hnj, hpip⟩)
  rw [List.getElem?_map] at k1
  obtain ⟨n', hn', hpip'⟩ := Option.map_eq_some_iff.1 k1
  obtain ⟨τ', f3, f4⟩ := look hn'
  unfold locateTriOne at k2
  simp only [Option.bind_eq_some_iff, Option.map_eq_some_iff] at k2
  obtain ⟨row', g1, τ'', g2, m, g3, ns', g4, n'', g5, loc, g6, -⟩ := k2
  rw [hrow] at g1
  obtain rfl := Option.some.inj g1
  rw [f3] at g2
  obtain rfl := Option.some.inj g2
  exact hbad τ' (List.mem_of_getElem? f3) (f4.1 hpip') ⟨m, g3, (ntriToLoc_some m n'').1 ⟨loc, g6⟩⟩

end

/-- A case: a square cut in two; the second triangle of the map names corner 3, so points in its inside make the search fail, and points in the inside of the
first do not. -/
example : CornersOnly [[0, 1, 2], [0, 2, 3]] 0 ∧ ¬ CornersOnly [[0, 1, 2], [0, 2, 3]] 1 ∧
    HitTri ([⟨0, 0⟩, ⟨1, 0⟩, ⟨1, 1⟩, ⟨0, 1⟩] : List (P2 ℚ)) [[0, 1, 2], [0, 2, 3]] (1 / 100) ⟨1 / 4, 3 / 4⟩ 1 := by
  refine ⟨⟨_, rfl, rfl, by decide⟩, fun ⟨m, h1, _, h3⟩ => ?_, [0, 2, 3], ⟨⟨0, 0⟩, ⟨1, 1⟩, ⟨0, 1⟩⟩, ⟨1 / 4, 1 / 4, 1 / 2⟩, rfl,
    ⟨0, 2, 3, rfl, rfl, rfl, rfl⟩, ⟨by norm_num, by norm_num, by norm_num⟩, by norm_num, by norm_num⟩
  obtain rfl : [0, 2, 3] = m := by simpa using h1
  exact absurd (h3 3 (by simp)) (by decide)

end PM
