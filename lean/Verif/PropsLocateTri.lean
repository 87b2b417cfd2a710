import Verif.LocateTri
import Verif.PropsLocate
import Verif.PropsKnn
import Verif.PropsTri
import Verif.PropsTransform

/-!
# C69: locating points in triangles, C73: points inside of a block
-/

namespace PM

/-! ## the search, for any table of tests -/

/-- What is returned: results of hits, and one for every point with a hit. -/
theorem searchHits_mem {β : Type} {sched : List (Nat × Nat) → List (Nat × Nat)} (hs : ∀ w : List (Nat × Nat), w.Perm (sched w))
    {pips : List (List Bool)} {one : Nat → Nat → Option β} {r : List β} (hr : searchHits sched pips one = some r) :
    (∀ y ∈ r, ∃ (i j : Nat) (row : List Bool), pips[i]? = some row ∧ row[j]? = some true ∧ one i j = some y) ∧
    ∀ (i : Nat) (row : List Bool), pips[i]? = some row → true ∈ row → ∃ j y, row[j]? = some true ∧ one i j = some y ∧ y ∈ r := by
  unfold searchHits at hr
  simp only at hr
  set src := sourcesOf pips with hsrc
  set sub := src.map fun i => pips.getD i [] with hsub
  have hrel := C48_partial sub (sched (hitWrites sub)) (hs _)
  have hlen : sub.length = src.length := by simp [hsub]
  rw [hlen] at hrel
  set rel := hitsRun src.length (sched (hitWrites sub)) with hreldef
  have key : ∀ (k i : Nat), src[k]? = some i → ∃ (j : Nat) (row : List Bool), rel[k]? = some j ∧ pips[i]? = some row ∧ row[j]? = some true := by
    intro k i hk
    obtain ⟨row, hrow, htrue⟩ := mem_sourcesOf.1 (List.mem_of_getElem? hk)
    have hsubk : sub[k]? = some row := by
      rw [hsub, List.getElem?_map, hk, Option.map_some, List.getD_eq_getElem?_getD, hrow]
      rfl
    obtain ⟨j, hj1, hj2⟩ := hrel.2 k row hsubk htrue
    exact ⟨j, row, hj1, hrow, hj2⟩
  constructor
  · intro y hy
    obtain ⟨k, hk⟩ := List.getElem?_of_mem hy
    have hkl : k < (src.zip rel).length := by rw [← mapM_length hr]; exact (List.getElem?_eq_some_iff.1 hk).1
    obtain ⟨y', hy1, hy2⟩ := mapM_get hr (List.getElem?_eq_getElem hkl)
    rw [hk] at hy2
    obtain rfl := Option.some.inj hy2
    have hks : k < src.length := by rw [List.length_zip] at hkl; omega
    have hkr : k < rel.length := by rw [hrel.1]; exact hks
    obtain ⟨j, row, h1, h2, h3⟩ := key k _ (List.getElem?_eq_getElem hks)
    rw [List.getElem?_eq_getElem hkr] at h1
    rw [List.getElem_zip, Option.some.inj h1] at hy1
    exact ⟨_, j, row, h2, h3, hy1⟩
  · intro i row hrow ht
    obtain ⟨k, hk⟩ := List.getElem?_of_mem (mem_sourcesOf.2 ⟨row, hrow, ht⟩)
    obtain ⟨j, row', h1, h2, h3⟩ := key k i hk
    rw [hrow] at h2
    obtain rfl := Option.some.inj h2
    obtain ⟨y, hy1, hy2⟩ := mapM_get hr (List.getElem?_zip_eq_some.2 ⟨hk, h1⟩ : (src.zip rel)[k]? = some (i, j))
    exact ⟨j, y, h3, hy1, List.mem_of_getElem? hy2⟩

/-- It succeeds if every hit can be evaluated. -/
theorem searchHits_total {β : Type} {sched : List (Nat × Nat) → List (Nat × Nat)} (hs : ∀ w : List (Nat × Nat), w.Perm (sched w))
    {pips : List (List Bool)} {one : Nat → Nat → Option β}
    (h : ∀ (i j : Nat) (row : List Bool), pips[i]? = some row → row[j]? = some true → ∃ y, one i j = some y) :
    ∃ r, searchHits sched pips one = some r := by
  unfold searchHits
  simp only
  set src := sourcesOf pips with hsrc
  set sub := src.map fun i => pips.getD i [] with hsub
  have hrel := C48_partial sub (sched (hitWrites sub)) (hs _)
  have hlen : sub.length = src.length := by simp [hsub]
  rw [hlen] at hrel
  set rel := hitsRun src.length (sched (hitWrites sub)) with hreldef
  obtain ⟨r, hr, -⟩ := mapM_exists (f := fun s : Nat × Nat => one s.1 s.2) (l := src.zip rel) (P := fun _ _ _ => True) (by
    rintro k ⟨i, j⟩ hk
    obtain ⟨hk1, hk2⟩ := List.getElem?_zip_eq_some.1 hk
    obtain ⟨row, hrow, htrue⟩ := mem_sourcesOf.1 (List.mem_of_getElem? hk1)
    have hsubk : sub[k]? = some row := by
      rw [hsub, List.getElem?_map, hk1, Option.map_some, List.getD_eq_getElem?_getD, hrow]
      rfl
    obtain ⟨j', hj1, hj2⟩ := hrel.2 k row hsubk htrue
    rw [hk2] at hj1
    obtain rfl := Option.some.inj hj1
    obtain ⟨y, hy⟩ := h i j row hrow hj2
    exact ⟨y, hy, trivial⟩)
  exact ⟨r, hr⟩

/-! ## C69 -/

section
variable {K : Type}

/-- `t` is the triangle spanned by the listed points in the positions `m`. -/
def TriOfPoints (pts : List (P2 K)) (m : List Nat) (t : Tri K) : Prop :=
  ∃ a b c, m = [a, b, c] ∧ pts[a]? = some t.p1 ∧ pts[b]? = some t.p2 ∧ pts[c]? = some t.p3

theorem triOf_some {coords : List (P2 K)} {m : List Nat} {t : Tri K} : triOf coords m = some t ↔ TriOfPoints coords m t := by
  constructor
  · intro h
    match m, h with
    | [a, b, c], h =>
      simp only [triOf, Option.bind_eq_some_iff, Option.map_eq_some_iff] at h
      obtain ⟨p, h1, q, h2, r, h3, rfl⟩ := h
      exact ⟨a, b, c, rfl, h1, h2, h3⟩
  · rintro ⟨a, b, c, rfl, h1, h2, h3⟩
    simp [triOf, h1, h2, h3]

theorem triOf_exists {coords : List (P2 K)} {m : List Nat} (hl : m.length = 3) (h : ∀ k ∈ m, k < coords.length) :
    ∃ t, triOf coords m = some t := by
  match m, hl with
  | [a, b, c], _ =>
    have ha := h a (by simp)
    have hb := h b (by simp)
    have hc := h c (by simp)
    exact ⟨⟨coords[a], coords[b], coords[c]⟩, by simp [triOf, ha, hb, hc]⟩

end

section
variable {K : Type} [Field K] [LinearOrder K] [IsStrictOrderedRing K]

omit [IsStrictOrderedRing K] in
/-- The entries of the tables. -/
theorem natTableTri_get {tris : List (Tri K)} {nb : List (List Nat)} {x : List (P2 K)} {nat : List (List (N3 K))}
    (h : natTableTri tris nb x = some nat) {i j : Nat} {ns : List (N3 K)} {n : N3 K} (hi : nat[i]? = some ns) (hj : ns[j]? = some n) :
    ∃ p row τ t, x[i]? = some p ∧ nb[i]? = some row ∧ row[j]? = some τ ∧ tris[τ]? = some t ∧ n = globToNatTri p t := by
  unfold natTableTri at h
  have hil : i < (x.zip nb).length := by rw [← mapM_length h]; exact (List.getElem?_eq_some_iff.1 hi).1
  obtain ⟨ns', e1, e2⟩ := mapM_get h (List.getElem?_eq_getElem hil)
  rw [hi] at e2
  obtain rfl := Option.some.inj e2
  have hix : i < x.length := by rw [List.length_zip] at hil; omega
  have hinb : i < nb.length := by rw [List.length_zip] at hil; omega
  rw [List.getElem_zip] at e1
  simp only at e1
  have hjl : j < nb[i].length := by rw [← mapM_length e1]; exact (List.getElem?_eq_some_iff.1 hj).1
  obtain ⟨n', f1, f2⟩ := mapM_get e1 (List.getElem?_eq_getElem hjl)
  rw [hj] at f2
  obtain rfl := Option.some.inj f2
  obtain ⟨t, ht, rfl⟩ := Option.map_eq_some_iff.1 f1
  exact ⟨x[i], nb[i], nb[i][j], t, List.getElem?_eq_getElem hix, List.getElem?_eq_getElem hinb, List.getElem?_eq_getElem hjl, ht, rfl⟩

/-- **C69** with the default map: a reported point lies in the reported triangle up to the tolerance, and the reported local
coordinates are those of the point: the affine map of the master triangle takes them to the point. All candidates, every order of
the parallel loops; triangles counter-clockwise. -/
theorem C69_sound {sched : List (Nat × Nat) → List (Nat × Nat)} (hs : ∀ w : List (Nat × Nat), w.Perm (sched w))
    {coords : List (P2 K)} {triangles : Topo} {nb : List (List Nat)} {tol : K} {x : List (P2 K)} {r : List (Nat × Nat × P2 K)}
    (hr : locateTri sched coords triangles [[0, 1, 2]] nb tol x = some r)
    (hccw : ∀ row ∈ triangles, ∀ t, TriOfPoints coords row t → Ccw t) {i c : Nat} {loc : P2 K} (hm : (i, c, loc) ∈ r) :
    ∃ p row t n, x[i]? = some p ∧ triangles[c]? = some row ∧ TriOfPoints coords row t ∧ IsNat t p n ∧
      (-tol < n.n1 ∧ -tol < n.n2 ∧ -tol < n.n3) ∧
      t.p1.x + loc.x * (t.p2.x - t.p1.x) + loc.y * (t.p3.x - t.p1.x) = p.x ∧
      t.p1.y + loc.x * (t.p2.y - t.p1.y) + loc.y * (t.p3.y - t.p1.y) = p.y := by
  unfold locateTri at hr
  simp only [Option.bind_eq_some_iff] at hr
  obtain ⟨tris, h1, nat, h2, h3⟩ := hr
  obtain ⟨i', j, pr, e1, e2, e3⟩ := (searchHits_mem hs h3).1 _ hm
  rw [List.getElem?_map] at e1
  obtain ⟨ns, hns, rfl⟩ := Option.map_eq_some_iff.1 e1
  rw [List.getElem?_map] at e2
  obtain ⟨n, hn, hp⟩ := Option.map_eq_some_iff.1 e2
  obtain ⟨p, row, τ, t, f1, f2, f3, f4, rfl⟩ := natTableTri_get h2 hns hn
  unfold locateTriOne at e3
  rw [f2, Option.bind_some, f3, Option.bind_some, hns] at e3
  simp only [List.length_singleton, Nat.mod_one, List.getElem?_cons_zero, Option.bind_some, hn, Nat.div_one, ntriToLoc, triOf,
    List.getElem?_cons_succ, Option.map_some, Option.some.injEq, Prod.mk.injEq] at e3
  obtain ⟨rfl, rfl, rfl⟩ := e3
  have hτ : τ < triangles.length := by rw [← mapM_length h1]; exact (List.getElem?_eq_some_iff.1 f4).1
  obtain ⟨t', g1, g2⟩ := mapM_get h1 (List.getElem?_eq_getElem hτ)
  rw [f4] at g2
  obtain rfl := Option.some.inj g2
  have ht := triOf_some.1 g1
  obtain ⟨hnat, -, -⟩ := C28_glob_to_nat_partial (hccw _ (List.getElem_mem hτ) t ht) p
  refine ⟨p, _, t, _, f1, List.getElem?_eq_getElem hτ, ht, hnat, ?_, ?_, ?_⟩
  · simp only [pipTri, Bool.and_eq_true, decide_eq_true_eq] at hp
    exact ⟨hp.1.1.1, hp.1.1.2, hp.1.2⟩
  · rw [← hnat.x]
    simp only [natToGlobTri]
    linear_combination (-t.p1.x) * hnat.sum
  · rw [← hnat.y]
    simp only [natToGlobTri]
    linear_combination (-t.p1.y) * hnat.sum

/-- **C69** the default map of `locate_tri_2d` is that of the triangle itself, with all triangles and with near centres as candidates. -/
theorem C69_default {sched : List (Nat × Nat) → List (Nat × Nat)} (hs : ∀ w : List (Nat × Nat), w.Perm (sched w))
    {coords : List (P2 K)} {triangles : Topo} {lazy : Option (Nat × (Nat → List (List Nat)))} {tol : K} {x : List (P2 K)}
    {r : List (Nat × Nat × P2 K)} (hr : locateTri2d sched coords triangles none lazy tol x = some r)
    (hccw : ∀ row ∈ triangles, ∀ t, TriOfPoints coords row t → Ccw t) {i c : Nat} {loc : P2 K} (hm : (i, c, loc) ∈ r) :
    ∃ p row t n, x[i]? = some p ∧ triangles[c]? = some row ∧ TriOfPoints coords row t ∧ IsNat t p n ∧
      (-tol < n.n1 ∧ -tol < n.n2 ∧ -tol < n.n3) ∧
      t.p1.x + loc.x * (t.p2.x - t.p1.x) + loc.y * (t.p3.x - t.p1.x) = p.x ∧
      t.p1.y + loc.x * (t.p2.y - t.p1.y) + loc.y * (t.p3.y - t.p1.y) = p.y := by
  obtain _ | ⟨k, query⟩ := lazy
  · exact C69_sound hs hr hccw hm
  · simp only [locateTri2d, Option.bind_eq_bind, Option.bind_eq_some_iff] at hr
    obtain ⟨_, -, _, -, h⟩ := hr
    exact C69_sound hs h hccw hm

/-- **C69** with the map of larger cells, where the search does not fail: the triangle that contains the point is one of the
triangles of the reported cell, and the reported local coordinates mix the corners that its row of the map names. -/
theorem C69_cells {sched : List (Nat × Nat) → List (Nat × Nat)} (hs : ∀ w : List (Nat × Nat), w.Perm (sched w))
    {coords : List (P2 K)} {triangles trimap : Topo} {nb : List (List Nat)} {tol : K} {x : List (P2 K)} {r : List (Nat × Nat × P2 K)}
    (hr : locateTri sched coords triangles trimap nb tol x = some r)
    (hccw : ∀ row ∈ triangles, ∀ t, TriOfPoints coords row t → Ccw t) {i c : Nat} {loc : P2 K} (hm : (i, c, loc) ∈ r) :
    ∃ k p row t n m l, k < trimap.length ∧ x[i]? = some p ∧ triangles[c * trimap.length + k]? = some row ∧
      TriOfPoints coords row t ∧ IsNat t p n ∧ (-tol < n.n1 ∧ -tol < n.n2 ∧ -tol < n.n3) ∧
      trimap[k]? = some m ∧ TriOfPoints [⟨0, 0⟩, ⟨1, 0⟩, ⟨0, 1⟩] m l ∧
      loc.x = n.n1 * l.p1.x + n.n2 * l.p2.x + n.n3 * l.p3.x ∧ loc.y = n.n1 * l.p1.y + n.n2 * l.p2.y + n.n3 * l.p3.y := by
  unfold locateTri at hr
  simp only [Option.bind_eq_some_iff] at hr
  obtain ⟨tris, h1, nat, h2, h3⟩ := hr
  obtain ⟨i', j, pr, e1, e2, e3⟩ := (searchHits_mem hs h3).1 _ hm
  rw [List.getElem?_map] at e1
  obtain ⟨ns, hns, rfl⟩ := Option.map_eq_some_iff.1 e1
  rw [List.getElem?_map] at e2
  obtain ⟨n, hn, hp⟩ := Option.map_eq_some_iff.1 e2
  obtain ⟨p, row, τ, t, f1, f2, f3, f4, rfl⟩ := natTableTri_get h2 hns hn
  unfold locateTriOne at e3
  rw [f2, Option.bind_some, f3, Option.bind_some, hns] at e3
  simp only [Option.bind_eq_some_iff, Option.some.injEq, exists_eq_left', hn, ntriToLoc, Option.map_eq_some_iff, Prod.mk.injEq] at e3
  obtain ⟨m, hmm, _, ⟨l, hl, rfl⟩, rfl, rfl, rfl⟩ := e3
  have hτ : τ < triangles.length := by rw [← mapM_length h1]; exact (List.getElem?_eq_some_iff.1 f4).1
  obtain ⟨t', g1, g2⟩ := mapM_get h1 (List.getElem?_eq_getElem hτ)
  rw [f4] at g2
  obtain rfl := Option.some.inj g2
  have ht := triOf_some.1 g1
  obtain ⟨hnat, -, -⟩ := C28_glob_to_nat_partial (hccw _ (List.getElem_mem hτ) t ht) p
  have hk : τ % trimap.length < trimap.length := (List.getElem?_eq_some_iff.1 hmm).1
  refine ⟨τ % trimap.length, p, _, t, _, m, l, hk, f1, ?_, ht, hnat, ?_, hmm, triOf_some.1 hl, ?_, ?_⟩
  · rw [Nat.div_add_mod']; exact List.getElem?_eq_getElem hτ
  · simp only [pipTri, Bool.and_eq_true, decide_eq_true_eq] at hp
    exact ⟨hp.1.1.1, hp.1.1.2, hp.1.2⟩
  · simp only [natToGlobTri]; ring
  · simp only [natToGlobTri]; ring

/-- **C69** with `lazy=False` and a positive tolerance every point of a triangle is reported. -/
theorem C69_complete {sched : List (Nat × Nat) → List (Nat × Nat)} (hs : ∀ w : List (Nat × Nat), w.Perm (sched w))
    {coords : List (P2 K)} {triangles : Topo} {trimap : Option Topo} {tol : K} (htol : 0 < tol) {x : List (P2 K)}
    {r : List (Nat × Nat × P2 K)} (hr : locateTri2d sched coords triangles trimap none tol x = some r)
    {i : Nat} {p : P2 K} (hp : x[i]? = some p) {row : List Nat} (hrow : row ∈ triangles) {t : Tri K} (ht : TriOfPoints coords row t)
    (hccw : Ccw t) (hin : InTri t p) : ∃ c loc, (i, c, loc) ∈ r := by
  simp only [locateTri2d, locateTri, Option.bind_eq_some_iff] at hr
  obtain ⟨tris, h1, nat, h2, h3⟩ := hr
  obtain ⟨c, hc⟩ := List.getElem?_of_mem hrow
  obtain ⟨t', g1, g2⟩ := mapM_get h1 hc
  rw [triOf_some.2 ht] at g1
  obtain rfl := Option.some.inj g1
  have hcl : c < triangles.length := (List.getElem?_eq_some_iff.1 hc).1
  have hz : (x.zip (x.map fun _ => List.range triangles.length))[i]? = some (p, List.range triangles.length) := by
    rw [List.getElem?_zip_eq_some]
    refine ⟨hp, ?_⟩
    rw [List.getElem?_map, hp]
    rfl
  obtain ⟨ns, e1, e2⟩ := mapM_get h2 hz
  obtain ⟨n, f1, f2⟩ := mapM_get e1 (i := c) (List.getElem?_range hcl)
  rw [g2] at f1
  obtain rfl := Option.some.inj f1
  have hpip := (C29_pip_partial hccw p).2.1 tol htol hin
  obtain ⟨j, y, -, k2, k3⟩ := (searchHits_mem hs h3).2 i (ns.map (pipTri tol)) (by rw [List.getElem?_map, e2]; rfl)
    (List.mem_map.2 ⟨_, List.mem_of_getElem? f2, hpip⟩)
  unfold locateTriOne at k2
  simp only [Option.bind_eq_some_iff, Option.map_eq_some_iff] at k2
  obtain ⟨_, _, _, _, _, _, _, _, _, _, loc, _, rfl⟩ := k2
  exact ⟨_, _, k3⟩

omit [IsStrictOrderedRing K] in
/-- **C69** the search does not fail on sound input with the default map. -/
theorem C69_total {sched : List (Nat × Nat) → List (Nat × Nat)} (hs : ∀ w : List (Nat × Nat), w.Perm (sched w))
    {coords : List (P2 K)} {triangles : Topo} {nb : List (List Nat)} {tol : K} {x : List (P2 K)}
    (h3 : ∀ row ∈ triangles, row.length = 3) (hn : ∀ row ∈ triangles, ∀ n ∈ row, n < coords.length) (hnb : nb.length = x.length)
    (hcand : ∀ row ∈ nb, ∀ τ ∈ row, τ < triangles.length) :
    ∃ r, locateTri sched coords triangles [[0, 1, 2]] nb tol x = some r := by
  obtain ⟨tris, u1, u2, -⟩ := mapM_exists (f := triOf coords) (l := triangles) (P := fun _ _ _ => True) (by
    intro i row hr
    have hm := List.mem_of_getElem? hr
    obtain ⟨t, ht⟩ := triOf_exists (h3 row hm) (hn row hm)
    exact ⟨t, ht, trivial⟩)
  obtain ⟨nat, v1, -, -⟩ := mapM_exists
    (f := fun q : P2 K × List Nat => q.2.mapM fun k => (tris[k]?).map fun t => globToNatTri q.1 t) (l := x.zip nb)
    (P := fun _ _ _ => True) (by
      rintro i ⟨p, row⟩ hq
      have hrw : row ∈ nb := (List.of_mem_zip (List.mem_of_getElem? hq)).2
      obtain ⟨ns, w1, w2, -⟩ := mapM_exists (f := fun k => (tris[k]?).map fun t => globToNatTri p t) (l := row)
        (P := fun _ _ _ => True) (by
          intro j k hk
          have hkl : k < tris.length := by rw [u2]; exact hcand row hrw k (List.mem_of_getElem? hk)
          exact ⟨globToNatTri p tris[k], by rw [List.getElem?_eq_getElem hkl]; rfl, trivial⟩)
      exact ⟨ns, w1, trivial⟩)
  have hnat : natTableTri tris nb x = some nat := v1
  unfold locateTri
  rw [u1, Option.bind_some, hnat, Option.bind_some]
  refine searchHits_total hs fun i j prow hi hj => ?_
  rw [List.getElem?_map] at hi
  obtain ⟨ns, hns, rfl⟩ := Option.map_eq_some_iff.1 hi
  rw [List.getElem?_map] at hj
  obtain ⟨n, hn', -⟩ := Option.map_eq_some_iff.1 hj
  have hil : i < (x.zip nb).length := by rw [← mapM_length v1]; exact (List.getElem?_eq_some_iff.1 hns).1
  obtain ⟨ns', e1, e2⟩ := mapM_get v1 (List.getElem?_eq_getElem hil)
  rw [hns] at e2
  obtain rfl := Option.some.inj e2
  have hinb : i < nb.length := by rw [List.length_zip] at hil; omega
  rw [List.getElem_zip] at e1
  simp only at e1
  have hjl : j < nb[i].length := by rw [← mapM_length e1]; exact (List.getElem?_eq_some_iff.1 hn').1
  unfold locateTriOne
  rw [List.getElem?_eq_getElem hinb, Option.bind_some, List.getElem?_eq_getElem hjl, Option.bind_some, hns]
  simp [hn', ntriToLoc, triOf, Nat.mod_one]

omit [IsStrictOrderedRing K] in
/-- **C69** a single triangle cannot be searched by default. -/
theorem C69_single_false (sched : List (Nat × Nat) → List (Nat × Nat)) (coords : List (P2 K)) (row : List Nat) (trimap : Option Topo)
    (tol : K) {k : Nat} (hk : 1 ≤ k) (query : Nat → List (List Nat)) (x : List (P2 K)) :
    locateTri2d sched coords [row] trimap (some (k, query)) tol x = none := by
  have : min k 1 = 1 := by omega
  simp [locateTri2d, kNearestNeighbours, this, KnnAns.table?]

end

/-- **C69** is false for the triangles of quadrilaterals: the local coordinates of the second triangle are looked up beyond the
three corners of the master triangle. -/
theorem C69_trimap_false : locateTri2d id ([⟨0, 0⟩, ⟨1, 0⟩, ⟨1, 1⟩, ⟨0, 1⟩] : List (P2 ℚ)) [[0, 1, 2], [0, 2, 3]] (some [[0, 1, 2], [0, 2, 3]])
    none (1 / 10 ^ 12) [⟨1 / 4, 3 / 4⟩] = none ∧
    InTri (⟨⟨0, 0⟩, ⟨1, 1⟩, ⟨0, 1⟩⟩ : Tri ℚ) ⟨1 / 4, 3 / 4⟩ :=
  ⟨by decide +kernel, ⟨1 / 4, 1 / 4, 1 / 2⟩, ⟨by norm_num, by norm_num, by norm_num⟩, by norm_num⟩

/-- **C69** is false for clockwise triangles. -/
theorem C69_clockwise_false : locateTri2d id ([⟨0, 0⟩, ⟨0, 1⟩, ⟨1, 0⟩] : List (P2 ℚ)) [[0, 1, 2]] none none (1 / 10 ^ 12) [⟨1 / 4, 1 / 4⟩] =
    some [] ∧ InTri (⟨⟨0, 0⟩, ⟨0, 1⟩, ⟨1, 0⟩⟩ : Tri ℚ) ⟨1 / 4, 1 / 4⟩ :=
  ⟨by decide +kernel, ⟨1 / 2, 1 / 4, 1 / 4⟩, ⟨by norm_num, by norm_num, by norm_num⟩, by norm_num⟩

/-- Two triangles, two points inside, one outside. -/
example : locateTri2d id ([⟨0, 0⟩, ⟨2, 0⟩, ⟨2, 2⟩, ⟨0, 2⟩] : List (P2 ℚ)) [[0, 1, 2], [0, 2, 3]] none none (1 / 10 ^ 12)
    [⟨1, 3 / 2⟩, ⟨5, 5⟩, ⟨3 / 2, 1 / 2⟩] = some [(0, 1, ⟨1 / 2, 1 / 4⟩), (2, 0, ⟨1 / 2, 1 / 4⟩)] := by decide +kernel

/-- Cells of two triangles with the same corners of the master triangle: the second cell is reported. -/
example : locateTri2d id ([⟨0, 0⟩, ⟨2, 0⟩, ⟨2, 2⟩, ⟨0, 2⟩, ⟨4, 0⟩, ⟨4, 2⟩] : List (P2 ℚ)) [[0, 1, 2], [0, 2, 3], [1, 4, 5], [1, 5, 2]]
    (some [[0, 1, 2], [0, 2, 1]]) none (1 / 10 ^ 12) [⟨3, 3 / 2⟩, ⟨3 / 2, 1 / 2⟩] =
    some [(0, 1, ⟨1 / 4, 1 / 2⟩), (1, 0, ⟨1 / 2, 1 / 4⟩)] := by decide +kernel

/-- A point of the plane as a point of space. -/
def P2.emb (p : P2 ℚ) : V3 ℚ := ⟨p.x, p.y, 0⟩

/-- A long triangle and four small ones beside its corner. -/
def lazyTriCoords : List (P2 ℚ) :=
  [⟨0, 0⟩, ⟨100, 0⟩, ⟨0, 100⟩] ++ ([⟨-3, 0⟩, ⟨-3, 2⟩, ⟨0, -3⟩, ⟨2, -3⟩] : List (P2 ℚ)).flatMap
    fun o => [o, ⟨o.x + 1, o.y⟩, ⟨o.x, o.y + 1⟩]
def lazyTriTopo : Topo := [[0, 1, 2], [3, 4, 5], [6, 7, 8], [9, 10, 11], [12, 13, 14]]
def lazyTriCenters : List (P2 ℚ) := [⟨100/3, 100/3⟩, ⟨-8/3, 1/3⟩, ⟨-8/3, 7/3⟩, ⟨1/3, -8/3⟩, ⟨7/3, -8/3⟩]

/-- **C69** is false for the default search: the point is in the first triangle, the candidates are the four nearest centres. -/
theorem C69_lazy_false :
    TriOfPoints lazyTriCoords [0, 1, 2] ⟨⟨0, 0⟩, ⟨100, 0⟩, ⟨0, 100⟩⟩ ∧ InTri (⟨⟨0, 0⟩, ⟨100, 0⟩, ⟨0, 100⟩⟩ : Tri ℚ) ⟨1, 1⟩ ∧
    lazyTriTopo.mapM (fun r => (triOf lazyTriCoords r).map centerTri) = some lazyTriCenters ∧
    IsKNearest (lazyTriCenters.map P2.emb) (P2.emb ⟨1, 1⟩) 4 [1, 2, 3, 4] ∧
    locateTri2d id lazyTriCoords lazyTriTopo none (some (4, fun _ => [[1, 2, 3, 4]])) (1 / 10 ^ 12) [⟨1, 1⟩] = some [] := by
  refine ⟨⟨0, 1, 2, rfl, rfl, rfl, rfl⟩, ⟨⟨98/100, 1/100, 1/100⟩, ⟨by norm_num, by norm_num, by norm_num⟩, by norm_num⟩,
    by decide +kernel, ⟨rfl, by decide, by decide, ?_⟩, by decide +kernel⟩
  intro j hj l hl hln c d hc hd
  have hl0 : l = 0 := by
    simp only [lazyTriCenters, List.map_cons, List.map_nil, List.length_cons, List.length_nil] at hl
    simp only [List.mem_cons, List.not_mem_nil, or_false, not_or] at hln
    omega
  subst hl0
  have key : ∀ j ∈ [1, 2, 3, 4], ∀ c, (lazyTriCenters.map P2.emb)[j]? = some c →
      V3.dot (P2.emb ⟨1, 1⟩ - c) (P2.emb ⟨1, 1⟩ - c) ≤
        V3.dot (P2.emb ⟨1, 1⟩ - P2.emb ⟨100/3, 100/3⟩) (P2.emb ⟨1, 1⟩ - P2.emb ⟨100/3, 100/3⟩) := by
    intro j hj c hc
    have : ∀ j ∈ [1, 2, 3, 4], V3.dot (P2.emb ⟨1, 1⟩ - (lazyTriCenters.map P2.emb).getD j 0) (P2.emb ⟨1, 1⟩ - (lazyTriCenters.map P2.emb).getD j 0) ≤
        V3.dot (P2.emb ⟨1, 1⟩ - P2.emb ⟨100/3, 100/3⟩) (P2.emb ⟨1, 1⟩ - P2.emb ⟨100/3, 100/3⟩) := by decide +kernel
    have h := this j hj
    rw [List.getD_eq_getElem?_getD, hc] at h
    exact h
  have hd' : d = P2.emb ⟨100/3, 100/3⟩ := by
    have : (lazyTriCenters.map P2.emb)[0]? = some (P2.emb ⟨100/3, 100/3⟩) := rfl
    rw [hd] at this
    exact Option.some.inj this
  rw [hd']
  exact key j hj c hc

/-! ## C73 -/

section
variable {K : Type}

/-- `t` is the triangle spanned by the nodes of the cell in the positions `m`. -/
def TriOfCell (coords : List (P2 K)) (cell m : List Nat) (t : Tri K) : Prop :=
  ∃ a b c na nb nc, m = [a, b, c] ∧ cell[a]? = some na ∧ cell[b]? = some nb ∧ cell[c]? = some nc ∧
    coords[na]? = some t.p1 ∧ coords[nb]? = some t.p2 ∧ coords[nc]? = some t.p3

end

section
variable {K : Type} [Field K] [LinearOrder K] [IsStrictOrderedRing K]

omit [Field K] [LinearOrder K] [IsStrictOrderedRing K] in
theorem triOfCell_iff {coords : List (P2 K)} {cell m : List Nat} {t : Tri K} (hm : ∀ q ∈ m, q < cell.length) :
    triOf coords (m.map fun q => cell.getD q 0) = some t ↔ TriOfCell coords cell m t := by
  have hg : ∀ q ∈ m, cell[q]? = some (cell.getD q 0) := fun q hq => by
    simp [List.getD_eq_getElem?_getD, List.getElem?_eq_getElem (hm q hq)]
  rw [triOf_some]
  constructor
  · rintro ⟨a, b, c, e, h1, h2, h3⟩
    match m, e with
    | [x, y, z], e =>
      simp only [List.map_cons, List.map_nil, List.cons.injEq, and_true] at e
      obtain ⟨rfl, rfl, rfl⟩ := e
      exact ⟨x, y, z, _, _, _, rfl, hg x (by simp), hg y (by simp), hg z (by simp), h1, h2, h3⟩
  · rintro ⟨a, b, c, na, nb, nc, rfl, e1, e2, e3, h1, h2, h3⟩
    refine ⟨na, nb, nc, ?_, h1, h2, h3⟩
    simp [List.getD_eq_getElem?_getD, e1, e2, e3]

omit [LinearOrder K] [IsStrictOrderedRing K] in
theorem tetOfCell_iff {coords : List (V3 K)} {cell m : List Nat} {t : Tet K} (hm : ∀ q ∈ m, q < cell.length) :
    tetOf coords (m.map fun q => cell.getD q 0) = some t ↔ TetOfCell coords cell m t := by
  have hg : ∀ q ∈ m, cell[q]? = some (cell.getD q 0) := fun q hq => by
    simp [List.getD_eq_getElem?_getD, List.getElem?_eq_getElem (hm q hq)]
  rw [tetOf_some]
  constructor
  · rintro ⟨a, b, c, d, e, h1, h2, h3, h4⟩
    match m, e with
    | [x, y, z, w], e =>
      simp only [List.map_cons, List.map_nil, List.cons.injEq, and_true] at e
      obtain ⟨rfl, rfl, rfl, rfl⟩ := e
      exact ⟨x, y, z, w, _, _, _, _, rfl, hg x (by simp), hg y (by simp), hg z (by simp), hg w (by simp), h1, h2, h3, h4⟩
  · rintro ⟨a, b, c, d, na, nb, nc, nd, rfl, e1, e2, e3, e4, h1, h2, h3, h4⟩
    refine ⟨na, nb, nc, nd, ?_, h1, h2, h3, h4⟩
    simp [List.getD_eq_getElem?_getD, e1, e2, e3, e4]

omit [Field K] [LinearOrder K] [IsStrictOrderedRing K] in
/-- The simplices of the cells, as a list: for any function `of` that makes simplices of rows. -/
theorem simplices_exist {σ : Type} {of : List Nat → Option σ} {topo path : Topo} {n N : Nat} (hp : PathOK topo path n)
    (hnode : ∀ cell ∈ topo, ∀ k ∈ cell, k < N) (hof : ∀ row : List Nat, row.length = n → (∀ k ∈ row, k < N) → ∃ t, of row = some t) :
    transformTopology topo path n 0 = some (transformed topo path 0) ∧
    ∃ ts, (transformed topo path 0).mapM of = some ts ∧ ts.length = topo.length * path.length ∧
      ∀ t, t ∈ ts ↔ ∃ cell ∈ topo, ∃ m ∈ path, of (m.map fun q => cell.getD q 0) = some t := by
  have hmem : ∀ row, row ∈ transformed topo path 0 ↔ ∃ cell ∈ topo, ∃ m ∈ path, row = m.map fun q => cell.getD q 0 := by
    intro row
    simp only [transformed, List.mem_flatMap, List.mem_map]
    constructor
    · rintro ⟨c, h1, m, h2, rfl⟩; exact ⟨c, h1, m, h2, rfl⟩
    · rintro ⟨c, h1, m, h2, rfl⟩; exact ⟨c, h1, m, h2, rfl⟩
  refine ⟨transformResult_eq hp 0 fun _ => mem_transformWrites, ?_⟩
  obtain ⟨ts, h1, h2, -⟩ := mapM_exists (f := of) (l := transformed topo path 0) (P := fun _ _ _ => True) (by
    intro i row hi
    obtain ⟨cell, hc, m, hm, rfl⟩ := (hmem row).1 (List.mem_of_getElem? hi)
    obtain ⟨t, ht⟩ := hof (m.map fun q => cell.getD q 0) (by rw [List.length_map, hp.rect m hm]) (by
      intro k hk
      obtain ⟨q, hq, rfl⟩ := List.mem_map.1 hk
      have hlt := hp.inside cell hc m hm q hq
      refine hnode cell hc _ ?_
      rw [List.getD_eq_getElem?_getD, List.getElem?_eq_getElem hlt]
      exact List.getElem_mem hlt)
    exact ⟨t, ht, trivial⟩)
  refine ⟨ts, h1, by rw [h2, length_transformed, Nat.mul_comm], fun t => ⟨fun ht => ?_, ?_⟩⟩
  · obtain ⟨k, hk⟩ := List.getElem?_of_mem ht
    have hkl : k < (transformed topo path 0).length := by rw [← h2]; exact (List.getElem?_eq_some_iff.1 hk).1
    obtain ⟨t', e1, e2⟩ := mapM_get h1 (List.getElem?_eq_getElem hkl)
    rw [hk] at e2
    obtain rfl := Option.some.inj e2
    obtain ⟨cell, hc, m, hm, e⟩ := (hmem _).1 (List.getElem_mem hkl)
    rw [e] at e1
    exact ⟨cell, hc, m, hm, e1⟩
  · rintro ⟨cell, hc, m, hm, ht⟩
    obtain ⟨k, hk⟩ := List.getElem?_of_mem ((hmem _).2 ⟨cell, hc, m, hm, rfl⟩)
    obtain ⟨t', e1, e2⟩ := mapM_get h1 hk
    rw [ht] at e1
    obtain rfl := Option.some.inj e1
    exact List.mem_of_getElem? e2

/-- **C73** for plane cells whose triangles are counter-clockwise: with tolerance 0 the answer is whether the point is inside one of
the triangles; with a positive tolerance every point of a cell is found, and what is found lies in a cell up to the tolerance. -/
theorem C73_plane {coords : List (P2 K)} {topo trimap : Topo} (hp : PathOK topo trimap 3)
    (hnode : ∀ cell ∈ topo, ∀ k ∈ cell, k < coords.length)
    (hccw : ∀ cell ∈ topo, ∀ m ∈ trimap, ∀ t, TriOfCell coords cell m t → Ccw t) (tol : K) (x : List (P2 K)) :
    ∃ r, pipCells2d coords topo trimap tol x = some r ∧ r.length = x.length ∧
      ∀ (i : Nat) (p : P2 K), x[i]? = some p → ∃ b, r[i]? = some b ∧
        (b = true → ∃ cell ∈ topo, ∃ m ∈ trimap, ∃ t n, TriOfCell coords cell m t ∧ IsNat t p n ∧ -tol < n.n1 ∧ -tol < n.n2 ∧ -tol < n.n3) ∧
        (0 < tol → (∃ cell ∈ topo, ∃ m ∈ trimap, ∃ t, TriOfCell coords cell m t ∧ InTri t p) → b = true) ∧
        (tol = 0 → (b = true ↔ ∃ cell ∈ topo, ∃ m ∈ trimap, ∃ t, TriOfCell coords cell m t ∧ InsideTri t p)) := by
  obtain ⟨h1, ts, h2, -, h4⟩ := simplices_exist (of := triOf coords) hp hnode fun row hl hk => triOf_exists hl hk
  have hts : ∀ t, t ∈ ts ↔ ∃ cell ∈ topo, ∃ m ∈ trimap, TriOfCell coords cell m t := by
    intro t
    rw [h4]
    constructor
    · rintro ⟨cell, hc, m, hm, h⟩
      exact ⟨cell, hc, m, hm, (triOfCell_iff (hp.inside cell hc m hm)).1 h⟩
    · rintro ⟨cell, hc, m, hm, h⟩
      exact ⟨cell, hc, m, hm, (triOfCell_iff (hp.inside cell hc m hm)).2 h⟩
  refine ⟨(pipTriBulk tol x ts).map fun r => r.any id, by simp only [pipCells2d, h1, h2, Option.bind_some, Option.map_some],
    by simp [pipTriBulk], fun i p hi => ⟨(ts.map fun t => pipTri tol (globToNatTri p t)).any id, ?_, ?_, ?_, ?_⟩⟩
  · simp [pipTriBulk, hi]
  · intro hb
    obtain ⟨b, hb1, hb2⟩ := List.any_eq_true.1 hb
    obtain ⟨t, ht, rfl⟩ := List.mem_map.1 hb1
    obtain ⟨cell, hc, m, hm, htc⟩ := (hts t).1 ht
    obtain ⟨n, hn⟩ := (C29_pip_partial (hccw cell hc m hm t htc) p).2.2.1 tol hb2
    exact ⟨cell, hc, m, hm, t, n, htc, hn⟩
  · rintro htol ⟨cell, hc, m, hm, t, htc, hin⟩
    refine List.any_eq_true.2 ⟨_, List.mem_map.2 ⟨t, (hts t).2 ⟨cell, hc, m, hm, htc⟩, rfl⟩, ?_⟩
    exact (C29_pip_partial (hccw cell hc m hm t htc) p).2.1 tol htol hin
  · rintro rfl
    constructor
    · intro hb
      obtain ⟨b, hb1, hb2⟩ := List.any_eq_true.1 hb
      obtain ⟨t, ht, rfl⟩ := List.mem_map.1 hb1
      obtain ⟨cell, hc, m, hm, htc⟩ := (hts t).1 ht
      exact ⟨cell, hc, m, hm, t, htc, (C29_pip_partial (hccw cell hc m hm t htc) p).1.1 hb2⟩
    · rintro ⟨cell, hc, m, hm, t, htc, hin⟩
      refine List.any_eq_true.2 ⟨_, List.mem_map.2 ⟨t, (hts t).2 ⟨cell, hc, m, hm, htc⟩, rfl⟩, ?_⟩
      exact (C29_pip_partial (hccw cell hc m hm t htc) p).1.2 hin

/-- **C73** for solid cells with `lazy=False`. -/
theorem C73_solid {coords : List (V3 K)} {topo tetmap : Topo} (hp : PathOK topo tetmap 4)
    (hnode : ∀ cell ∈ topo, ∀ k ∈ cell, k < coords.length)
    (hv : ∀ cell ∈ topo, ∀ m ∈ tetmap, ∀ t, TetOfCell coords cell m t → volTet t ≠ 0) (tol : K) (x : List (V3 K)) :
    ∃ r, pipCells3dAll coords topo tetmap tol x = some r ∧ r.length = x.length ∧
      ∀ (i : Nat) (p : V3 K), x[i]? = some p → ∃ b, r[i]? = some b ∧
        (b = true → ∃ cell ∈ topo, ∃ m ∈ tetmap, ∃ t n, TetOfCell coords cell m t ∧ IsNat4 t p n ∧
          -tol < n.n1 ∧ -tol < n.n2 ∧ -tol < n.n3 ∧ -tol < n.n4) ∧
        (0 < tol → (∃ cell ∈ topo, ∃ m ∈ tetmap, ∃ t, TetOfCell coords cell m t ∧ Hull t.corners p) → b = true) ∧
        (tol = 0 → (b = true ↔ ∃ cell ∈ topo, ∃ m ∈ tetmap, ∃ t, TetOfCell coords cell m t ∧ OpenHull t.corners p)) := by
  obtain ⟨h1, ts, h2, h3, h4⟩ := simplices_exist (of := tetOf coords) hp hnode fun row hl hk => tetOfPoints_exists hl hk
  have hts : ∀ t, t ∈ ts ↔ ∃ cell ∈ topo, ∃ m ∈ tetmap, TetOfCell coords cell m t := by
    intro t
    rw [h4]
    constructor
    · rintro ⟨cell, hc, m, hm, h⟩
      exact ⟨cell, hc, m, hm, (tetOfCell_iff (hp.inside cell hc m hm)).1 h⟩
    · rintro ⟨cell, hc, m, hm, h⟩
      exact ⟨cell, hc, m, hm, (tetOfCell_iff (hp.inside cell hc m hm)).2 h⟩
  have hall : ∀ p : V3 K, (List.range (topo.length * tetmap.length)).mapM (fun k => (ts[k]?).map fun t => globToNatTet p t) =
      some (ts.map fun t => globToNatTet p t) := by
    intro p
    rw [← h3, mapM_some (g := fun k => globToNatTet p (ts.getD k ⟨0, 0, 0, 0⟩)) fun k hk => by
      have := List.mem_range.1 hk
      simp [List.getD_eq_getElem?_getD, List.getElem?_eq_getElem this]]
    congr 1
    refine List.ext_getElem (by simp) fun k hk hk' => ?_
    have : k < ts.length := by simpa using hk
    simp [List.getD_eq_getElem?_getD, List.getElem?_eq_getElem this]
  have hnat : natTable ts (x.map fun _ => List.range (topo.length * tetmap.length)) x =
      some (x.map fun p => ts.map fun t => globToNatTet p t) := by
    unfold natTable
    rw [mapM_some (g := fun q : V3 K × List Nat => ts.map fun t => globToNatTet q.1 t) fun q hq => by
      have := (List.of_mem_zip hq).2
      obtain ⟨_, _, e⟩ := List.mem_map.1 this
      rw [← e]
      exact hall q.1]
    congr 1
    refine List.ext_getElem (by simp) fun k hk hk' => by simp
  refine ⟨(x.map fun p => ts.map fun t => globToNatTet p t).map fun ns => (ns.map (pipTet tol)).any id,
    by simp only [pipCells3dAll, pipCells3d, h1, h2, hnat, Option.bind_some, Option.map_some],
    by simp, fun i p hi => ⟨((ts.map fun t => globToNatTet p t).map (pipTet tol)).any id, ?_, ?_, ?_, ?_⟩⟩
  · simp [hi]
  · intro hb
    obtain ⟨b, hb1, hb2⟩ := List.any_eq_true.1 hb
    obtain ⟨n, hn, rfl⟩ := List.mem_map.1 hb1
    obtain ⟨t, ht, rfl⟩ := List.mem_map.1 hn
    obtain ⟨cell, hc, m, hm, htc⟩ := (hts t).1 ht
    obtain ⟨n, hn⟩ := (C30_pip_partial (hv cell hc m hm t htc) p).2.2.1 tol hb2
    exact ⟨cell, hc, m, hm, t, n, htc, hn⟩
  · rintro htol ⟨cell, hc, m, hm, t, htc, hin⟩
    refine List.any_eq_true.2 ⟨_, List.mem_map.2 ⟨_, List.mem_map.2 ⟨t, (hts t).2 ⟨cell, hc, m, hm, htc⟩, rfl⟩, rfl⟩, ?_⟩
    exact (C30_pip_partial (hv cell hc m hm t htc) p).2.1 tol htol hin
  · rintro rfl
    constructor
    · intro hb
      obtain ⟨b, hb1, hb2⟩ := List.any_eq_true.1 hb
      obtain ⟨n, hn, rfl⟩ := List.mem_map.1 hb1
      obtain ⟨t, ht, rfl⟩ := List.mem_map.1 hn
      obtain ⟨cell, hc, m, hm, htc⟩ := (hts t).1 ht
      exact ⟨cell, hc, m, hm, t, htc, (C30_pip_partial (hv cell hc m hm t htc) p).1.1 hb2⟩
    · rintro ⟨cell, hc, m, hm, t, htc, hin⟩
      refine List.any_eq_true.2 ⟨_, List.mem_map.2 ⟨_, List.mem_map.2 ⟨t, (hts t).2 ⟨cell, hc, m, hm, htc⟩, rfl⟩, rfl⟩, ?_⟩
      exact (C30_pip_partial (hv cell hc m hm t htc) p).1.2 hin

end

/-- **C73** is false for clockwise cells. -/
theorem C73_clockwise_false : pipCells2d ([⟨0, 0⟩, ⟨0, 1⟩, ⟨1, 0⟩] : List (P2 ℚ)) [[0, 1, 2]] [[0, 1, 2]] (1 / 10 ^ 12) [⟨1 / 4, 1 / 4⟩] =
    some [false] ∧ InTri (⟨⟨0, 0⟩, ⟨0, 1⟩, ⟨1, 0⟩⟩ : Tri ℚ) ⟨1 / 4, 1 / 4⟩ :=
  ⟨by decide +kernel, ⟨1 / 2, 1 / 4, 1 / 4⟩, ⟨by norm_num, by norm_num, by norm_num⟩, by norm_num⟩

/-- **C73** is false on sides for tolerance 0. -/
theorem C73_boundary_false : pipCells2d ([⟨0, 0⟩, ⟨2, 0⟩, ⟨2, 2⟩, ⟨0, 2⟩] : List (P2 ℚ)) [[0, 1, 2, 3]] [[0, 1, 2], [0, 2, 3]] 0 [⟨1, 1⟩] =
    some [false] := by decide +kernel

/-- **C73** is false for the default search among the four nearest centres, see `C47_lazy_false` for the cells and the centres. -/
theorem C73_lazy_false : Hull (⟨⟨0, 0, 0⟩, ⟨100, 0, 0⟩, ⟨0, 100, 0⟩, ⟨0, 0, 100⟩⟩ : Tet ℚ).corners ⟨1, 1, 1⟩ ∧
    IsKNearest lazyCenters ⟨1, 1, 1⟩ 4 [1, 2, 3, 4] ∧
    pipCells3d lazyCoords lazyTopo [[0, 1, 2, 3]] [[1, 2, 3, 4]] (1 / 10 ^ 12) [⟨1, 1, 1⟩] = some [false] ∧
    pipCells3dAll lazyCoords lazyTopo [[0, 1, 2, 3]] (1 / 10 ^ 12) [⟨1, 1, 1⟩] = some [true] :=
  ⟨C47_lazy_false.1, C47_lazy_false.2.2.2.1, by decide +kernel, by decide +kernel⟩

/-- A square cell of two triangles. -/
example : PathOK [[0, 1, 2, 3]] [[0, 1, 2], [0, 2, 3]] 3 ∧
    pipCells2d ([⟨0, 0⟩, ⟨2, 0⟩, ⟨2, 2⟩, ⟨0, 2⟩] : List (P2 ℚ)) [[0, 1, 2, 3]] [[0, 1, 2], [0, 2, 3]] (1 / 10 ^ 12)
      [⟨1, 1⟩, ⟨3, 1⟩, ⟨0, 1⟩] = some [true, false, true] :=
  ⟨⟨by decide, by decide⟩, by decide +kernel⟩

end PM
