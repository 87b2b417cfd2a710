import Verif.PropsKnn
import Verif.PropsLocateTri
import Verif.PropsSimplices
/-!
C47, C73: what the default search (`lazy=True`) among the nearest centres finds, exactly: the points that are in a candidate. In terms of
the points alone: which points are found and which are missed, whatever the tree does with ties.
-/
namespace PM

open V3

section
variable {K : Type} [Field K] [LinearOrder K] [IsStrictOrderedRing K]

/-- The tetrahedron of number `τ`: the rows of the map are used for one cell after the other. -/
def TetNumber (coords : List (V3 K)) (topo tetmap : Topo) (τ : Nat) (t : Tet K) : Prop :=
  ∃ (c s : Nat) (cell m : List Nat), τ = c * tetmap.length + s ∧ topo[c]? = some cell ∧ tetmap[s]? = some m ∧ TetOfCell coords cell m t

/-- The point is in the tetrahedron up to the tolerance: its natural coordinates are between `-tol` and `1 + tol`. -/
def CloseIn (tol : K) (t : Tet K) (p : V3 K) : Prop := ∃ n, IsNat4 t p n ∧ (-tol < n.n1 ∧ -tol < n.n2 ∧ -tol < n.n3 ∧ -tol < n.n4) ∧
  (n.n1 < 1 + tol ∧ n.n2 < 1 + tol ∧ n.n3 < 1 + tol ∧ n.n4 < 1 + tol)

theorem closeIn_iff {tol : K} {t : Tet K} (h : volTet t ≠ 0) (p : V3 K) : pipTet tol (globToNatTet p t) = true ↔ CloseIn tol t p := by
  have hn := C30_glob_to_nat h p
  constructor
  · intro hp
    simp only [pipTet, Bool.and_eq_true, decide_eq_true_eq] at hp
    exact ⟨_, hn, ⟨hp.1.1.1.1, hp.1.1.1.2, hp.1.1.2, hp.1.2⟩, hp.2.1.1.1, hp.2.1.1.2, hp.2.1.2, hp.2.2⟩
  · rintro ⟨n, h1, h2, h3⟩
    obtain rfl := C30_unique h h1 hn
    simp only [pipTet, Bool.and_eq_true, decide_eq_true_eq]
    exact ⟨⟨⟨⟨h2.1, h2.2.1⟩, h2.2.2.1⟩, h2.2.2.2⟩, ⟨⟨h3.1, h3.2.1⟩, h3.2.2.1⟩, h3.2.2.2⟩

omit [LinearOrder K] [IsStrictOrderedRing K] in
theorem tets_number {coords : List (V3 K)} {topo tetmap tt : Topo} {tets : List (Tet K)} (h1 : toTetRows topo tetmap = some tt)
    (h2 : tt.mapM (tetOf coords) = some tets) (τ : Nat) (t : Tet K) : tets[τ]? = some t ↔ TetNumber coords topo tetmap τ t := by
  obtain ⟨hlen, hrows⟩ := toTetRows_get h1
  constructor
  · intro ht
    have hτ : τ < topo.length * tetmap.length := by
      rw [← hlen, ← mapM_length h2]; exact (List.getElem?_eq_some_iff.1 ht).1
    have hm0 : 0 < tetmap.length := Nat.pos_of_mul_pos_left (lt_of_le_of_lt (Nat.zero_le _) hτ)
    have hc : τ / tetmap.length < topo.length := Nat.div_lt_of_lt_mul (by rwa [Nat.mul_comm])
    have hs : τ % tetmap.length < tetmap.length := Nat.mod_lt _ hm0
    have e : τ = τ / tetmap.length * tetmap.length + τ % tetmap.length := by
      rw [Nat.mul_comm]; exact (Nat.div_add_mod _ _).symm
    obtain ⟨row, r1, r2⟩ := hrows _ _ _ _ (List.getElem?_eq_getElem hc) (List.getElem?_eq_getElem hs)
    rw [← e] at r1
    obtain ⟨t', g1, g2⟩ := mapM_get h2 r1
    rw [ht] at g2
    obtain rfl := Option.some.inj g2
    exact ⟨_, _, _, _, e, List.getElem?_eq_getElem hc, List.getElem?_eq_getElem hs, tetOf_gather r2 g1⟩
  · rintro ⟨c, s, cell, m, rfl, hc, hs, ht⟩
    obtain ⟨row, r1, r2⟩ := hrows c s cell m hc hs
    obtain ⟨row', r3, r4⟩ := tetOfCell_gather ht
    rw [r2] at r3
    obtain rfl := Option.some.inj r3
    obtain ⟨t', g1, g2⟩ := mapM_get h2 r1
    rw [r4] at g1
    obtain rfl := Option.some.inj g1
    exact g2

/-- The tetrahedra have volumes. -/
def Solid (coords : List (V3 K)) (topo tetmap : Topo) : Prop := ∀ τ t, TetNumber coords topo tetmap τ t → volTet t ≠ 0

/-- **C47.** For any candidates: a point is located if and only if it is in one of its candidates (up to the tolerance). -/
theorem C47_found_exact {sched : List (Nat × Nat) → List (Nat × Nat)} (hs : ∀ w : List (Nat × Nat), w.Perm (sched w)) {coords : List (V3 K)}
    {topo tetmap : Topo} {lcoords : List (V3 K)} {nb : List (List Nat)} {tol : K} {x : List (V3 K)}
    {r : List (Nat × Nat × V3 K)} (hr : locate sched coords topo tetmap lcoords nb tol x = some r) (hv : Solid coords topo tetmap)
    {i : Nat} {p : V3 K} {row : List Nat} (hp : x[i]? = some p) (hrow : nb[i]? = some row) :
    (∃ c loc, (i, c, loc) ∈ r) ↔ ∃ τ ∈ row, ∃ t, TetNumber coords topo tetmap τ t ∧ CloseIn tol t p := by
  obtain ⟨tt, tets, nat, h1, h2, h3, h4, h5⟩ := locate_mem hs hr
  unfold natTable at h3
  have hz : (x.zip nb)[i]? = some (p, row) := List.getElem?_zip_eq_some.2 ⟨hp, hrow⟩
  obtain ⟨ns, e1, e2⟩ := mapM_get h3 hz
  constructor
  · rintro ⟨c, loc, hm⟩
    obtain ⟨j, ns', n, g1, g2, g3, -⟩ := h4 i c loc hm
    rw [e2] at g1
    obtain rfl := Option.some.inj g1
    have hj : j < row.length := by rw [← mapM_length e1]; exact (List.getElem?_eq_some_iff.1 g2).1
    obtain ⟨n', f1, f2⟩ := mapM_get e1 (List.getElem?_eq_getElem hj)
    rw [g2] at f2
    obtain rfl := Option.some.inj f2
    obtain ⟨t, ht, rfl⟩ := Option.map_eq_some_iff.1 f1
    have hT := (tets_number h1 h2 _ _).1 ht
    exact ⟨_, List.getElem_mem hj, t, hT, (closeIn_iff (hv _ _ hT) p).1 g3⟩
  · rintro ⟨τ, hτ, t, hT, hc⟩
    obtain ⟨j, hj⟩ := List.getElem?_of_mem hτ
    obtain ⟨n', f1, f2⟩ := mapM_get e1 hj
    rw [(tets_number h1 h2 _ _).2 hT] at f1
    obtain rfl := Option.some.inj f1
    exact h5 i ns _ e2 (List.mem_of_getElem? f2) ((closeIn_iff (hv _ _ hT) p).2 hc)

/-- `C` lists the centres of the tetrahedra, from which the tree is made (cell.py 1012). -/
def CentresOf (coords : List (V3 K)) (topo tetmap : Topo) (C : List (V3 K)) : Prop :=
  C.length = topo.length * tetmap.length ∧ ∀ τ t, TetNumber coords topo tetmap τ t →
    C[τ]? = some ((1 / 4 : K) • (t.p0 + (t.p1 + (t.p2 + t.p3))))

/-- What the tree answers for the points `x`. -/
def AnswersFor (C x : List (V3 K)) (k : Nat) (rows : List (List Nat)) : Prop :=
  ∀ (i : Nat) (p : V3 K), x[i]? = some p → ∃ row, rows[i]? = some row ∧ IsQueryRow C p k row

/-- **C47.** The default search, in terms of the points alone: a point is located if it is in a tetrahedron with at most `k` centres as close as
its own; it is missed if all tetrahedra that hold it have `k` closer centres. -/
theorem C47_lazy_exact {sched : List (Nat × Nat) → List (Nat × Nat)} (hs : ∀ w : List (Nat × Nat), w.Perm (sched w)) {coords : List (V3 K)}
    {topo tetmap : Topo} {lcoords : List (V3 K)} {tol : K} {x : List (V3 K)} {k : Nat} (hk : 2 ≤ k) (hn : 2 ≤ topo.length * tetmap.length)
    {query : Nat → List (List Nat)} {C : List (V3 K)} (hC : CentresOf coords topo tetmap C)
    (hq : AnswersFor C x (min k (topo.length * tetmap.length)) (query (min k (topo.length * tetmap.length))))
    {r : List (Nat × Nat × V3 K)} (hr : locateLazy sched coords topo tetmap lcoords tol k query x = some r) (hv : Solid coords topo tetmap)
    {i : Nat} {p : V3 K} (hp : x[i]? = some p) :
    ((∃ τ t q, TetNumber coords topo tetmap τ t ∧ CloseIn tol t p ∧ C[τ]? = some q ∧ withinCount C p q ≤ k) → ∃ c loc, (i, c, loc) ∈ r) ∧
    ((∀ τ t q, TetNumber coords topo tetmap τ t → CloseIn tol t p → C[τ]? = some q → k ≤ closerCount C p q) → ¬ ∃ c loc, (i, c, loc) ∈ r) := by
  rw [C47_lazy_eq _ _ _ _ _ _ hk hn] at hr
  set n := topo.length * tetmap.length with hndef
  obtain ⟨row, hrow, near, hnear, hrw⟩ := hq i p hp
  have hCl := hC.1
  have e1 : min k n - C.length = 0 := by omega
  rw [e1, List.replicate_zero, List.append_nil] at hrw
  subst hrw
  have e2 : min (min k n) C.length = min k n := by omega
  rw [e2] at hnear
  have hfound := C47_found_exact hs hr hv hp hrow
  constructor
  · rintro ⟨τ, t, q, hT, hc, hq, hw⟩
    refine hfound.2 ⟨τ, hnear.mem hq ?_, t, hT, hc⟩
    have : withinCount C p q ≤ C.length := List.countP_le_length
    omega
  · intro h hex
    obtain ⟨τ, hτ, t, hT, hc⟩ := hfound.1 hex
    have hq := hC.2 τ t hT
    have h1 := h τ t _ hT hc hq
    have h2 := hnear.closer hτ hq
    omega

/-- **C47.** In particular the default search finds all points of blocks with two to `k` tetrahedra. -/
theorem C47_lazy_few {sched : List (Nat × Nat) → List (Nat × Nat)} (hs : ∀ w : List (Nat × Nat), w.Perm (sched w)) {coords : List (V3 K)}
    {topo tetmap : Topo} {lcoords : List (V3 K)} {tol : K} (htol : 0 < tol) {x : List (V3 K)} {k : Nat} (hn : 2 ≤ topo.length * tetmap.length)
    (hk : topo.length * tetmap.length ≤ k) {query : Nat → List (List Nat)} {C : List (V3 K)} (hC : CentresOf coords topo tetmap C)
    (hq : AnswersFor C x (topo.length * tetmap.length) (query (topo.length * tetmap.length)))
    {r : List (Nat × Nat × V3 K)} (hr : locateLazy sched coords topo tetmap lcoords tol k query x = some r) (hv : Solid coords topo tetmap)
    {i : Nat} {p : V3 K} (hp : x[i]? = some p) {τ : Nat} {t : Tet K} (hT : TetNumber coords topo tetmap τ t) (hin : Hull t.corners p) :
    ∃ c loc, (i, c, loc) ∈ r := by
  have e : min k (topo.length * tetmap.length) = topo.length * tetmap.length := by omega
  refine (C47_lazy_exact hs (by omega) hn hC (by rwa [e]) hr hv hp).1 ⟨τ, t, _, hT, ?_, hC.2 τ t hT, ?_⟩
  · exact (closeIn_iff (hv τ t hT) p).1 ((C30_pip_partial (hv τ t hT) p).2.1 tol htol hin)
  · refine le_trans List.countP_le_length ?_
    rw [hC.1]; exact hk

theorem transformTopology_eq_rows {topo tetmap : Topo} (hp : PathOK topo tetmap 4) : transformTopology topo tetmap 4 0 = toTetRows topo tetmap := by
  rw [transformTopology_eq hp]
  unfold toTetRows transformed
  symm
  have : (topo.flatMap fun cell => tetmap.map fun m => gather? cell m) =
      (topo.flatMap fun cell => tetmap.map fun m => m.map fun q => cell.getD q 0).map some := by
    rw [List.map_flatMap]
    apply List.flatMap_congr
    intro cell hc
    rw [List.map_map]
    apply List.map_congr_left
    intro m hm
    unfold gather?
    apply mapM_some
    intro q hq
    have := hp.2 cell hc m hm q hq
    simp [List.getD_eq_getElem?_getD, List.getElem?_eq_getElem this]
  rw [this, mapM_map']
  rw [mapM_some (g := id)]
  · simp
  · intro r _; rfl

/-- **C73.** For any candidates: a point is reported to be inside if and only if it is in one of its candidates. -/
theorem C73_found_exact {coords : List (V3 K)} {topo tetmap : Topo} (hp : PathOK topo tetmap 4) {nb : List (List Nat)} {tol : K}
    {x : List (V3 K)} {A : List Bool} (hA : pipCells3d coords topo tetmap nb tol x = some A) (hv : Solid coords topo tetmap) {i : Nat} {p : V3 K}
    {row : List Nat} (hx : x[i]? = some p) (hrow : nb[i]? = some row) :
    ∃ a, A[i]? = some a ∧ (a = true ↔ ∃ τ ∈ row, ∃ t, TetNumber coords topo tetmap τ t ∧ CloseIn tol t p) := by
  unfold pipCells3d at hA
  rw [transformTopology_eq_rows hp] at hA
  simp only [Option.bind_eq_some_iff, Option.map_eq_some_iff] at hA
  obtain ⟨tt, h1, tets, h2, nat, h3, rfl⟩ := hA
  unfold natTable at h3
  have hz : (x.zip nb)[i]? = some (p, row) := List.getElem?_zip_eq_some.2 ⟨hx, hrow⟩
  obtain ⟨ns, e1, e2⟩ := mapM_get h3 hz
  refine ⟨(ns.map (pipTet tol)).any id, by simp [e2], ?_⟩
  simp only [List.any_map, List.any_eq_true, Function.comp, id]
  constructor
  · rintro ⟨n, hn, hp⟩
    obtain ⟨j, hj⟩ := List.getElem?_of_mem hn
    have hjl : j < row.length := by rw [← mapM_length e1]; exact (List.getElem?_eq_some_iff.1 hj).1
    obtain ⟨n', f1, f2⟩ := mapM_get e1 (List.getElem?_eq_getElem hjl)
    rw [hj] at f2
    obtain rfl := Option.some.inj f2
    obtain ⟨t, ht, rfl⟩ := Option.map_eq_some_iff.1 f1
    have hT := (tets_number h1 h2 _ _).1 ht
    exact ⟨_, List.getElem_mem hjl, t, hT, (closeIn_iff (hv _ _ hT) p).1 hp⟩
  · rintro ⟨τ, hτ, t, hT, hc⟩
    obtain ⟨j, hj⟩ := List.getElem?_of_mem hτ
    obtain ⟨n', f1, f2⟩ := mapM_get e1 hj
    rw [(tets_number h1 h2 _ _).2 hT] at f1
    obtain rfl := Option.some.inj f1
    exact ⟨_, List.mem_of_getElem? f2, (closeIn_iff (hv _ _ hT) p).2 hc⟩

/-- **C69.** For any candidates and counter-clockwise triangles: a point is reported if and only if it is in one of its candidates. -/
theorem C69_found_exact {sched : List (Nat × Nat) → List (Nat × Nat)} (hs : ∀ w : List (Nat × Nat), w.Perm (sched w))
    {coords : List (P2 K)} {triangles trimap : Topo} {nb : List (List Nat)} {tol : K} {x : List (P2 K)} {r : List (Nat × Nat × P2 K)}
    (hr : locateTri sched coords triangles trimap nb tol x = some r) (hccw : ∀ row ∈ triangles, ∀ t, TriOfPoints coords row t → Ccw t)
    {i : Nat} {p : P2 K} {row : List Nat} (hp : x[i]? = some p) (hrow : nb[i]? = some row) :
    (∃ c loc, (i, c, loc) ∈ r) ↔ ∃ τ ∈ row, ∃ nodes t n, triangles[τ]? = some nodes ∧ TriOfPoints coords nodes t ∧ IsNat t p n ∧
      (-tol < n.n1 ∧ -tol < n.n2 ∧ -tol < n.n3) ∧ (n.n1 < 1 + tol ∧ n.n2 < 1 + tol ∧ n.n3 < 1 + tol) := by
  unfold locateTri at hr
  simp only [Option.bind_eq_some_iff] at hr
  obtain ⟨tris, h1, nat, h2, h3⟩ := hr
  have hmem := searchHits_mem hs h3
  have hone : ∀ {i j : Nat} {y : Nat × Nat × P2 K}, locateTriOne trimap nb nat i j = some y → y.1 = i := by
    intro i j y hy
    unfold locateTriOne at hy
    simp only [Option.bind_eq_some_iff, Option.map_eq_some_iff] at hy
    obtain ⟨_, _, _, _, _, _, _, _, _, _, _, _, rfl⟩ := hy
    rfl
  constructor
  · rintro ⟨c, loc, hm⟩
    obtain ⟨i', j, pr, e1, e2, e3⟩ := hmem.1 _ hm
    obtain rfl : i = i' := hone e3
    rw [List.getElem?_map] at e1
    obtain ⟨ns, hns, rfl⟩ := Option.map_eq_some_iff.1 e1
    rw [List.getElem?_map] at e2
    obtain ⟨n, hn, hpn⟩ := Option.map_eq_some_iff.1 e2
    obtain ⟨p', row', τ, t, f1, f2, f3, f4, rfl⟩ := natTableTri_get h2 hns hn
    rw [hp] at f1
    rw [hrow] at f2
    obtain rfl := Option.some.inj f1
    obtain rfl := Option.some.inj f2
    have hτ : τ < triangles.length := by rw [← mapM_length h1]; exact (List.getElem?_eq_some_iff.1 f4).1
    obtain ⟨t', g1, g2⟩ := mapM_get h1 (List.getElem?_eq_getElem hτ)
    rw [f4] at g2
    obtain rfl := Option.some.inj g2
    have ht := triOf_some.1 g1
    obtain ⟨hnat, -, -⟩ := C28_glob_to_nat_partial (hccw _ (List.getElem_mem hτ) t ht) p
    simp only [pipTri, Bool.and_eq_true, decide_eq_true_eq] at hpn
    exact ⟨τ, List.mem_of_getElem? f3, _, t, _, List.getElem?_eq_getElem hτ, ht, hnat, ⟨hpn.1.1.1, hpn.1.1.2, hpn.1.2⟩,
      hpn.2.1.1, hpn.2.1.2, hpn.2.2⟩
  · rintro ⟨τ, hτ, nodes, t, n, hno, ht, hnat, hlo, hup⟩
    obtain ⟨j, hj⟩ := List.getElem?_of_mem hτ
    have hz : (x.zip nb)[i]? = some (p, row) := List.getElem?_zip_eq_some.2 ⟨hp, hrow⟩
    obtain ⟨ns, e1, e2⟩ := mapM_get h2 hz
    obtain ⟨n', f1, f2⟩ := mapM_get e1 hj
    obtain ⟨t', g1, g2⟩ := mapM_get h1 hno
    rw [triOf_some.2 ht] at g1
    obtain rfl := Option.some.inj g1
    rw [g2] at f1
    obtain rfl := Option.some.inj f1
    have hc := hccw _ (List.mem_of_getElem? hno) _ ht
    obtain ⟨hnat', -, -⟩ := C28_glob_to_nat_partial hc p
    obtain rfl : n = globToNatTri p t := C28_unique (ne_of_gt hc) hnat hnat'
    have := hmem.2 i (ns.map (pipTri tol)) (by rw [List.getElem?_map, e2]; rfl) (List.mem_map.2 ⟨_, List.mem_of_getElem? f2, by
      simp only [pipTri, Bool.and_eq_true, decide_eq_true_eq]
      exact ⟨⟨⟨hlo.1, hlo.2.1⟩, hlo.2.2⟩, ⟨hup.1, hup.2.1⟩, hup.2.2⟩⟩)
    obtain ⟨j', y, -, h6, h5⟩ := this
    obtain ⟨i', c, loc⟩ := y
    obtain rfl : i' = i := hone h6
    exact ⟨c, loc, h5⟩

end

/-! The case of `C47_lazy_false`: the point is in the first tetrahedron, with four closer centres; the fourth nearest tetrahedron is found. -/

example : closerCount lazyCenters ⟨1, 1, 1⟩ ⟨25, 25, 25⟩ = 4 ∧ lazyCenters[0]? = some ⟨25, 25, 25⟩ := by decide +kernel

example : TetNumber lazyCoords lazyTopo [[0, 1, 2, 3]] 0 ⟨⟨0, 0, 0⟩, ⟨100, 0, 0⟩, ⟨0, 100, 0⟩, ⟨0, 0, 100⟩⟩ :=
  ⟨0, 0, [0, 1, 2, 3], [0, 1, 2, 3], rfl, rfl, rfl, 0, 1, 2, 3, 0, 1, 2, 3, rfl, rfl, rfl, rfl, rfl, rfl, rfl, rfl, rfl⟩

end PM
