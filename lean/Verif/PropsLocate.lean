import Verif.Locate
import Verif.PropsTet
import Verif.PropsCollect
import Mathlib.Algebra.Order.Field.Rat

/-!
# First hits (C48), locating points (C47), points of selected cells (C53), evaluating positions (C54)
-/

namespace PM

/-! ## C48 -/

/-- Writes at one place leave one of the written values. -/
theorem runW_some {ι α : Type} [DecidableEq ι] (w : List (ι × α)) (m : ι → α) (p : ι) (h : ∃ x ∈ w, x.1 = p) :
    ∃ x ∈ w, x.1 = p ∧ runW w m p = x.2 := by
  induction w generalizing m with
  | nil => obtain ⟨x, hx, -⟩ := h; simp at hx
  | cons y w ih =>
    by_cases hw : ∃ x ∈ w, x.1 = p
    · obtain ⟨x, hx, h1, h2⟩ := ih (Function.update m y.1 y.2) hw
      exact ⟨x, List.mem_cons_of_mem _ hx, h1, h2⟩
    · push Not at hw
      have hy : y.1 = p := by
        obtain ⟨x, hx, h1⟩ := h
        rcases List.mem_cons.1 hx with rfl | hx
        · exact h1
        · exact absurd h1 (hw x hx)
      refine ⟨y, List.mem_cons_self, hy, ?_⟩
      show runW w (Function.update m y.1 y.2) p = y.2
      rw [runW_of_not_mem hw, ← hy]
      simp

theorem mem_hitWrites {pips : List (List Bool)} {i j : Nat} :
    (i, j) ∈ hitWrites pips ↔ ∃ r, pips[i]? = some r ∧ r[j]? = some true := by
  unfold hitWrites
  simp only [List.mem_flatMap, List.mem_map, List.mem_filter, Prod.mk.injEq, Prod.exists, List.mem_zipIdx_iff_getElem?]
  constructor
  · rintro ⟨r, i', h1, b, j', ⟨h2, h3⟩, rfl, rfl⟩
    exact ⟨r, h1, by rw [h2, h3]⟩
  · rintro ⟨r, h1, h2⟩
    exact ⟨r, i, h1, true, j, ⟨h2, rfl⟩, rfl, rfl⟩

/-- Whatever the order of the iterations: if the test of point `i` holds somewhere, an index is reported at which it holds.
Missing: the first one is not reported, and a point without hits is not marked. -/
theorem C48_partial (pips : List (List Bool)) (w : List (Nat × Nat)) (hw : (hitWrites pips).Perm w) :
    (hitsRun pips.length w).length = pips.length ∧
    ∀ (i : Nat) (r : List Bool), pips[i]? = some r → true ∈ r →
      ∃ j, (hitsRun pips.length w)[i]? = some j ∧ r[j]? = some true := by
  refine ⟨by simp [hitsRun], fun i r hi hr => ?_⟩
  obtain ⟨j0, hj0⟩ := List.getElem?_of_mem hr
  obtain ⟨⟨i', j⟩, hx, h1, h2⟩ := runW_some w (fun _ => 0) i
    ⟨(i, j0), hw.mem_iff.1 (mem_hitWrites.2 ⟨r, hi, hj0⟩), rfl⟩
  simp only at h1 h2
  subst h1
  obtain ⟨r', h3, h4⟩ := mem_hitWrites.1 (hw.mem_iff.2 hx)
  rw [hi] at h3
  obtain rfl := Option.some.inj h3
  refine ⟨j, ?_, h4⟩
  unfold hitsRun
  rw [toArr_getElem? _ (List.getElem?_eq_some_iff.1 hi).1, h2]

/-- With one hit only, it is reported in every order. -/
theorem C48_unique (pips : List (List Bool)) (w : List (Nat × Nat)) (hw : (hitWrites pips).Perm w) {i j : Nat} {r : List Bool}
    (hi : pips[i]? = some r) (hj : r[j]? = some true) (hu : ∀ k, r[k]? = some true → k = j) :
    (hitsRun pips.length w)[i]? = some j := by
  obtain ⟨j', h1, h2⟩ := (C48_partial pips w hw).2 i r hi (List.mem_of_getElem? hj)
  rw [h1, hu j' h2]

/-- The search among neighbours: the reported global index is the neighbour at the reported relative index, a hit. -/
theorem C48_knn (pips : List (List Bool)) (nb : List (List Nat)) (w : List (Nat × Option Nat × Nat))
    (hw : (hitWritesKnn pips nb).Perm w) (z : Option Nat × Nat) {i : Nat} {r : List Bool} {row : List Nat}
    (hi : pips[i]? = some r) (hr : true ∈ r) (hn : nb[i]? = some row) :
    ∃ g j, runW w (fun _ => z) i = (g, j) ∧ r[j]? = some true ∧ g = row[j]? := by
  obtain ⟨j0, hj0⟩ := List.getElem?_of_mem hr
  obtain ⟨⟨i', g, j⟩, hx, h1, h2⟩ := runW_some w (fun _ => z) i
    ⟨(i, (nb[i]?).bind (fun r => r[j0]?), j0), hw.mem_iff.1 (List.mem_map.2 ⟨(i, j0), mem_hitWrites.2 ⟨r, hi, hj0⟩, rfl⟩), rfl⟩
  simp only at h1 h2
  subst h1
  obtain ⟨⟨i2, j2⟩, h3, h4⟩ := List.mem_map.1 (hw.mem_iff.2 hx)
  simp only [Prod.mk.injEq] at h4
  obtain ⟨rfl, rfl, rfl⟩ := h4
  obtain ⟨r', h5, h6⟩ := mem_hitWrites.1 h3
  rw [hi] at h5
  obtain rfl := Option.some.inj h5
  exact ⟨_, _, h2, h6, by rw [hn]; rfl⟩

/-- `_find_first_hits_1d_`: for every listed value a place of this value is reported. -/
theorem C48_1d (indices : List Nat) (w : List (Nat × Nat)) (hw : (hitWrites1d indices).Perm w) (hne : indices ≠ []) :
    ∃ res, hits1dRun indices w = some res ∧ ∀ v ∈ indices, ∃ i, res[v]? = some i ∧ indices[i]? = some v := by
  obtain ⟨m, hm⟩ := maxNode?_ne_none hne
  refine ⟨hitsRun (m + 1) w, by simp [hits1dRun, hm], fun v hv => ?_⟩
  obtain ⟨i0, hi0⟩ := List.getElem?_of_mem hv
  obtain ⟨⟨v', i⟩, hx, h1, h2⟩ := runW_some w (fun _ => 0) v
    ⟨(v, i0), hw.mem_iff.1 (List.mem_zipIdx_iff_getElem?.2 hi0), rfl⟩
  simp only at h1 h2
  subst h1
  have h3 := List.mem_zipIdx_iff_getElem?.1 (hw.mem_iff.2 hx)
  have h4 : v' ≤ m := (maxNode?_spec.1 hm).2 v' hv
  refine ⟨i, ?_, h3⟩
  unfold hitsRun
  rw [toArr_getElem? _ (by omega), h2]

/-- In the natural order of the loop the *last* hit is reported, not the first. -/
theorem C48_first_false : ¬ ∀ (pips : List (List Bool)) (i : Nat) (r : List Bool), pips[i]? = some r → true ∈ r →
    (hitsRun pips.length (hitWrites pips))[i]? = some (r.idxOf true) := by
  intro h
  exact absurd (h [[true, false, true]] 0 [true, false, true] rfl (by simp)) (by decide +kernel)

/-- The result depends on the order of the iterations. -/
theorem C48_order_false : ¬ ∀ (pips : List (List Bool)) (w w' : List (Nat × Nat)), (hitWrites pips).Perm w →
    (hitWrites pips).Perm w' → hitsRun pips.length w = hitsRun pips.length w' := by
  intro h
  have := h [[true, true]] [(0, 0), (0, 1)] [(0, 1), (0, 0)] (by decide +kernel) (by decide +kernel)
  exact absurd this (by decide +kernel)

/-- A point without hits cannot be told from a point with a hit at index zero: there is no mark for "none". -/
theorem C48_none_false : ¬ ∀ (pips pips' : List (List Bool)) (i : Nat) (r r' : List Bool), pips[i]? = some r → pips'[i]? = some r' →
    true ∉ r → true ∈ r' →
    (hitsRun pips.length (hitWrites pips))[i]? ≠ (hitsRun pips'.length (hitWrites pips'))[i]? := by
  intro h
  exact absurd (h [[false]] [[true]] 0 [false] [true] rfl rfl (by simp) (by simp)) (by decide +kernel)

example : hitWrites [[false, true, true], [false, false, false], [true, false, false]] = [(0, 1), (0, 2), (2, 0)] ∧
    hitsRun 3 [(2, 0), (0, 2), (0, 1)] = [1, 0, 0] := by decide +kernel

/-! ## C47 -/

section
variable {K : Type} [Field K]

/-- `t` is the tetrahedron spanned by the nodes of the cell in the positions `m`. -/
def TetOfCell (coords : List (V3 K)) (cell m : List Nat) (t : Tet K) : Prop :=
  ∃ a b c d na nb nc nd, m = [a, b, c, d] ∧ cell[a]? = some na ∧ cell[b]? = some nb ∧ cell[c]? = some nc ∧ cell[d]? = some nd ∧
    coords[na]? = some t.p0 ∧ coords[nb]? = some t.p1 ∧ coords[nc]? = some t.p2 ∧ coords[nd]? = some t.p3

/-- `l` is the tetrahedron spanned by the listed points in the positions `m`. -/
def TetOfPoints (pts : List (V3 K)) (m : List Nat) (l : Tet K) : Prop :=
  ∃ a b c d, m = [a, b, c, d] ∧ pts[a]? = some l.p0 ∧ pts[b]? = some l.p1 ∧ pts[c]? = some l.p2 ∧ pts[d]? = some l.p3

theorem tetOf_some {coords : List (V3 K)} {m : List Nat} {t : Tet K} : tetOf coords m = some t ↔ TetOfPoints coords m t := by
  constructor
  · intro h
    match m, h with
    | [a, b, c, d], h =>
      simp only [tetOf, Option.bind_eq_some_iff, Option.map_eq_some_iff] at h
      obtain ⟨p, h1, q, h2, r, h3, s, h4, rfl⟩ := h
      exact ⟨a, b, c, d, rfl, h1, h2, h3, h4⟩
  · rintro ⟨a, b, c, d, rfl, h1, h2, h3, h4⟩
    simp [tetOf, h1, h2, h3, h4]

theorem tetOf_gather {coords : List (V3 K)} {cell m row : List Nat} {t : Tet K} (hg : gather? cell m = some row)
    (ht : tetOf coords row = some t) : TetOfCell coords cell m t := by
  obtain ⟨na, nb, nc, nd, rfl, h1, h2, h3, h4⟩ := tetOf_some.1 ht
  have hl : m.length = 4 := by have := mapM_length hg; simpa using this.symm
  match m, hl with
  | [a, b, c, d], _ =>
    have g : ∀ (k : Nat) (i n : Nat), [a, b, c, d][k]? = some i → [na, nb, nc, nd][k]? = some n → cell[i]? = some n := by
      intro k i n hk hn
      obtain ⟨y, hy1, hy2⟩ := mapM_get (f := fun i => cell[i]?) hg hk
      rw [hn] at hy2
      rw [hy1, hy2]
    exact ⟨a, b, c, d, na, nb, nc, nd, rfl, g 0 _ _ rfl rfl, g 1 _ _ rfl rfl, g 2 _ _ rfl rfl, g 3 _ _ rfl rfl, h1, h2, h3, h4⟩

theorem tetOfCell_gather {coords : List (V3 K)} {cell m : List Nat} {t : Tet K} (h : TetOfCell coords cell m t) :
    ∃ row, gather? cell m = some row ∧ tetOf coords row = some t := by
  obtain ⟨a, b, c, d, na, nb, nc, nd, rfl, h1, h2, h3, h4, h5, h6, h7, h8⟩ := h
  refine ⟨[na, nb, nc, nd], ?_, tetOf_some.2 ⟨na, nb, nc, nd, rfl, h5, h6, h7, h8⟩⟩
  simp [gather?, List.mapM_cons, h1, h2, h3, h4]

/-- The rows of the tetrahedra: row `c * nT + t` belongs to cell `c` and row `t` of the map. -/
theorem toTetRows_get {topo tetmap tt : Topo} (h : toTetRows topo tetmap = some tt) :
    tt.length = topo.length * tetmap.length ∧
    ∀ (c t : Nat) (cell m : List Nat), topo[c]? = some cell → tetmap[t]? = some m →
      ∃ row, tt[c * tetmap.length + t]? = some row ∧ gather? cell m = some row := by
  unfold toTetRows at h
  constructor
  · rw [mapM_length h, List.length_flatMap]
    have : topo.map (fun cell => (tetmap.map fun m => gather? cell m).length) = List.replicate topo.length tetmap.length := by
      rw [List.eq_replicate_iff]
      simp
    rw [this]
    simp
  · intro c t cell m hc ht
    have htl := (List.getElem?_eq_some_iff.1 ht).1
    have hb := getElem?_flatMap_block (l := topo) (f := fun cell => tetmap.map fun m => gather? cell m) (n := tetmap.length)
      (by simp) (i := c) htl
    rw [hc] at hb
    have hb' : (topo.flatMap fun cell => tetmap.map fun m => gather? cell m)[c * tetmap.length + t]? = some (gather? cell m) := by
      rw [hb]
      show (tetmap.map fun m => gather? cell m)[t]? = _
      rw [List.getElem?_map, ht]
      rfl
    obtain ⟨row, h1, h2⟩ := mapM_get h hb'
    exact ⟨row, h2, h1⟩

end

section
variable {K : Type} [Field K] [LinearOrder K] [IsStrictOrderedRing K]

theorem mem_sourcesOf {pips : List (List Bool)} {i : Nat} : i ∈ sourcesOf pips ↔ ∃ r, pips[i]? = some r ∧ true ∈ r := by
  unfold sourcesOf
  simp only [List.mem_map, List.mem_filter, Prod.exists, exists_eq_right, List.mem_zipIdx_iff_getElem?, List.any_eq_true, id]

/-- What the search returns, in terms of the tables. -/
theorem locate_mem {sched : List (Nat × Nat) → List (Nat × Nat)} (hs : ∀ w : List (Nat × Nat), w.Perm (sched w)) {coords : List (V3 K)}
    {topo tetmap : Topo} {lcoords : List (V3 K)} {nb : List (List Nat)} {tol : K} {x : List (V3 K)}
    {r : List (Nat × Nat × V3 K)} (hr : locate sched coords topo tetmap lcoords nb tol x = some r) :
    ∃ tt tets nat, toTetRows topo tetmap = some tt ∧ tt.mapM (tetOf coords) = some tets ∧ natTable tets nb x = some nat ∧
      (∀ i c loc, (i, c, loc) ∈ r → ∃ (j : Nat) (ns : List (N4 K)) (n : N4 K), nat[i]? = some ns ∧ ns[j]? = some n ∧
        pipTet tol n = true ∧ locateOne tetmap lcoords nb nat i j = some (i, c, loc)) ∧
      (∀ (i : Nat) (ns : List (N4 K)) (n : N4 K), nat[i]? = some ns → n ∈ ns → pipTet tol n = true →
        ∃ c loc, (i, c, loc) ∈ r) := by
  unfold locate at hr
  simp only [Option.bind_eq_some_iff] at hr
  obtain ⟨tt, h1, tets, h2, nat, h3, h4⟩ := hr
  refine ⟨tt, tets, nat, h1, h2, h3, ?_, ?_⟩
  all_goals
    set pips := nat.map fun ns => ns.map (pipTet tol) with hpips
    set src := sourcesOf pips with hsrc
    set sub := src.map fun i => pips.getD i [] with hsub
    have hrel := C48_partial sub (sched (hitWrites sub)) (hs _)
    have hlen : sub.length = src.length := by simp [hsub]
    rw [hlen] at hrel
    set rel := hitsRun src.length (sched (hitWrites sub)) with hreldef
    have hone : ∀ {s : Nat × Nat} {y : Nat × Nat × V3 K}, locateOne tetmap lcoords nb nat s.1 s.2 = some y → y.1 = s.1 := by
      intro s y hy
      unfold locateOne at hy
      simp only [Option.bind_eq_some_iff, Option.map_eq_some_iff] at hy
      obtain ⟨_, _, _, _, _, _, _, _, _, _, _, _, rfl⟩ := hy
      rfl
  · intro i c loc hm
    obtain ⟨k, hk⟩ := List.getElem?_of_mem hm
    have hkl : k < (src.zip rel).length := by rw [← mapM_length h4]; exact (List.getElem?_eq_some_iff.1 hk).1
    obtain ⟨y, hy1, hy2⟩ := mapM_get h4 (List.getElem?_eq_getElem hkl)
    rw [hk] at hy2
    obtain rfl := Option.some.inj hy2
    have hks : k < src.length := by rw [List.length_zip] at hkl; omega
    have hkr : k < rel.length := by rw [hrel.1]; exact hks
    have hzip : (src.zip rel)[k] = (src[k], rel[k]) := List.getElem_zip
    rw [hzip] at hy1
    have hi : i = src[k] := hone hy1
    obtain ⟨row, hrow, htrue⟩ := mem_sourcesOf.1 (List.getElem_mem hks)
    have hsubk : sub[k]? = some row := by
      rw [hsub, List.getElem?_map, List.getElem?_eq_getElem hks, Option.map_some, List.getD_eq_getElem?_getD, hrow]
      rfl
    obtain ⟨j, hj1, hj2⟩ := hrel.2 k row hsubk htrue
    rw [List.getElem?_eq_getElem hkr] at hj1
    have hj : rel[k] = j := Option.some.inj hj1
    rw [hpips, List.getElem?_map] at hrow
    cases hns : nat[src[k]]? with
    | none => rw [hns] at hrow; cases hrow
    | some ns =>
      rw [hns] at hrow
      obtain rfl := Option.some.inj hrow
      rw [List.getElem?_map] at hj2
      cases hn : ns[j]? with
      | none => rw [hn] at hj2; cases hj2
      | some n =>
        rw [hn] at hj2
        refine ⟨j, ns, n, by rw [hi]; exact hns, hn, Option.some.inj hj2, ?_⟩
        rw [← hj, hi]
        rw [hi] at hy1
        exact hy1
  · intro i ns n hns hn hp
    have hrow : pips[i]? = some (ns.map (pipTet tol)) := by rw [hpips, List.getElem?_map, hns]; rfl
    have hi : i ∈ src := mem_sourcesOf.2 ⟨_, hrow, List.mem_map.2 ⟨n, hn, hp⟩⟩
    obtain ⟨k, hk⟩ := List.getElem?_of_mem hi
    have hks := (List.getElem?_eq_some_iff.1 hk).1
    have hkr : k < rel.length := by rw [hrel.1]; exact hks
    have hz : (src.zip rel)[k]? = some (i, rel[k]) := by
      rw [List.getElem?_zip_eq_some]
      exact ⟨hk, List.getElem?_eq_getElem hkr⟩
    obtain ⟨⟨i', c, loc⟩, hy1, hy2⟩ := mapM_get h4 hz
    have := hone hy1
    simp only at this
    subst this
    exact ⟨c, loc, List.mem_of_getElem? hy2⟩

/-- The located points: the reported cell has a tetrahedron in which the point has natural coordinates above minus the
tolerance, and the reported local coordinates have the same natural coordinates in the corresponding tetrahedron of the
master cell. This holds for all candidates and every order of the parallel loops. -/
theorem C47_sound {sched : List (Nat × Nat) → List (Nat × Nat)} (hs : ∀ w : List (Nat × Nat), w.Perm (sched w)) {coords : List (V3 K)}
    {topo tetmap : Topo} {lcoords : List (V3 K)} {nb : List (List Nat)} {tol : K} {x : List (V3 K)}
    {r : List (Nat × Nat × V3 K)} (hr : locate sched coords topo tetmap lcoords nb tol x = some r)
    (hv : ∀ cell ∈ topo, ∀ m ∈ tetmap, ∀ t, TetOfCell coords cell m t → volTet t ≠ 0) {i c : Nat} {loc : V3 K}
    (hm : (i, c, loc) ∈ r) :
    ∃ p cell m t l n, x[i]? = some p ∧ topo[c]? = some cell ∧ m ∈ tetmap ∧ TetOfCell coords cell m t ∧ TetOfPoints lcoords m l ∧
      IsNat4 t p n ∧ IsNat4 l loc n ∧ (-tol < n.n1 ∧ -tol < n.n2 ∧ -tol < n.n3 ∧ -tol < n.n4) := by
  obtain ⟨tt, tets, nat, h1, h2, h3, h4, -⟩ := locate_mem hs hr
  obtain ⟨j, ns, n, hns, hn, hp, hone⟩ := h4 i c loc hm
  unfold natTable at h3
  have hil : i < (x.zip nb).length := by rw [← mapM_length h3]; exact (List.getElem?_eq_some_iff.1 hns).1
  obtain ⟨ns', e1, e2⟩ := mapM_get h3 (List.getElem?_eq_getElem hil)
  rw [hns] at e2
  obtain rfl := Option.some.inj e2
  have hix : i < x.length := by rw [List.length_zip] at hil; omega
  have hinb : i < nb.length := by rw [List.length_zip] at hil; omega
  rw [List.getElem_zip] at e1
  simp only at e1
  have hjl : j < nb[i].length := by rw [← mapM_length e1]; exact (List.getElem?_eq_some_iff.1 hn).1
  obtain ⟨n', f1, f2⟩ := mapM_get e1 (List.getElem?_eq_getElem hjl)
  rw [hn] at f2
  obtain rfl := Option.some.inj f2
  set τ := nb[i][j] with hτ
  obtain ⟨t, ht, rfl⟩ := Option.map_eq_some_iff.1 f1
  -- the cell and the row of the map
  have hτl : τ < tt.length := by rw [← mapM_length h2]; exact (List.getElem?_eq_some_iff.1 ht).1
  obtain ⟨t', g1, g2⟩ := mapM_get h2 (List.getElem?_eq_getElem hτl)
  rw [ht] at g2
  obtain rfl := Option.some.inj g2
  obtain ⟨hlen, hrows⟩ := toTetRows_get h1
  have hT : 0 < tetmap.length := by
    rcases Nat.eq_zero_or_pos tetmap.length with h0 | h0
    · rw [hlen, h0] at hτl; omega
    · exact h0
  have hcl : τ / tetmap.length < topo.length := by
    rw [Nat.div_lt_iff_lt_mul hT]
    omega
  have hml : τ % tetmap.length < tetmap.length := Nat.mod_lt _ hT
  obtain ⟨row, r1, r2⟩ := hrows _ _ _ _ (List.getElem?_eq_getElem hcl) (List.getElem?_eq_getElem hml)
  have hsplit : τ / tetmap.length * tetmap.length + τ % tetmap.length = τ := Nat.div_add_mod' τ _
  rw [hsplit, List.getElem?_eq_getElem hτl] at r1
  obtain rfl := Option.some.inj r1
  have hcell := tetOf_gather r2 g1
  -- the local coordinates
  unfold locateOne at hone
  rw [List.getElem?_eq_getElem hinb, Option.bind_some, List.getElem?_eq_getElem hjl, Option.bind_some,
    List.getElem?_eq_getElem hml, Option.bind_some, hns, Option.bind_some, hn, Option.bind_some] at hone
  unfold ntetToLoc at hone
  rw [Option.map_map] at hone
  obtain ⟨l, hl, hloc⟩ := Option.map_eq_some_iff.1 hone
  simp only [Function.comp, Prod.mk.injEq, true_and] at hloc
  obtain ⟨rfl, rfl⟩ := hloc
  have hvol := hv _ (List.getElem_mem hcl) _ (List.getElem_mem hml) t hcell
  have hnat := C30_glob_to_nat hvol x[i]
  refine ⟨x[i], _, _, t, l, _, List.getElem?_eq_getElem hix, List.getElem?_eq_getElem hcl, List.getElem_mem hml, hcell,
    tetOf_some.1 hl, hnat, ?_, ?_⟩
  · rw [isNat4_iff]
    refine ⟨hnat.sum, ?_, ?_, ?_⟩ <;> simp <;> ring
  · simp only [pipTet, Bool.and_eq_true, decide_eq_true_eq] at hp
    exact ⟨hp.1.1.1.1, hp.1.1.1.2, hp.1.1.2, hp.1.2⟩

/-- With tolerance zero the located point is inside the tetrahedron. -/
theorem C47_inside {sched : List (Nat × Nat) → List (Nat × Nat)} (hs : ∀ w : List (Nat × Nat), w.Perm (sched w)) {coords : List (V3 K)}
    {topo tetmap : Topo} {lcoords : List (V3 K)} {nb : List (List Nat)} {x : List (V3 K)}
    {r : List (Nat × Nat × V3 K)} (hr : locate sched coords topo tetmap lcoords nb 0 x = some r)
    (hv : ∀ cell ∈ topo, ∀ m ∈ tetmap, ∀ t, TetOfCell coords cell m t → volTet t ≠ 0) {i c : Nat} {loc : V3 K}
    (hm : (i, c, loc) ∈ r) :
    ∃ p cell m t l, x[i]? = some p ∧ topo[c]? = some cell ∧ m ∈ tetmap ∧ TetOfCell coords cell m t ∧ OpenHull t.corners p ∧
      TetOfPoints lcoords m l ∧ OpenHull l.corners loc := by
  obtain ⟨p, cell, m, t, l, n, h1, h2, h3, h4, h5, h6, h7, h8, h9, h10, h11⟩ := C47_sound hs hr hv hm
  rw [neg_zero] at h8 h9 h10 h11
  exact ⟨p, cell, m, t, l, h1, h2, h3, h4, openHull4.2 ⟨n, h6, h8, h9, h10, h11⟩, h5, openHull4.2 ⟨n, h7, h8, h9, h10, h11⟩⟩

/-- Cells that are affine images of the master cell: the reported local coordinates are mapped to the point. -/
theorem C47_affine {sched : List (Nat × Nat) → List (Nat × Nat)} (hs : ∀ w : List (Nat × Nat), w.Perm (sched w)) {coords : List (V3 K)}
    {topo tetmap : Topo} {lcoords : List (V3 K)} {nb : List (List Nat)} {tol : K} {x : List (V3 K)}
    {r : List (Nat × Nat × V3 K)} (hr : locate sched coords topo tetmap lcoords nb tol x = some r)
    (hv : ∀ cell ∈ topo, ∀ m ∈ tetmap, ∀ t, TetOfCell coords cell m t → volTet t ≠ 0) {i c : Nat} {loc : V3 K}
    (hm : (i, c, loc) ∈ r) {cell : List Nat} (hc : topo[c]? = some cell) (A : Aff K)
    (hA : ∀ (k n : Nat) (ξ P : V3 K), cell[k]? = some n → lcoords[k]? = some ξ → coords[n]? = some P → P = A.app ξ) {p : V3 K}
    (hp : x[i]? = some p) : A.app loc = p := by
  obtain ⟨p', cell', m, t, l, n, h1, h2, h3, h4, h5, h6, h7, -⟩ := C47_sound hs hr hv hm
  rw [hp] at h1
  rw [hc] at h2
  obtain rfl := Option.some.inj h1
  obtain rfl := Option.some.inj h2
  obtain ⟨a, b, c', d, na, nb', nc, nd, rfl, c1, c2, c3, c4, x1, x2, x3, x4⟩ := h4
  obtain ⟨a', b', c'', d', e, y1, y2, y3, y4⟩ := h5
  simp only [List.cons.injEq, and_true] at e
  obtain ⟨rfl, rfl, rfl, rfl⟩ := e
  have e1 := hA _ _ _ _ c1 y1 x1
  have e2 := hA _ _ _ _ c2 y2 x2
  have e3 := hA _ _ _ _ c3 y3 x3
  have e4 := hA _ _ _ _ c4 y4 x4
  obtain ⟨s1, sx, sy, sz⟩ := isNat4_iff.1 h6
  obtain ⟨-, lx, ly, lz⟩ := isNat4_iff.1 h7
  rw [e1, e2, e3, e4] at sx sy sz
  simp only [Aff.app, V3.add_x, V3.add_y, V3.add_z, V3.smul_x, V3.smul_y, V3.smul_z] at sx sy sz
  ext
  · simp only [Aff.app, V3.add_x, V3.smul_x]
    rw [← sx, ← lx, ← ly, ← lz]
    linear_combination (-A.o.x) * s1
  · simp only [Aff.app, V3.add_y, V3.smul_y]
    rw [← sy, ← lx, ← ly, ← lz]
    linear_combination (-A.o.y) * s1
  · simp only [Aff.app, V3.add_z, V3.smul_z]
    rw [← sz, ← lx, ← ly, ← lz]
    linear_combination (-A.o.z) * s1

/-- With all tetrahedra as candidates and a positive tolerance every point of the cells is located. -/
theorem C47_complete {sched : List (Nat × Nat) → List (Nat × Nat)} (hs : ∀ w : List (Nat × Nat), w.Perm (sched w)) {coords : List (V3 K)}
    {topo tetmap : Topo} {lcoords : List (V3 K)} {tol : K} (htol : 0 < tol) {x : List (V3 K)}
    {r : List (Nat × Nat × V3 K)} (hr : locateAll sched coords topo tetmap lcoords tol x = some r)
    {i : Nat} {p : V3 K} (hp : x[i]? = some p) {cell m : List Nat} (hc : cell ∈ topo) (hm : m ∈ tetmap) {t : Tet K}
    (ht : TetOfCell coords cell m t) (hv : volTet t ≠ 0) (hin : Hull t.corners p) : ∃ c loc, (i, c, loc) ∈ r := by
  obtain ⟨tt, tets, nat, h1, h2, h3, -, h5⟩ := locate_mem hs hr
  obtain ⟨ci, hci⟩ := List.getElem?_of_mem hc
  obtain ⟨mi, hmi⟩ := List.getElem?_of_mem hm
  obtain ⟨hlen, hrows⟩ := toTetRows_get h1
  obtain ⟨row, r1, r2⟩ := hrows ci mi cell m hci hmi
  obtain ⟨row', r3, r4⟩ := tetOfCell_gather ht
  rw [r2] at r3
  obtain rfl := Option.some.inj r3
  obtain ⟨t', g1, g2⟩ := mapM_get h2 r1
  rw [r4] at g1
  obtain rfl := Option.some.inj g1
  unfold natTable at h3
  have hz : (x.zip (x.map fun _ => List.range (topo.length * tetmap.length)))[i]? =
      some (p, List.range (topo.length * tetmap.length)) := by
    rw [List.getElem?_zip_eq_some]
    refine ⟨hp, ?_⟩
    rw [List.getElem?_map, hp]
    rfl
  obtain ⟨ns, e1, e2⟩ := mapM_get h3 hz
  have hτ : ci * tetmap.length + mi < topo.length * tetmap.length := by
    rw [← hlen]; exact (List.getElem?_eq_some_iff.1 r1).1
  obtain ⟨n, f1, f2⟩ := mapM_get e1 (i := ci * tetmap.length + mi) (List.getElem?_range hτ)
  rw [g2] at f1
  obtain rfl := Option.some.inj f1
  exact h5 i ns _ e2 (List.mem_of_getElem? f2) ((C30_pip_partial hv p).2.1 tol htol hin)

theorem tetOfPoints_exists {coords : List (V3 K)} {m : List Nat} (hl : m.length = 4) (h : ∀ k ∈ m, k < coords.length) :
    ∃ t, tetOf coords m = some t := by
  match m, hl with
  | [a, b, c, d], _ =>
    have ha := h a (by simp)
    have hb := h b (by simp)
    have hc := h c (by simp)
    have hd := h d (by simp)
    exact ⟨⟨coords[a], coords[b], coords[c], coords[d]⟩, by simp [tetOf, ha, hb, hc, hd]⟩

/-- The search does not fail on sound input. -/
theorem C47_total {sched : List (Nat × Nat) → List (Nat × Nat)} (hs : ∀ w : List (Nat × Nat), w.Perm (sched w)) {coords : List (V3 K)}
    {topo tetmap : Topo} {lcoords : List (V3 K)} {nb : List (List Nat)} {tol : K} {x : List (V3 K)}
    (h4 : ∀ m ∈ tetmap, m.length = 4) (hcell : ∀ m ∈ tetmap, ∀ k ∈ m, ∀ cell ∈ topo, k < cell.length)
    (hnode : ∀ cell ∈ topo, ∀ n ∈ cell, n < coords.length) (hloc : ∀ m ∈ tetmap, ∀ k ∈ m, k < lcoords.length)
    (hnb : nb.length = x.length) (hcand : ∀ row ∈ nb, ∀ τ ∈ row, τ < topo.length * tetmap.length) :
    ∃ r, locate sched coords topo tetmap lcoords nb tol x = some r := by
  -- the tables
  have hrow : ∀ cell ∈ topo, ∀ m ∈ tetmap, ∃ row, gather? cell m = some row ∧ row.length = 4 ∧ ∀ n ∈ row, n < coords.length := by
    intro cell hc m hm
    obtain ⟨row, e1, e2, e3⟩ := gather?_eq_some (a := cell) (inds := m) fun k hk => hcell m hm k hk cell hc
    refine ⟨row, e1, by rw [e2, h4 m hm], fun n hn => ?_⟩
    obtain ⟨k, hk⟩ := List.getElem?_of_mem hn
    have hkm : k < m.length := by rw [← e2]; exact (List.getElem?_eq_some_iff.1 hk).1
    have := e3 k m[k] (List.getElem?_eq_getElem hkm)
    rw [hk] at this
    exact hnode cell hc n (List.mem_of_getElem? this.symm)
  obtain ⟨tt, t1, t2, t3⟩ : ∃ tt, toTetRows topo tetmap = some tt ∧ tt.length = topo.length * tetmap.length ∧
      ∀ row ∈ tt, row.length = 4 ∧ ∀ n ∈ row, n < coords.length := by
    unfold toTetRows
    obtain ⟨tt, e1, e2, e3⟩ := mapM_exists (f := id)
      (l := topo.flatMap fun cell => tetmap.map fun m => gather? cell m)
      (P := fun _ _ row => row.length = 4 ∧ ∀ n ∈ row, n < coords.length) (by
        intro i o ho
        obtain ⟨cell, hc, hcm⟩ := List.mem_flatMap.1 (List.mem_of_getElem? ho)
        obtain ⟨m, hm, rfl⟩ := List.mem_map.1 hcm
        obtain ⟨row, f1, f2, f3⟩ := hrow cell hc m hm
        exact ⟨row, f1, f2, f3⟩)
    refine ⟨tt, e1, (toTetRows_get e1).1, fun row hr => ?_⟩
    obtain ⟨k, hk⟩ := List.getElem?_of_mem hr
    have hkl : k < (topo.flatMap fun cell => tetmap.map fun m => gather? cell m).length := by
      rw [← e2]; exact (List.getElem?_eq_some_iff.1 hk).1
    exact e3 k _ row (List.getElem?_eq_getElem hkl) hk
  obtain ⟨tets, u1, u2, -⟩ := mapM_exists (f := tetOf coords) (l := tt) (P := fun _ _ _ => True) (by
    intro i row hr
    obtain ⟨f1, f2⟩ := t3 row (List.mem_of_getElem? hr)
    obtain ⟨t, ht⟩ := tetOfPoints_exists f1 f2
    exact ⟨t, ht, trivial⟩)
  obtain ⟨nat, v1, v2, v3⟩ := mapM_exists
    (f := fun q : V3 K × List Nat => q.2.mapM fun k => (tets[k]?).map fun t => globToNatTet q.1 t) (l := x.zip nb)
    (P := fun i q ns => ns.length = q.2.length) (by
      rintro i ⟨p, row⟩ hq
      have hrw : row ∈ nb := (List.of_mem_zip (List.mem_of_getElem? hq)).2
      obtain ⟨ns, w1, w2, -⟩ := mapM_exists (f := fun k => (tets[k]?).map fun t => globToNatTet p t) (l := row)
        (P := fun _ _ _ => True) (by
          intro j k hk
          have hkl : k < tets.length := by rw [u2, t2]; exact hcand row hrw k (List.mem_of_getElem? hk)
          exact ⟨globToNatTet p tets[k], by rw [List.getElem?_eq_getElem hkl]; rfl, trivial⟩)
      exact ⟨ns, w1, w2⟩)
  unfold locate
  rw [t1, Option.bind_some, u1, Option.bind_some]
  have hnat : natTable tets nb x = some nat := v1
  rw [hnat, Option.bind_some]
  simp only
  set pips := nat.map fun ns => ns.map (pipTet tol) with hpips
  set src := sourcesOf pips with hsrc
  set sub := src.map fun i => pips.getD i [] with hsub
  have hrel := C48_partial sub (sched (hitWrites sub)) (hs _)
  have hlen : sub.length = src.length := by simp [hsub]
  rw [hlen] at hrel
  set rel := hitsRun src.length (sched (hitWrites sub)) with hreldef
  obtain ⟨r, hr, -⟩ := mapM_exists (f := fun s : Nat × Nat => locateOne tetmap lcoords nb nat s.1 s.2) (l := src.zip rel)
    (P := fun _ _ _ => True) (by
      rintro k ⟨i, j⟩ hk
      obtain ⟨hk1, hk2⟩ := List.getElem?_zip_eq_some.1 hk
      obtain ⟨row, hrow', htrue⟩ := mem_sourcesOf.1 (List.mem_of_getElem? hk1)
      have hsubk : sub[k]? = some row := by
        rw [hsub, List.getElem?_map, hk1, Option.map_some, List.getD_eq_getElem?_getD, hrow']
        rfl
      obtain ⟨j', hj1, hj2⟩ := hrel.2 k row hsubk htrue
      rw [hk2] at hj1
      obtain rfl := Option.some.inj hj1
      rw [hpips, List.getElem?_map] at hrow'
      cases hns : nat[i]? with
      | none => rw [hns] at hrow'; cases hrow'
      | some ns =>
        rw [hns] at hrow'
        obtain rfl := Option.some.inj hrow'
        rw [List.getElem?_map] at hj2
        cases hn : ns[j]? with
        | none => rw [hn] at hj2; cases hj2
        | some n =>
          have hil : i < (x.zip nb).length := by rw [← v2]; exact (List.getElem?_eq_some_iff.1 hns).1
          have hinb : i < nb.length := by rw [List.length_zip] at hil; omega
          have hnl := v3 i _ ns (List.getElem?_eq_getElem hil) hns
          rw [List.getElem_zip] at hnl
          simp only at hnl
          have hjl : j < nb[i].length := by rw [← hnl]; exact (List.getElem?_eq_some_iff.1 hn).1
          have hτ := hcand _ (List.getElem_mem hinb) _ (List.getElem_mem hjl)
          have hT : 0 < tetmap.length := by
            rcases Nat.eq_zero_or_pos tetmap.length with h0 | h0
            · rw [h0] at hτ; omega
            · exact h0
          have hml : nb[i][j] % tetmap.length < tetmap.length := Nat.mod_lt _ hT
          obtain ⟨l, hl⟩ := tetOfPoints_exists (coords := lcoords) (h4 _ (List.getElem_mem hml)) (hloc _ (List.getElem_mem hml))
          refine ⟨(i, nb[i][j] / tetmap.length, n.n1 • l.p0 + (n.n2 • l.p1 + (n.n3 • l.p2 + n.n4 • l.p3))), ?_, trivial⟩
          unfold locateOne
          rw [List.getElem?_eq_getElem hinb, Option.bind_some, List.getElem?_eq_getElem hjl, Option.bind_some,
            List.getElem?_eq_getElem hml, Option.bind_some, hns, Option.bind_some, hn, Option.bind_some]
          unfold ntetToLoc
          rw [hl]
          rfl)
  exact ⟨r, hr⟩

end

/-- A long tetrahedron with the point near one of its corners, and four small tetrahedra beside it. -/
def lazyCoords : List (V3 ℚ) :=
  [⟨0, 0, 0⟩, ⟨100, 0, 0⟩, ⟨0, 100, 0⟩, ⟨0, 0, 100⟩] ++
  ([⟨-3, 0, 0⟩, ⟨-3, 2, 0⟩, ⟨-3, 0, 2⟩, ⟨-3, 2, 2⟩] : List (V3 ℚ)).flatMap
    fun o => [o, o + ⟨1, 0, 0⟩, o + ⟨0, 1, 0⟩, o + ⟨0, 0, 1⟩]

/-- The five cells. -/
def lazyTopo : Topo := [[0, 1, 2, 3], [4, 5, 6, 7], [8, 9, 10, 11], [12, 13, 14, 15], [16, 17, 18, 19]]

/-- Their centres. -/
def lazyCenters : List (V3 ℚ) :=
  [⟨25, 25, 25⟩, ⟨-11/4, 1/4, 1/4⟩, ⟨-11/4, 9/4, 1/4⟩, ⟨-11/4, 1/4, 9/4⟩, ⟨-11/4, 9/4, 9/4⟩]

/-- The default search among the four nearest centres misses points: the point lies in the first cell, the candidates are
the four nearest of the five centres (`IsKNearest`), and nothing is located. -/
theorem C47_lazy_false :
    Hull (⟨⟨0, 0, 0⟩, ⟨100, 0, 0⟩, ⟨0, 100, 0⟩, ⟨0, 0, 100⟩⟩ : Tet ℚ).corners ⟨1, 1, 1⟩ ∧
    TetOfCell lazyCoords [0, 1, 2, 3] [0, 1, 2, 3] ⟨⟨0, 0, 0⟩, ⟨100, 0, 0⟩, ⟨0, 100, 0⟩, ⟨0, 0, 100⟩⟩ ∧ [0, 1, 2, 3] ∈ lazyTopo ∧
    IsKNearest lazyCenters ⟨1, 1, 1⟩ 4 [1, 2, 3, 4] ∧
    locate id lazyCoords lazyTopo [[0, 1, 2, 3]] [⟨0, 0, 0⟩, ⟨1, 0, 0⟩, ⟨0, 1, 0⟩, ⟨0, 0, 1⟩] [[1, 2, 3, 4]] (1 / 10 ^ 12)
      [⟨1, 1, 1⟩] = some [] ∧
    (∀ i : Nat, (lazyTopo[i]?).bind (fun r : List Nat => (r.mapM fun n => lazyCoords[n]?).map fun P => lincomb [1/4, 1/4, 1/4, 1/4] P) =
      lazyCenters[i]?) := by
  refine ⟨hull4.2 ⟨⟨97/100, 1/100, 1/100, 1/100⟩, isNat4_iff.2 (by norm_num), by norm_num⟩,
    ⟨0, 1, 2, 3, 0, 1, 2, 3, rfl, rfl, rfl, rfl, rfl, by decide +kernel, by decide +kernel, by decide +kernel, by decide +kernel⟩,
    by decide, ?_, by decide +kernel, ?_⟩
  · refine ⟨rfl, by decide, by decide, ?_⟩
    intro j hj l hl hln c d hc hd
    have hl0 : l = 0 := by
      simp only [lazyCenters, List.length_cons, List.length_nil] at hl
      simp only [List.mem_cons, List.not_mem_nil, or_false, not_or] at hln
      omega
    subst hl0
    obtain rfl := Option.some.inj hd
    simp only [List.mem_cons, List.not_mem_nil, or_false] at hj
    rcases hj with rfl | rfl | rfl | rfl
    all_goals
      obtain rfl := Option.some.inj hc
      decide +kernel
  · intro i
    have key : ∀ i : Nat, i < 5 → (lazyTopo[i]?).bind (fun r : List Nat => (r.mapM fun n => lazyCoords[n]?).map fun P =>
        lincomb [1/4, 1/4, 1/4, 1/4] P) = lazyCenters[i]? := by decide +kernel
    by_cases hi : i < 5
    · exact key i hi
    · rw [List.getElem?_eq_none (by simp [lazyTopo]; omega), List.getElem?_eq_none (by simp [lazyCenters]; omega)]
      rfl

/-- A located point: a cube cell split into five tetrahedra, two points, one of them outside. -/
example : locateAll id [(⟨0, 0, 0⟩ : V3 ℚ), ⟨2, 0, 0⟩, ⟨2, 2, 0⟩, ⟨0, 2, 0⟩, ⟨0, 0, 2⟩, ⟨2, 0, 2⟩, ⟨2, 2, 2⟩, ⟨0, 2, 2⟩]
    [[0, 1, 2, 3, 4, 5, 6, 7]] [[1, 2, 0, 5], [3, 0, 2, 7], [5, 4, 7, 0], [6, 5, 7, 2], [0, 2, 7, 5]]
    [⟨-1, -1, -1⟩, ⟨1, -1, -1⟩, ⟨1, 1, -1⟩, ⟨-1, 1, -1⟩, ⟨-1, -1, 1⟩, ⟨1, -1, 1⟩, ⟨1, 1, 1⟩, ⟨-1, 1, 1⟩] (1 / 10 ^ 12)
    [⟨1/2, 3/2, 3/4⟩, ⟨3, 0, 0⟩] = some [(0, 0, ⟨-1/2, 1/2, -1/4⟩)] := by decide +kernel

/-! ## C53 -/

section
variable {K : Type} [Field K]

/-- The nodes of the selected cells: a given id stands for the row at the place where the block has this id. Holds when ids
are row numbers, as in the first block of a mesh. Missing: other blocks (`C53_ids_false`). -/
theorem C53_partial (coords : List (V3 K)) (topo : Topo) (cells : List Nat) (hne : cells ≠ [])
    (hin : ∀ c ∈ cells, c < topo.length) (hnode : ∀ cell ∈ topo, ∀ n ∈ cell, n < coords.length) :
    ∃ r, pointsOfCells coords (List.range topo.length) topo (some cells) = some r ∧ r.length = cells.length ∧
      ∀ (k c : Nat) (cell : List Nat), cells[k]? = some c → topo[(List.range topo.length).idxOf c]? = some cell →
        ∃ e, r[k]? = some e ∧ e.length = cell.length ∧ ∀ (j n : Nat), cell[j]? = some n → e[j]? = coords[n]? := by
  have hf : cells.filter (fun c => (List.range topo.length).contains c) = cells := by
    rw [List.filter_eq_self]
    intro c hc
    simpa using hin c hc
  obtain ⟨rows, h1, h2, h3⟩ := gather?_eq_some (a := topo) hin
  have hsel : selectRows (List.range topo.length) topo (some cells) = some rows := by
    simp only [selectRows, hf]
    rw [if_neg (by simpa using hne), h1]
  obtain ⟨r, h4, h5, h6⟩ := mapM_exists (f := fun row => gather? coords row) (l := rows)
    (P := fun _ cell e => e.length = cell.length ∧ ∀ (j n : Nat), cell[j]? = some n → e[j]? = coords[n]?) (by
      intro i row hi
      have hil : i < cells.length := by rw [← h2]; exact (List.getElem?_eq_some_iff.1 hi).1
      have := h3 i _ (List.getElem?_eq_getElem hil)
      rw [hi] at this
      exact gather?_eq_some fun n hn => hnode row (List.mem_of_getElem? this.symm) n hn)
  refine ⟨r, by simp [pointsOfCells, hsel, h4], by rw [h5, h2], fun k c cell hk hc => ?_⟩
  have hcl := hin c (List.mem_of_getElem? hk)
  have hidx : (List.range topo.length).idxOf c = c := by
    have := List.Nodup.idxOf_getElem (List.nodup_range (n := topo.length)) c (by simpa using hcl)
    simpa using this
  rw [hidx] at hc
  have hrow := h3 k c hk
  rw [hc] at hrow
  have hkr : k < r.length := by rw [h5, h2]; exact (List.getElem?_eq_some_iff.1 hk).1
  obtain ⟨e1, e2⟩ := h6 k cell r[k] hrow (List.getElem?_eq_getElem hkr)
  exact ⟨r[k], List.getElem?_eq_getElem hkr, e1, e2⟩

/-- Without a selection the points of all cells are returned, whatever the ids. -/
theorem C53_all (coords : List (V3 K)) (ids : List Nat) (topo : Topo) (hnode : ∀ cell ∈ topo, ∀ n ∈ cell, n < coords.length) :
    ∃ r, pointsOfCells coords ids topo none = some r ∧ r.length = topo.length ∧
      ∀ (k : Nat) (cell : List Nat), topo[k]? = some cell →
        ∃ e, r[k]? = some e ∧ e.length = cell.length ∧ ∀ (j n : Nat), cell[j]? = some n → e[j]? = coords[n]? := by
  obtain ⟨r, h4, h5, h6⟩ := mapM_exists (f := fun row => gather? coords row) (l := topo)
    (P := fun _ cell e => e.length = cell.length ∧ ∀ (j n : Nat), cell[j]? = some n → e[j]? = coords[n]?)
    (fun i row hi => gather?_eq_some fun n hn => hnode row (List.mem_of_getElem? hi) n hn)
  refine ⟨r, by simp [pointsOfCells, selectRows, h4], h5, fun k cell hk => ?_⟩
  have hkr : k < r.length := by rw [h5]; exact (List.getElem?_eq_some_iff.1 hk).1
  obtain ⟨e1, e2⟩ := h6 k cell r[k] hk (List.getElem?_eq_getElem hkr)
  exact ⟨r[k], List.getElem?_eq_getElem hkr, e1, e2⟩

end

/-- Ids of a later block: the id is used as a row number. Here cell 1 is the first row of the block, but the second row is
returned; cell 2 fails. -/
theorem C53_ids_false : ¬ ∀ (coords : List (V3 ℚ)) (ids : List Nat) (topo : Topo) (c : Nat) (cell : List Nat),
    ids.length = topo.length → ids.Nodup → topo[ids.idxOf c]? = some cell → (∀ row ∈ topo, ∀ n ∈ row, n < coords.length) →
    pointsOfCells coords ids topo (some [c]) = (gather? coords cell).map fun e => [e] := by
  intro h
  have := h [⟨0, 0, 0⟩, ⟨1, 0, 0⟩, ⟨2, 0, 0⟩] [1, 2] [[0, 1], [1, 2]] 1 [0, 1] rfl (by decide) rfl (by decide)
  exact absurd this (by decide +kernel)

theorem C53_range_false : ¬ ∀ (coords : List (V3 ℚ)) (ids : List Nat) (topo : Topo) (c : Nat),
    ids.length = topo.length → c ∈ ids → (∀ row ∈ topo, ∀ n ∈ row, n < coords.length) →
    (pointsOfCells coords ids topo (some [c])).isSome := by
  intro h
  have := h [⟨0, 0, 0⟩, ⟨1, 0, 0⟩, ⟨2, 0, 0⟩] [1, 2] [[0, 1], [1, 2]] 2 rfl (by decide) (by decide)
  exact absurd this (by decide +kernel)

/-- Three evaluation points in a selected cell: rows of the shape function values are selected by cell numbers. Evaluating a
line at parameters 0, 1/2, 1 in cell 0 of a block of two is undefined (one row left for three points). -/
theorem C53_three_points_false : ¬ ∀ (coords : List (V3 ℚ)) (topo : Topo) (cells : List Nat) (shp : List (List ℚ)),
    (∀ row ∈ topo, ∀ n ∈ row, n < coords.length) → (∀ c ∈ cells, c < topo.length) → cells ≠ [] →
    (∀ w ∈ shp, ∀ row ∈ topo, w.length = row.length) →
    (pointsInCells coords (List.range topo.length) topo (some cells) shp).isSome := by
  intro h
  have := h [⟨0, 0, 0⟩, ⟨1, 0, 0⟩, ⟨2, 0, 0⟩] [[0, 1], [1, 2]] [0] [[1, 0], [1/2, 1/2], [0, 1]] (by decide) (by decide)
    (by decide) (by decide)
  exact absurd this (by decide +kernel)

/-- The same with one point fewer works. -/
example : pointsInCells [(⟨0, 0, 0⟩ : V3 ℚ), ⟨1, 0, 0⟩, ⟨2, 0, 0⟩] [0, 1] [[0, 1], [1, 2]] (some [1]) [[1, 0], [1/2, 1/2]] =
    some [[⟨1, 0, 0⟩, ⟨3/2, 0, 0⟩]] := by decide +kernel

/-! ## C54 -/

section
variable {K : Type} [Field K]

/-- `pcoords_to_coords` (used by `points_of_cells(points=...)`): every entry is the sum of the shape functions times the nodes. -/
theorem C54_pcoords {shp : List (List K)} {ec : List (List (V3 K))} (h : ∀ w ∈ shp, ∀ e ∈ ec, w.length = e.length) :
    pcoordsToCoords shp ec = some (ec.map fun e => shp.map fun w => lincomb w e) := by
  unfold pcoordsToCoords
  refine mapM_some fun e he => mapM_some fun w hw => ?_
  unfold comb?
  rw [if_pos (h w hw e he)]

theorem transposeL_some {n : Nat} {a : List (List K)} (h : ∀ r ∈ a, r.length = n) :
    transposeL n a = some ((List.range n).map fun j => a.map fun r => r.getD j 0) := by
  unfold transposeL
  refine mapM_some fun j hj => mapM_some fun r hr => ?_
  have : j < r.length := by rw [h r hr]; exact List.mem_range.1 hj
  rw [List.getElem?_eq_getElem this]
  simp [this]

/-- What `loc_to_glob` computes: nothing, unless there are as many points as nodes, and then the sums over the *points* of the
value of one shape function times the nodes. -/
theorem C54_actual {nNE : Nat} {shp : List (List K)} {ec : List (List (V3 K))} (hs : ∀ w ∈ shp, w.length = nNE)
    (he : ∀ e ∈ ec, e.length = nNE) (hne : ec ≠ []) :
    locToGlob nNE shp ec =
      if shp.length = nNE then some (ec.map fun e => (List.range nNE).map fun a => lincomb (shp.map fun w => w.getD a 0) e)
      else none := by
  unfold locToGlob
  rw [transposeL_some hs, Option.bind_some]
  unfold locToGlobBulk
  simp only [List.length_map, List.length_range]
  by_cases h : shp.length = nNE
  · rw [if_pos h]
    refine mapM_some fun e hem => ?_
    rw [if_pos h.symm, mapM_map']
    refine mapM_some fun a ha => ?_
    unfold comb?
    rw [if_pos (by rw [List.length_map, he e hem, h])]
  · rw [if_neg h]
    obtain ⟨e, l, rfl⟩ := List.exists_cons_of_ne_nil hne
    rw [List.mapM_cons, if_neg (fun h' => h h'.symm)]
    rfl

/-- The claim holds for as many points as nodes if the value of shape function `a` at point `b` is the value of shape function
`b` at point `a`; in particular at the nodes of the master cell in their order. -/
theorem C54_partial {nNE : Nat} {shp : List (List K)} {ec : List (List (V3 K))} (hs : ∀ w ∈ shp, w.length = nNE)
    (he : ∀ e ∈ ec, e.length = nNE) (hsq : shp.length = nNE)
    (hsym : ∀ (a b : Nat) (r s : List K), shp[a]? = some r → shp[b]? = some s → r[b]? = s[a]?) :
    locToGlob nNE shp ec = some (ec.map fun e => shp.map fun w => lincomb w e) := by
  rcases eq_or_ne ec [] with rfl | hne
  · unfold locToGlob
    rw [transposeL_some hs]
    rfl
  rw [C54_actual hs he hne, if_pos hsq]
  congr 1
  apply List.map_congr_left
  intro e hem
  apply List.ext_getElem
  · simp [hsq]
  · intro a h1 h2
    simp only [List.length_map, List.length_range] at h1 h2
    rw [List.getElem_map, List.getElem_map, List.getElem_range]
    congr 1
    have hl : (shp[a]).length = nNE := hs _ (List.getElem_mem h2)
    apply List.ext_getElem
    · rw [List.length_map, hl, hsq]
    · intro b h3 h4
      simp only [List.length_map] at h3
      rw [List.getElem_map]
      have := hsym a b shp[a] shp[b] (List.getElem?_eq_getElem h2) (List.getElem?_eq_getElem h3)
      rw [List.getElem?_eq_getElem h4] at this
      rw [List.getD_eq_getElem?_getD, ← this]
      rfl

/-- The nodes of the master cell are mapped to the nodes of the cells. -/
theorem C54_nodes {nNE : Nat} {shp : List (List K)} {ec : List (List (V3 K))}
    (hshp : shp = (List.range nNE).map fun a => (List.range nNE).map fun b => if a = b then (1 : K) else 0)
    (he : ∀ e ∈ ec, e.length = nNE) : locToGlob nNE shp ec = some ec := by
  subst hshp
  rw [C54_partial (by simp) he (by simp)]
  · congr 1
    conv_rhs => rw [← List.map_id ec]
    apply List.map_congr_left
    intro e hem
    have hl := he e hem
    apply List.ext_getElem
    · simp [hl]
    · intro a h1 h2
      simp only [List.getElem_map, List.getElem_range, id]
      simp only [id] at h2
      -- the unit row selects the point
      have key : ∀ (s : Nat) (l : List (V3 K)) (k : Nat), k = l.length → s ≤ a → a < s + k →
          some (lincomb ((List.range' s k).map fun b => if a = b then (1 : K) else 0) l) = l[a - s]? := by
        intro s l
        induction l generalizing s with
        | nil => intro k hk hs ha; simp at hk; omega
        | cons p l ih =>
          intro k hk hs ha
          subst hk
          rw [List.length_cons, List.range'_succ, List.map_cons, lincomb]
          by_cases hsa : a = s
          · subst hsa
            have hz : ∀ (t : Nat) (q : List (V3 K)), a < t →
                lincomb ((List.range' t q.length).map fun b => if a = b then (1 : K) else 0) q = 0 := by
              intro t q
              induction q generalizing t with
              | nil => intro _; rfl
              | cons x q ihq =>
                intro ht
                rw [List.length_cons, List.range'_succ, List.map_cons, lincomb, ihq (t + 1) (by omega), if_neg (by omega)]
                ext <;> simp
            rw [hz (a + 1) l (by omega), if_pos rfl]
            simp only [Nat.sub_self, List.getElem?_cons_zero]
            congr 1
            ext <;> simp
          · have hsub : a - s = (a - (s + 1)) + 1 := by omega
            rw [if_neg hsa, hsub, List.getElem?_cons_succ,
              ← ih (s + 1) l.length rfl (by omega) (by rw [List.length_cons] at ha; omega)]
            congr 1
            ext <;> simp
      have := key 0 e nNE hl.symm (by omega) (by rw [← hl]; simpa using h2)
      rw [← List.range_eq_range', Nat.sub_zero, List.getElem?_eq_getElem h2] at this
      exact Option.some.inj this
  · intro a b r s hr hs
    rw [List.getElem?_map] at hr hs
    cases ha : (List.range nNE)[a]? with
    | none => rw [ha] at hr; cases hr
    | some a' =>
      cases hb : (List.range nNE)[b]? with
      | none => rw [hb] at hs; cases hs
      | some b' =>
        rw [ha] at hr
        rw [hb] at hs
        have hal := (List.getElem?_eq_some_iff.1 ha).1
        have hbl := (List.getElem?_eq_some_iff.1 hb).1
        simp only [List.length_range] at hal hbl
        rw [List.getElem?_range hal] at ha
        rw [List.getElem?_range hbl] at hb
        obtain rfl := Option.some.inj ha
        obtain rfl := Option.some.inj hb
        obtain rfl := Option.some.inj hr
        obtain rfl := Option.some.inj hs
        rw [List.getElem?_map, List.getElem?_map, List.getElem?_range hal, List.getElem?_range hbl]
        simp only [Option.map_some]
        congr 1
        by_cases h : a = b
        · rw [if_pos h, if_pos h.symm]
        · rw [if_neg h, if_neg fun h' => h h'.symm]

end

/-- One point in a triangle: an error instead of the point. -/
theorem C54_false : ¬ ∀ (shp : List (List ℚ)) (ec : List (List (V3 ℚ))), (∀ w ∈ shp, w.length = 3) → (∀ e ∈ ec, e.length = 3) →
    locToGlob 3 shp ec = some (ec.map fun e => shp.map fun w => lincomb w e) := by
  intro h
  have := h [[1/3, 1/3, 1/3]] [[⟨0, 0, 0⟩, ⟨1, 0, 0⟩, ⟨0, 1, 0⟩]] (by simp) (by simp)
  exact absurd this (by decide +kernel)

/-- As many points as nodes: two points on a line, both at parameter 1/4, give wrong positions. -/
theorem C54_square_false : ¬ ∀ (shp : List (List ℚ)) (ec : List (List (V3 ℚ))), shp.length = 2 → (∀ w ∈ shp, w.length = 2) →
    (∀ e ∈ ec, e.length = 2) → (∀ w ∈ shp, w.sum = 1) →
    locToGlob 2 shp ec = some (ec.map fun e => shp.map fun w => lincomb w e) := by
  intro h
  have := h [[3/4, 1/4], [3/4, 1/4]] [[⟨0, 0, 0⟩, ⟨4, 0, 0⟩]] rfl (by simp) (by simp) (by norm_num)
  exact absurd this (by decide +kernel)

example : locToGlob 2 [[1, 0], [0, 1]] [[(⟨0, 0, 0⟩ : V3 ℚ), ⟨4, 0, 0⟩]] = some [[⟨0, 0, 0⟩, ⟨4, 0, 0⟩]] := by decide +kernel

end PM
