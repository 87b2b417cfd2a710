import Verif.TopoLemmas
import Mathlib.Algebra.BigOperators.Group.List.Basic

/-!
# Properties C01–C08 (index bookkeeping)
-/

namespace PM

/-- **C01** `regularize`: the ids are the used nodes, sorted; the new topology uses exactly `0..len-1` and has
the shape of the old one; looking the new numbers up in the ids gives the old topology. -/
theorem C01_regularize (topo : Topo) :
    (regularize topo).2.Pairwise (· < ·) ∧
    (∀ n, n ∈ (regularize topo).2 ↔ UsesNode topo n) ∧
    (∀ k, UsesNode (regularize topo).1 k ↔ k < (regularize topo).2.length) ∧
    (regularize topo).1.map List.length = topo.map List.length ∧
    (∀ c j n, nodeAt topo c j = some n →
      ∃ k, nodeAt (regularize topo).1 c j = some k ∧ (regularize topo).2[k]? = some n) := by
  have h2 : (regularize topo).2 = npUnique topo.flatten := rfl
  have huse : ∀ n, UsesNode topo n ↔ n ∈ topo.flatten := by
    intro n; simp [UsesNode, List.mem_flatten]
  refine ⟨sorted_npUnique _, ?_, ?_, ?_, ?_⟩
  · intro n; rw [h2, mem_npUnique, huse]
  · intro k
    rw [regularize_fst, h2]
    constructor
    · rintro ⟨row, hrow, hk⟩
      obtain ⟨r, hr, rfl⟩ := List.mem_map.1 hrow
      obtain ⟨x, hx, rfl⟩ := List.mem_map.1 hk
      exact List.idxOf_lt_length_of_mem (mem_npUnique.2 (List.mem_flatten.2 ⟨r, hr, hx⟩))
    · intro hk
      have hm : (npUnique topo.flatten)[k] ∈ topo.flatten := mem_npUnique.1 (List.getElem_mem hk)
      obtain ⟨r, hr, hx⟩ := List.mem_flatten.1 hm
      exact ⟨_, List.mem_map.2 ⟨r, hr, rfl⟩, List.mem_map.2 ⟨_, hx, (nodup_npUnique _).idxOf_getElem _ hk⟩⟩
  · rw [regularize_fst, List.map_map]; apply List.map_congr_left; intro r _; simp
  · intro c j n h
    refine ⟨(npUnique topo.flatten).idxOf n, ?_, npUnique_getElem_idxOf (mem_flatten_of_nodeAt h)⟩
    rw [regularize_fst, nodeAt_map, h]; rfl

example : regularize [[5, 2, 9], [9, 2]] = ([[1, 0, 2], [2, 0]], [2, 5, 9]) := by decide

/-- **C02** `is_regular` answers `True` exactly for gap-free numberings starting at 0; it has no answer
(numpy raises) exactly for a topology without entries. -/
theorem C02_isRegular (topo : Topo) :
    (isRegular topo = none ↔ ∀ n, ¬ UsesNode topo n) ∧
    (isRegular topo = some true ↔ ∃ m, ∀ n, UsesNode topo n ↔ n ≤ m) := by
  have huse : ∀ n, UsesNode topo n ↔ n ∈ topo.flatten := by
    intro n; simp [UsesNode, List.mem_flatten]
  have hnone : isRegular topo = none ↔ topo.flatten = [] := by
    unfold isRegular
    cases h : topo.flatten with
    | nil => simp [minNode?]
    | cons a l => simp [minNode?, maxNode?]
  constructor
  · rw [hnone]
    constructor
    · intro h n hn; rw [huse, h] at hn; simp at hn
    · intro h; exact List.eq_nil_iff_forall_not_mem.2 fun n hn => h n ((huse n).2 hn)
  · constructor
    · intro h
      obtain ⟨mx, _, hb⟩ := isRegular_spec h
      refine ⟨mx, fun n => ?_⟩
      rw [huse, ← mem_npUnique, hb.1 rfl, List.mem_range, Nat.lt_succ_iff]
    · rintro ⟨m, hm⟩
      cases h : isRegular topo with
      | none =>
        rw [hnone] at h
        have := (hm 0).2 (Nat.zero_le _)
        rw [huse, h] at this; simp at this
      | some b =>
        obtain ⟨mx, hmx, hb⟩ := isRegular_spec h
        have hs := maxNode?_spec.1 hmx
        have : mx = m := by
          apply le_antisymm
          · exact (hm mx).1 ((huse _).2 hs.1)
          · exact hs.2 m ((huse _).1 ((hm m).2 le_rfl))
        subst this
        have : b = true := hb.2 (eq_of_sorted_of_mem (sorted_npUnique _) List.pairwise_lt_range fun x => by
          rw [mem_npUnique, ← huse, hm, List.mem_range, Nat.lt_succ_iff])
        rw [this]

/-- **C02** regularized topologies are regular. -/
theorem C02_isRegular_regularize (topo : Topo) (n : Nat) (h : UsesNode topo n) :
    isRegular (regularize topo).1 = some true := by
  rw [(C02_isRegular _).2]
  obtain ⟨_, h2, h3, _⟩ := C01_regularize topo
  have hpos : 0 < (regularize topo).2.length := List.length_pos_of_mem ((h2 n).2 h)
  exact ⟨(regularize topo).2.length - 1, fun k => by rw [h3]; omega⟩

example : isRegular [[0, 1], [1, 2]] = some true ∧ isRegular [[0, 1], [1, 3]] = some false ∧
    isRegular [[1, 2]] = some false := by decide

/-- **C03** plain rewiring: it succeeds iff every node is covered by the map, and then acts entrywise. -/
theorem C03_rewire (topo : Topo) (imap : IMap) :
    (rewire topo imap false = none ↔ ∃ n, UsesNode topo n ∧ imap.get? n = none) ∧
    (∀ t, rewire topo imap false = some t → t.map List.length = topo.map List.length ∧
      ∀ c j n, nodeAt topo c j = some n → ∃ m, imap.get? n = some m ∧ nodeAt t c j = some m) := by
  have key : ∀ (_ : ∀ n, UsesNode topo n → imap.get? n ≠ none),
      remapTopo topo imap = some (topo.map (List.map fun n => (imap.get? n).getD 0)) := by
    intro h
    apply remapTopo_some
    intro row hr x hx
    obtain ⟨y, hy⟩ := Option.ne_none_iff_exists'.1 (h x ⟨row, hr, hx⟩)
    rw [hy]; rfl
  simp only [rewire, Bool.false_eq_true, if_false]
  refine ⟨⟨?_, ?_⟩, ?_⟩
  · intro h
    by_contra hne
    push Not at hne
    rw [key hne] at h
    exact absurd h (by simp)
  · rintro ⟨n, ⟨row, hr, hn⟩, hnone⟩
    exact remapTopo_none hr hn hnone
  · intro t ht
    have hall : ∀ n, UsesNode topo n → imap.get? n ≠ none := by
      rintro n ⟨row, hr, hn⟩ hnone
      rw [remapTopo_none hr hn hnone] at ht
      exact absurd ht (by simp)
    rw [key hall] at ht
    obtain rfl := Option.some.inj ht
    refine ⟨by rw [List.map_map]; apply List.map_congr_left; intro r _; simp, ?_⟩
    intro c j n hn
    have hu : UsesNode topo n := by
      obtain ⟨r, hr, hx⟩ := List.mem_flatten.1 (mem_flatten_of_nodeAt hn); exact ⟨r, hr, hx⟩
    obtain ⟨m, hm⟩ := Option.ne_none_iff_exists'.1 (hall n hu)
    exact ⟨m, hm, by rw [nodeAt_map, hn]; simp [hm]⟩

/-- **C03** rewiring by ids and back, in both orders, and the meaning of the inverse rewiring. -/
theorem C03_rewire_inverse (topo : Topo) (ids : List Nat) (hnd : ids.Nodup) :
    ((∀ n, UsesNode topo n → n ∈ ids) → ∃ t, rewire topo (.arr ids) true = some t ∧
      (∀ c j n, nodeAt topo c j = some n → ∃ k, nodeAt t c j = some k ∧ ids[k]? = some n) ∧
      rewire t (.arr ids) false = some topo) ∧
    ((∀ n, UsesNode topo n → n < ids.length) → ∃ t, rewire topo (.arr ids) false = some t ∧
      rewire t (.arr ids) true = some topo) := by
  constructor
  · intro h
    have h1 : remapTopo topo (.dict (indsToInvmapAsDict ids)) = some (topo.map (List.map ids.idxOf)) := by
      apply remapTopo_some
      intro row hr x hx
      simp [IMap.get?, invmap_get? hnd, h x ⟨row, hr, hx⟩]
    refine ⟨topo.map (List.map ids.idxOf), by simpa [rewire] using h1, ?_, ?_⟩
    · intro c j n hn
      refine ⟨ids.idxOf n, by rw [nodeAt_map, hn]; rfl, List.getElem?_idxOf (h n ?_)⟩
      obtain ⟨r, hr, hx⟩ := List.mem_flatten.1 (mem_flatten_of_nodeAt hn); exact ⟨r, hr, hx⟩
    · simp only [rewire, Bool.false_eq_true, if_false]
      rw [remapTopo_some (g := fun k => ids.getD k 0)]
      · congr 1
        rw [List.map_map]
        conv_rhs => rw [← List.map_id topo]
        apply List.map_congr_left
        intro row hr
        simp only [Function.comp, List.map_map, id]
        conv_rhs => rw [← List.map_id row]
        apply List.map_congr_left
        intro x hx
        simp [List.getElem?_idxOf (h x ⟨row, hr, hx⟩)]
      · intro row hr x hx
        obtain ⟨r, hr', rfl⟩ := List.mem_map.1 hr
        obtain ⟨y, hy, rfl⟩ := List.mem_map.1 hx
        simp [IMap.get?, List.getElem?_idxOf (h y ⟨r, hr', hy⟩)]
  · intro h
    have h1 : remapTopo topo (.arr ids) = some (topo.map (List.map fun k => ids.getD k 0)) := by
      apply remapTopo_some
      intro row hr x hx
      simp [IMap.get?, List.getElem?_eq_getElem (h x ⟨row, hr, hx⟩)]
    refine ⟨_, by simpa [rewire] using h1, ?_⟩
    simp only [rewire, if_true]
    rw [remapTopo_some (g := ids.idxOf)]
    · congr 1
      rw [List.map_map]
      conv_rhs => rw [← List.map_id topo]
      apply List.map_congr_left
      intro row hr
      simp only [Function.comp, List.map_map, id]
      conv_rhs => rw [← List.map_id row]
      apply List.map_congr_left
      intro x hx
      have hlt := h x ⟨row, hr, hx⟩
      simp [List.getElem?_eq_getElem hlt, hnd.idxOf_getElem _ hlt]
    · intro row hr x hx
      obtain ⟨r, hr', rfl⟩ := List.mem_map.1 hr
      obtain ⟨y, hy, rfl⟩ := List.mem_map.1 hx
      have hlt := h y ⟨r, hr', hy⟩
      simp [IMap.get?, invmap_get? hnd, List.getElem?_eq_getElem hlt]

/-- **C03** rewiring twice is rewiring by the composed map. -/
theorem C03_rewire_comp (topo t : Topo) (f g h : IMap) (hcomp : ∀ n, h.get? n = (f.get? n).bind g.get?)
    (hf : rewire topo f false = some t) : rewire t g false = rewire topo h false := by
  simp only [rewire, Bool.false_eq_true, if_false] at *
  unfold remapTopo remapTopo1d at *
  have hrow : ∀ (r s : List Nat), r.mapM f.get? = some s → s.mapM g.get? = r.mapM h.get? := by
    intro r s hrs
    induction r generalizing s with
    | nil => simp at hrs; subst hrs; rfl
    | cons a r ih =>
      have := mapM_eq_some_iff.1 hrs
      cases this with
      | cons h1 h2 =>
        rw [List.mapM_cons, List.mapM_cons, ih _ (mapM_eq_some_iff.2 h2), hcomp a, h1]; rfl
  have hf' := mapM_eq_some_iff.1 hf
  clear hf
  induction hf' with
  | nil => rfl
  | cons h1 h2 ih => rw [List.mapM_cons, List.mapM_cons, ih, hrow _ _ h1]

/-- **C03** the flattened (jagged) route of `rewire` gives the same rows. -/
theorem C03_rewireJagged (topo : Topo) (imap : IMap) : rewireJagged topo imap = rewire topo imap false := by
  simp only [rewire, Bool.false_eq_true, if_false, rewireJagged]
  by_cases h : ∃ n, UsesNode topo n ∧ imap.get? n = none
  · obtain ⟨n, ⟨row, hr, hn⟩, hnone⟩ := h
    rw [remapTopo_none hr hn hnone]
    have : remapTopo1d topo.flatten imap = none :=
      mapM_none (List.mem_flatten.2 ⟨row, hr, hn⟩) hnone
    rw [this]; rfl
  · push Not at h
    have hg : ∀ n, UsesNode topo n → imap.get? n = some ((imap.get? n).getD 0) := by
      intro n hn
      obtain ⟨y, hy⟩ := Option.ne_none_iff_exists'.1 (h n hn)
      rw [hy]; rfl
    rw [remapTopo_some (g := fun n => (imap.get? n).getD 0) fun row hr x hx => hg x ⟨row, hr, hx⟩,
      remapTopo1d_some (g := fun n => (imap.get? n).getD 0) fun x hx => by
        obtain ⟨r, hr, hx⟩ := List.mem_flatten.1 hx; exact hg x ⟨r, hr, hx⟩]
    exact congrArg some (splitCuts_map_flatten _ _)

example : rewire [[7, 3], [3, 5]] (.arr [3, 5, 7]) true = some [[2, 0], [0, 1]] ∧
    rewire [[2, 0], [0, 1]] (.arr [3, 5, 7]) false = some [[7, 3], [3, 5]] ∧
    rewire [[2, 3]] (.arr [3, 5, 7]) false = none := by decide

/-- **C04** `detach`: cells keep their geometry, exactly the used points are kept, each once and in order. -/
theorem C04_detach {α : Type} (coords : List α) (topo : Topo) (h : ∀ n, UsesNode topo n → n < coords.length) :
    ∃ (c : List α) (t : Topo) (ids : List Nat), detach coords topo none = some (c, t) ∧
      ids.Pairwise (· < ·) ∧ (∀ n, n ∈ ids ↔ UsesNode topo n) ∧
      c.length = ids.length ∧ (∀ k n : Nat, ids[k]? = some n → c[k]? = coords[n]?) ∧
      t.map List.length = topo.map List.length ∧ (∀ k, UsesNode t k ↔ k < c.length) ∧
      (∀ i j n, nodeAt topo i j = some n → ∃ k, nodeAt t i j = some k ∧ c[k]? = coords[n]?) := by
  obtain ⟨h1, h2, h3, h4, h5⟩ := C01_regularize topo
  have hids : (regularize topo).2 = npUnique topo.flatten := rfl
  obtain ⟨c, hc, hcl, hcg⟩ := gather?_eq_some (a := coords) (inds := npUnique topo.flatten) (by
    intro i hi; exact h i ((h2 i).1 hi))
  have ht : remapTopo topo (.dict (indsToInvmapAsDict (npUnique topo.flatten))) = some (regularize topo).1 := by
    rw [regularize_fst]
    apply remapTopo_some
    intro row hr x hx
    have : x ∈ npUnique topo.flatten := mem_npUnique.2 (List.mem_flatten.2 ⟨row, hr, hx⟩)
    simp [IMap.get?, invmap_get? (nodup_npUnique _), this]
  refine ⟨c, (regularize topo).1, (regularize topo).2, ?_, h1, h2, hcl, hcg, h4, ?_, ?_⟩
  · simp [detach, detachMeshBulk, hc, ht]
  · intro k; rw [h3, hcl, hids]
  · intro i j n hn
    obtain ⟨k, hk, hkn⟩ := h5 i j n hn
    exact ⟨k, hk, hcg k n hkn⟩

/-- **C04** `detach` with global ids: `topo` refers to points by global id, `ids[k]` is the id of row `k`. -/
theorem C04_detach_inds {α : Type} (coords : List α) (topo : Topo) (ids : List Nat) (hnd : ids.Nodup)
    (hl : ids.length = coords.length) (h : ∀ n, UsesNode topo n → n ∈ ids) :
    ∃ c t, detach coords topo (some ids) = some (c, t) ∧ (∀ k, UsesNode t k ↔ k < c.length) ∧
      ∀ i j n p : Nat, nodeAt topo i j = some n → ids[p]? = some n →
        ∃ k, nodeAt t i j = some k ∧ c[k]? = coords[p]? := by
  obtain ⟨t0, ht0, hn0, -⟩ := (C03_rewire_inverse topo ids hnd).1 h
  have hlen : t0.map List.length = topo.map List.length := by
    have := (C03_rewire topo (.dict (indsToInvmapAsDict ids))).2 t0 (by
      simpa [rewire] using ht0)
    exact this.1
  have hback : ∀ i j k, nodeAt t0 i j = some k → ∃ n, nodeAt topo i j = some n := by
    intro i j k hk
    unfold nodeAt at hk ⊢
    cases hr : t0[i]? with
    | none => simp [hr] at hk
    | some r0 =>
      simp [hr] at hk
      have hli : (t0.map List.length)[i]? = some r0.length := by simp [hr]
      rw [hlen, List.getElem?_map] at hli
      cases hr1 : topo[i]? with
      | none => simp [hr1] at hli
      | some r1 =>
        simp [hr1] at hli
        have : j < r1.length := by
          rw [hli]; exact (List.getElem?_eq_some_iff.1 hk).1
        exact ⟨r1[j], by simp [List.getElem?_eq_getElem this]⟩
  have hlt : ∀ k, UsesNode t0 k → k < coords.length := by
    rintro k ⟨row, hr, hk⟩
    obtain ⟨i, j, hij⟩ := exists_nodeAt_of_mem (List.mem_flatten.2 ⟨row, hr, hk⟩)
    obtain ⟨n, hn⟩ := hback i j k hij
    obtain ⟨k', hk', hidk⟩ := hn0 i j n hn
    rw [hij] at hk'
    obtain rfl := Option.some.inj hk'
    rw [← hl]; exact (List.getElem?_eq_some_iff.1 hidk).1
  obtain ⟨c, t, ids', hd, -, -, -, -, -, hu, hg⟩ := C04_detach coords t0 hlt
  refine ⟨c, t, ?_, hu, ?_⟩
  · simp only [detach, ht0, Option.bind_eq_bind, Option.bind_some]; exact hd
  · intro i j n p hn hp
    obtain ⟨k0, hk0, hid⟩ := hn0 i j n hn
    obtain ⟨k, hk, hck⟩ := hg i j k0 hk0
    refine ⟨k, hk, ?_⟩
    rw [hck]
    have : k0 = p := (List.getElem?_inj (List.getElem?_eq_some_iff.1 hid).1 hnd).1 (hid.trans hp.symm)
    rw [this]

/-- **C04** the jagged route and the route carrying nodal data agree with `detach`. -/
theorem C04_detach_variants {α β : Type} (coords : List α) (data : List β) (topo : Topo)
    (h : ∀ n, UsesNode topo n → n < coords.length) (hd : data.length = coords.length) :
    detachMeshJagged coords topo = detach coords topo none ∧
    ∃ c t d, detachMeshDataBulk coords topo data = some (c, d, t) ∧ detach coords topo none = some (c, t) ∧
      ∀ i j n, nodeAt topo i j = some n → ∃ k, nodeAt t i j = some k ∧ c[k]? = coords[n]? ∧ d[k]? = data[n]? := by
  have h2 := (C01_regularize topo).2.1
  have h5 := (C01_regularize topo).2.2.2.2
  have hj := C03_rewireJagged topo (.dict (indsToInvmapAsDict (npUnique topo.flatten)))
  obtain ⟨c, hc, hcl, hcg⟩ := gather?_eq_some (a := coords) (inds := npUnique topo.flatten) (by
    intro i hi; exact h i ((h2 i).1 hi))
  obtain ⟨d, hdd, hdl, hdg⟩ := gather?_eq_some (a := data) (inds := npUnique topo.flatten) (by
    intro i hi; rw [hd]; exact h i ((h2 i).1 hi))
  have ht : remapTopo topo (.dict (indsToInvmapAsDict (npUnique topo.flatten))) = some (regularize topo).1 := by
    rw [regularize_fst]
    apply remapTopo_some
    intro row hr x hx
    have : x ∈ npUnique topo.flatten := mem_npUnique.2 (List.mem_flatten.2 ⟨row, hr, hx⟩)
    simp [IMap.get?, invmap_get? (nodup_npUnique _), this]
  constructor
  · simp only [rewireJagged, rewire, Bool.false_eq_true, if_false, ht] at hj
    cases h1 : remapTopo1d topo.flatten (.dict (indsToInvmapAsDict (npUnique topo.flatten))) with
    | none => simp [h1] at hj
    | some r =>
      simp [h1] at hj
      simp [detachMeshJagged, detach, detachMeshBulk, hc, h1, hj, ht]
  · refine ⟨c, (regularize topo).1, d, ?_, ?_, ?_⟩
    · simp [detachMeshDataBulk, hc, hdd, ht]
    · simp [detach, detachMeshBulk, hc, ht]
    · intro i j n hn
      obtain ⟨k, hk, hkn⟩ := h5 i j n hn
      exact ⟨k, hk, hcg k n hkn, hdg k n hkn⟩

example : detach [10, 20, 30, 40, 50] [[4, 1], [1, 3]] none = some ([20, 40, 50], [[2, 0], [0, 1]]) := by decide
example : detach [10, 20, 30] [[7, 9], [9, 7]] (some [5, 7, 9]) = some ([20, 30], [[0, 1], [1, 0]]) := by decide

/-- **C05** `count_cells_at_nodes` (array form) counts occurrences, and the counts add up to the number of
entries. -/
theorem C05_count (topo : Topo) (mx : Nat) (hu : UsesNode topo mx) (hmax : ∀ n, UsesNode topo n → n ≤ mx) :
    ∃ r, countCellsAtNodesReg topo = some r ∧ r.length = mx + 1 ∧
      (∀ n, n ≤ mx → r[n]? = some (topo.map fun row => row.count n).sum) ∧
      r.sum = (topo.map List.length).sum := by
  have huse : ∀ n, UsesNode topo n ↔ n ∈ topo.flatten := by
    intro n; simp [UsesNode, List.mem_flatten]
  have hm : maxNode? topo.flatten = some mx := maxNode?_spec.2
    ⟨(huse _).1 hu, fun x hx => hmax x ((huse _).2 hx)⟩
  obtain ⟨r, hr, hl, hg⟩ := countCellsAtNodesReg_spec hm
  refine ⟨r, hr, hl, ?_, ?_⟩
  · intro n hn; rw [hg n hn, List.count_flatten]
  · rw [sum_eq_sum_range (r := r) (f := fun n => topo.flatten.count n) (fun n hn => hg n (by omega)), hl,
      ← List.length_flatten]
    have : ∀ (l : List Nat), (∀ x ∈ l, x < mx + 1) →
        ((List.range (mx + 1)).map fun n => l.count n).sum = l.length := by
      intro l hl
      induction l with
      | nil => simp
      | cons a l ih =>
        have ha : a < mx + 1 := hl a List.mem_cons_self
        have : ((List.range (mx + 1)).map fun n => (a :: l).count n).sum =
            ((List.range (mx + 1)).map fun n => l.count n).sum +
            ((List.range (mx + 1)).map fun n => if a = n then 1 else 0).sum := by
          rw [← List.sum_map_add]
          congr 1
          apply List.map_congr_left
          intro n _
          by_cases h : a = n <;> simp [List.count_cons, h]
        rw [this, ih fun x hx => hl x (List.mem_cons_of_mem _ hx), List.length_cons]
        congr 1
        have h2 : ∀ m, ((List.range m).map fun n => if a = n then 1 else 0).sum = if a < m then 1 else 0 := by
          intro m
          induction m with
          | zero => simp
          | succ m ihm =>
            rw [List.range_succ, List.map_append, List.sum_append, ihm]
            simp only [List.map_cons, List.map_nil, List.sum_cons, List.sum_nil]
            split <;> split <;> split <;> omega
        rw [h2, if_pos ha]
    exact this _ fun x hx => Nat.lt_succ_of_le (hmax x ((huse _).2 hx))

/-- **C05** when no cell repeats a node, the count of a node is the number of cells containing it. -/
theorem C05_count_cells (topo : Topo) (hnd : ∀ row ∈ topo, row.Nodup) (n : Nat) :
    (topo.map fun row => row.count n).sum = (topo.filter fun row => n ∈ row).length := by
  induction topo with
  | nil => rfl
  | cons r t ih =>
    rw [List.map_cons, List.sum_cons, ih fun row hr => hnd row (List.mem_cons_of_mem _ hr), List.filter_cons]
    have := (hnd r List.mem_cons_self).count (a := n)
    by_cases h : n ∈ r
    · simp [h, this]; omega
    · simp [h, this]

theorem foldlM_countDict {nodeIDs : List Nat} (hnd : nodeIDs.Nodup) {l : List Nat}
    (h : ∀ v ∈ l, v < nodeIDs.length) {d : PyDict Nat Nat} (hd : ∀ k ∈ nodeIDs, ∃ c, d.get? k = some c) :
    ∃ r, l.foldlM (countDictStep nodeIDs) d = some r ∧ (∀ k, k ∉ nodeIDs → r.get? k = d.get? k) ∧
      ∀ v k c, nodeIDs[v]? = some k → d.get? k = some c → r.get? k = some (c + l.count v) := by
  induction l generalizing d with
  | nil => exact ⟨d, rfl, fun _ _ => rfl, by simp⟩
  | cons v l ih =>
    have hv := h v List.mem_cons_self
    obtain ⟨c, hc⟩ := hd nodeIDs[v] (List.getElem_mem hv)
    have hstep : countDictStep nodeIDs d v = some (d.set nodeIDs[v] (c + 1)) := by
      simp [countDictStep, List.getElem?_eq_getElem hv, hc]
    obtain ⟨r, hr, hk, hg⟩ := ih (fun w hw => h w (List.mem_cons_of_mem _ hw))
      (d := d.set nodeIDs[v] (c + 1)) (by
        intro k hk
        rw [PyDict.get?_set]
        split
        · exact ⟨_, rfl⟩
        · exact hd k hk)
    refine ⟨r, ?_, ?_, ?_⟩
    · rw [List.foldlM_cons, hstep]; exact hr
    · intro k hkn
      rw [hk k hkn, PyDict.get?_set, if_neg]
      rintro rfl; exact hkn (List.getElem_mem hv)
    · intro w k c' hw hc'
      by_cases hvw : v = w
      · subst hvw
        have : k = nodeIDs[v] := by simpa [List.getElem?_eq_getElem hv] using hw.symm
        subst this
        rw [hg v _ (c + 1) hw (by rw [PyDict.get?_set, if_pos rfl])]
        rw [hc] at hc'
        obtain rfl := Option.some.inj hc'
        rw [List.count_cons_self]; congr 1; omega
      · have hne : nodeIDs[v] ≠ k := by
          intro he
          apply hvw
          exact (List.getElem?_inj hv hnd).1 (by rw [hw, List.getElem?_eq_getElem hv, he])
        rw [hg w k c' hw (by rw [PyDict.get?_set, if_neg hne]; exact hc'), List.count_cons_of_ne hvw]

/-- **C05** dictionary form (any numbering): the keys are the used nodes and the values their numbers of
occurrences. -/
theorem C05_count_dict (topo : Topo) :
    ∃ d, countCellsAtNodesDict topo = some d ∧
      ∀ n, d.get? n = if n ∈ topo.flatten then some (topo.map fun row => row.count n).sum else none := by
  set u := npUnique topo.flatten with hu
  have hnd : u.Nodup := nodup_npUnique _
  have h1 : (regularize topo).1.flatten = topo.flatten.map u.idxOf := by
    rw [regularize_fst, List.map_flatten]
  have hz : ∀ (l : List Nat) (d : PyDict Nat Nat) k, (l.foldl (fun d k => d.set k 0) d).get? k =
      if k ∈ l then some 0 else d.get? k := by
    intro l
    induction l with
    | nil => simp
    | cons a l ih =>
      intro d k
      rw [List.foldl_cons, ih]
      by_cases hk : k ∈ l
      · simp [hk]
      · by_cases ha : a = k <;> simp [PyDict.get?_set, hk, ha, eq_comm]
        
  obtain ⟨r, hr, hk, hg⟩ := foldlM_countDict (nodeIDs := u) hnd (l := topo.flatten.map u.idxOf)
    (d := u.foldl (fun d k => d.set k 0) []) (by
      intro v hv
      obtain ⟨x, hx, rfl⟩ := List.mem_map.1 hv
      exact List.idxOf_lt_length_of_mem (mem_npUnique.2 hx))
    (by intro k hk; exact ⟨0, by rw [hz, if_pos hk]⟩)
  refine ⟨r, ?_, ?_⟩
  · simp only [countCellsAtNodesDict, h1]; exact hr
  · intro n
    split
    · rename_i hn
      have hm : n ∈ u := mem_npUnique.2 hn
      rw [hg (u.idxOf n) n 0 (List.getElem?_idxOf hm) (by rw [hz, if_pos hm])]
      rw [Nat.zero_add, ← List.count_flatten]
      congr 1
      have : ∀ (l : List Nat), (∀ x ∈ l, x ∈ u) → (l.map u.idxOf).count (u.idxOf n) = l.count n := by
        intro l hl
        induction l with
        | nil => rfl
        | cons a l ih =>
          rw [List.map_cons, List.count_cons, List.count_cons, ih fun x hx => hl x (List.mem_cons_of_mem _ hx)]
          congr 1
          have : (u.idxOf a = u.idxOf n) ↔ a = n := List.idxOf_inj (hl a List.mem_cons_self)
          simp [this]
      exact this _ fun x hx => mem_npUnique.2 hx
    · rename_i hn
      rw [hk n (fun h => hn (mem_npUnique.1 h)), hz, if_neg fun h => hn (mem_npUnique.1 h)]
      rfl

example : countCellsAtNodesReg [[0, 1, 2], [2, 1, 3]] = some [1, 2, 2, 1] := by decide
example : countCellsAtNodesDict [[10, 5], [5, 7]] = some [(5, 2), (7, 1), (10, 1)] := by decide

/-- **C06** raw format: for every node the first `count` slots list exactly its incidences. -/
theorem C06_cells_at_nodes_raw (topo : Topo) (mx : Nat) (hu : UsesNode topo mx)
    (hmax : ∀ n, UsesNode topo n → n ≤ mx) :
    ∃ s, cellsAtNodesReg topo = some s ∧ s.count.length = mx + 1 ∧
      ∀ n, n ≤ mx → ∃ ps c er nr, IncidenceList topo n ps ∧ s.count[n]? = some c ∧ s.ereg[n]? = some er ∧
        s.nreg[n]? = some nr ∧ c = ps.length ∧ er.take c = ps.map Prod.fst ∧ nr.take c = ps.map Prod.snd := by
  have huse : ∀ n, UsesNode topo n ↔ n ∈ topo.flatten := by
    intro n; simp [UsesNode, List.mem_flatten]
  have hm : maxNode? topo.flatten = some mx := maxNode?_spec.2
    ⟨(huse _).1 hu, fun x hx => hmax x ((huse _).2 hx)⟩
  obtain ⟨s, cmax, hs, hi⟩ := cellsAtNodesReg_spec hm
  refine ⟨s, hs, hi.lc, ?_⟩
  intro n hn
  have hnN : n < mx + 1 := Nat.lt_succ_of_le hn
  obtain ⟨er, her, -, hert⟩ := hi.he n hnN
  obtain ⟨nr, hnr, -, hnrt⟩ := hi.hn n hnN
  refine ⟨_, _, er, nr, incidence_atNode topo n, hi.hc n hnN, her, hnr, by simp, ?_, ?_⟩
  · rw [hert, List.map_map]; rfl
  · rw [hnrt, List.map_map]; rfl

/-- **C06** jagged format. -/
theorem C06_cells_at_nodes_jagged (topo : Topo) (mx : Nat) (hu : UsesNode topo mx)
    (hmax : ∀ n, UsesNode topo n → n ≤ mx) :
    ∃ E N, cellsAtNodesJagged topo = some (E, N) ∧ E.length = mx + 1 ∧ N.length = mx + 1 ∧
      ∀ n, n ≤ mx → ∃ ps, IncidenceList topo n ps ∧ E[n]? = some (ps.map Prod.fst) ∧
        N[n]? = some (ps.map Prod.snd) := by
  have huse : ∀ n, UsesNode topo n ↔ n ∈ topo.flatten := by
    intro n; simp [UsesNode, List.mem_flatten]
  have hm : maxNode? topo.flatten = some mx := maxNode?_spec.2
    ⟨(huse _).1 hu, fun x hx => hmax x ((huse _).2 hx)⟩
  obtain ⟨s, cmax, hs, hi⟩ := cellsAtNodesReg_spec hm
  have ht1 : (trimRows s.count s.ereg).map List.length = s.count := by
    apply trimRows_length (by rw [hi.le, hi.lc])
    intro n c er hc he
    have hn : n < mx + 1 := by rw [← hi.lc]; exact (List.getElem?_eq_some_iff.1 hc).1
    obtain ⟨er', her', hl, ht⟩ := hi.he n hn
    rw [her'] at he; obtain rfl := Option.some.inj he
    rw [hi.hc n hn] at hc; obtain rfl := Option.some.inj hc
    have := congrArg List.length ht
    rw [List.length_take, List.length_map] at this; omega
  have ht2 : (trimRows s.count s.nreg).map List.length = s.count := by
    apply trimRows_length (by rw [hi.ln, hi.lc])
    intro n c er hc he
    have hn : n < mx + 1 := by rw [← hi.lc]; exact (List.getElem?_eq_some_iff.1 hc).1
    obtain ⟨er', her', hl, ht⟩ := hi.hn n hn
    rw [her'] at he; obtain rfl := Option.some.inj he
    rw [hi.hc n hn] at hc; obtain rfl := Option.some.inj hc
    have := congrArg List.length ht
    rw [List.length_take, List.length_map] at this; omega
  refine ⟨trimRows s.count s.ereg, trimRows s.count s.nreg, ?_, ?_, ?_, ?_⟩
  · simp [cellsAtNodesJagged, hs, splitCuts_spdata ht1, splitCuts_spdata ht2]
  · have := congrArg List.length ht1; rw [List.length_map] at this; rw [this, hi.lc]
  · have := congrArg List.length ht2; rw [List.length_map] at this; rw [this, hi.lc]
  · intro n hn
    have hnN : n < mx + 1 := Nat.lt_succ_of_le hn
    obtain ⟨er, her, -, hert⟩ := hi.he n hnN
    obtain ⟨nr, hnr, -, hnrt⟩ := hi.hn n hnN
    refine ⟨_, incidence_atNode topo n, ?_, ?_⟩
    · rw [trimRows_getElem? (hi.hc n hnN) her, hert, List.map_map]; rfl
    · rw [trimRows_getElem? (hi.hc n hnN) hnr, hnrt, List.map_map]; rfl

/-- **C06** dictionary format, any numbering, with the caller's own cell ids: the keys are exactly the used
nodes and the entries list the ids of the incident cells and the positions. -/
theorem C06_cells_at_nodes_dicts (topo : Topo) (n₀ : Nat) (h₀ : UsesNode topo n₀) (cellIDs : Option (List Nat))
    (hc : ∀ l, cellIDs = some l → l.length = topo.length) :
    ∃ E N, cellsAtNodesDicts topo cellIDs = some (E, N) ∧
      (∀ n, UsesNode topo n ∨ (E.get? n = none ∧ N.get? n = none)) ∧
      ∀ n, UsesNode topo n → ∃ ps, IncidenceList topo n ps ∧
        E.get? n = some (ps.map fun p => (cellIDs.getD (List.range topo.length)).getD p.1 0) ∧
        N.get? n = some (ps.map Prod.snd) := by
  have huse : ∀ n, UsesNode topo n ↔ n ∈ topo.flatten := by
    intro n; simp [UsesNode, List.mem_flatten]
  have hne : topo.flatten ≠ [] := List.ne_nil_of_mem ((huse _).1 h₀)
  refine ⟨_, _, cellsAtNodesDicts_eq hne cellIDs hc, ?_, ?_⟩
  · intro n
    by_cases h : UsesNode topo n
    · exact Or.inl h
    · right
      have aux : ∀ {β : Type} (f : Nat → β), PyDict.get? ((npUnique topo.flatten).map fun n => (n, f n)) n = none := by
        intro β f
        cases hg : PyDict.get? ((npUnique topo.flatten).map fun n => (n, f n)) n with
        | none => rfl
        | some v =>
          exfalso
          obtain ⟨m, hm, he⟩ := List.mem_map.1 (PyDict.mem_of_get? hg)
          obtain ⟨rfl, -⟩ := Prod.mk.inj he
          exact h ((huse _).2 (mem_npUnique.1 hm))
      exact ⟨aux _, aux _⟩
  · intro n hn
    have hmem : n ∈ npUnique topo.flatten := mem_npUnique.2 ((huse _).1 hn)
    refine ⟨_, incidence_atNode topo n, ?_, ?_⟩
    · rw [List.map_map]
      exact PyDict.get?_of_mem (by rw [List.map_map]; simpa [Function.comp_def] using nodup_npUnique _)
        (List.mem_map.2 ⟨n, hmem, rfl⟩)
    · rw [List.map_map]
      exact PyDict.get?_of_mem (by rw [List.map_map]; simpa [Function.comp_def] using nodup_npUnique _)
        (List.mem_map.2 ⟨n, hmem, rfl⟩)

/-- **C06** consequence of an incidence list when cells repeat no node: the cells are listed in strictly
ascending order and are exactly the cells containing the node. -/
theorem C06_incidence_cells (topo : Topo) (hnd : ∀ row ∈ topo, row.Nodup) (n : Nat) (ps : List (Nat × Nat))
    (h : IncidenceList topo n ps) :
    (ps.map Prod.fst).Pairwise (· < ·) ∧
    ∀ c, c ∈ ps.map Prod.fst ↔ ∃ row, topo[c]? = some row ∧ n ∈ row := by
  constructor
  · rw [List.pairwise_map]
    refine h.sorted.imp_of_mem ?_
    rintro ⟨c, j⟩ ⟨c', j'⟩ h1 h2 hlt
    rcases hlt with hlt | ⟨heq, hlt⟩
    · exact hlt
    · exfalso
      simp only at heq hlt
      subst heq
      have e1 := (h.exact c j).1 h1
      have e2 := (h.exact c j').1 h2
      unfold nodeAt at e1 e2
      cases hr : topo[c]? with
      | none => simp [hr] at e1
      | some row =>
        simp [hr] at e1 e2
        have := (List.getElem?_inj (List.getElem?_eq_some_iff.1 e1).1 (hnd row (List.mem_of_getElem? hr))).1
          (e1.trans e2.symm)
        omega
  · intro c
    simp only [List.mem_map, Prod.exists, exists_and_right, exists_eq_right]
    constructor
    · rintro ⟨j, hj⟩
      have e := (h.exact c j).1 hj
      unfold nodeAt at e
      cases hr : topo[c]? with
      | none => simp [hr] at e
      | some row => simp [hr] at e; exact ⟨row, rfl, List.mem_of_getElem? e⟩
    · rintro ⟨row, hr, hn⟩
      obtain ⟨j, hj⟩ := List.getElem?_of_mem hn
      exact ⟨j, (h.exact c j).2 (by simp [nodeAt, hr, hj])⟩

example : cellsAtNodesJagged [[0, 1, 2], [2, 1, 3]] =
    some ([[0], [0, 1], [0, 1], [1]], [[0], [1, 1], [2, 0], [2]]) := by decide
example : cellsAtNodesDicts [[10, 5], [5, 7]] (some [100, 101]) =
    some ([(5, [100, 101]), (7, [101]), (10, [100])], [(5, [1, 0]), (7, [1]), (10, [0])]) := by decide

/-- **C07** nodal adjacency: the keys are exactly the used nodes; `m` is listed for `n` iff a cell contains both;
every list is strictly sorted. -/
theorem C07_nodal_adjacency (topo : Topo) (n₀ : Nat) (h₀ : UsesNode topo n₀) :
    ∃ d, nodalAdjacency topo = some d ∧
      (∀ n, UsesNode topo n ↔ ∃ l, d.get? n = some l) ∧
      ∀ n l, d.get? n = some l → l.Pairwise (· < ·) ∧
        ∀ m, m ∈ l ↔ ∃ row ∈ topo, n ∈ row ∧ m ∈ row := by
  have huse : ∀ n, UsesNode topo n ↔ n ∈ topo.flatten := by
    intro n; simp [UsesNode, List.mem_flatten]
  have hne : topo.flatten ≠ [] := List.ne_nil_of_mem ((huse _).1 h₀)
  have hE := cellsAtNodesDicts_eq hne none (by simp)
  set es := entriesOf topo with hes
  let rowsOf : Nat → List (List Nat) := fun n => (atNode es n).map fun e => topo.getD e.cell []
  have hd : nodalAdjacency topo = some ((npUnique topo.flatten).map fun n => (n, npUnique (rowsOf n).flatten)) := by
    simp only [nodalAdjacency, hE, Option.bind_eq_bind, Option.bind_some]
    have hcell : ∀ n, (atNode es n).map (fun e : Entry => ((none : Option (List Nat)).getD (List.range topo.length)).getD e.cell 0)
        = (atNode es n).map Entry.cell := by
      intro n
      apply List.map_congr_left
      intro e he
      have := cell_lt_of_mem_entriesOf (List.mem_of_mem_filter he)
      simp [this]
    simp only [hcell]
    rw [mapM_some (g := fun x : Nat × List Nat => (x.1, npUnique (x.2.map fun c => topo.getD c []).flatten))]
    · rw [List.map_map]
      congr 1
      apply List.map_congr_left
      intro n _
      simp only [Function.comp, rowsOf, List.map_map]
      rfl
    · intro x hx
      obtain ⟨n, hn, rfl⟩ := List.mem_map.1 hx
      have : gather? topo ((atNode es n).map Entry.cell) =
          some (((atNode es n).map Entry.cell).map fun c => topo.getD c []) := by
        unfold gather?
        apply mapM_some
        intro c hc
        obtain ⟨e, he, rfl⟩ := List.mem_map.1 hc
        have := cell_lt_of_mem_entriesOf (List.mem_of_mem_filter he)
        simp [List.getElem?_eq_getElem this]
      simp [adjacencyStep, this]
  have hkeys : (((npUnique topo.flatten).map fun n => (n, npUnique (rowsOf n).flatten)).map Prod.fst).Nodup := by
    rw [List.map_map]; simpa [Function.comp_def] using nodup_npUnique _
  refine ⟨_, hd, ?_, ?_⟩
  · intro n
    constructor
    · intro hn
      exact ⟨_, PyDict.get?_of_mem hkeys (List.mem_map.2 ⟨n, mem_npUnique.2 ((huse _).1 hn), rfl⟩)⟩
    · rintro ⟨l, hl⟩
      obtain ⟨m, hm, he⟩ := List.mem_map.1 (PyDict.mem_of_get? hl)
      obtain ⟨rfl, -⟩ := Prod.mk.inj he
      exact (huse _).2 (mem_npUnique.1 hm)
  · intro n l hl
    obtain ⟨m, hm, he⟩ := List.mem_map.1 (PyDict.mem_of_get? hl)
    obtain ⟨rfl, rfl⟩ := Prod.mk.inj he
    refine ⟨sorted_npUnique _, ?_⟩
    intro k
    rw [mem_npUnique, List.mem_flatten]
    constructor
    · rintro ⟨row, hrow, hk⟩
      obtain ⟨e, he, rfl⟩ := List.mem_map.1 hrow
      simp only [atNode, List.mem_filter, beq_iff_eq] at he
      obtain ⟨he, hen⟩ := he
      have hlt := cell_lt_of_mem_entriesOf he
      have hat := mem_entriesOf.1 he
      simp only [List.getD_eq_getElem?_getD, List.getElem?_eq_getElem hlt, Option.getD_some] at hk
      refine ⟨topo[e.cell], List.getElem_mem hlt, ?_, hk⟩
      simp only [nodeAt, List.getElem?_eq_getElem hlt, Option.bind_eq_bind, Option.bind_some] at hat
      rw [hen] at hat
      exact List.mem_of_getElem? hat
    · rintro ⟨row, hrow, hn, hk⟩
      obtain ⟨c, hc⟩ := List.getElem?_of_mem hrow
      obtain ⟨j, hj⟩ := List.getElem?_of_mem hn
      refine ⟨row, List.mem_map.2 ⟨⟨c, j, m⟩, ?_, by simp [hc]⟩, hk⟩
      simp only [atNode, List.mem_filter, beq_iff_eq, and_true]
      exact mem_entriesOf.2 (by simp [nodeAt, hc, hj])

/-- **C07** the adjacency lists are symmetric and reflexive. -/
theorem C07_adjacency_symm (topo : Topo) (d : PyDict Nat (List Nat)) (hd : nodalAdjacency topo = some d) :
    (∀ n l, d.get? n = some l → n ∈ l) ∧
    (∀ n l m, d.get? n = some l → m ∈ l → ∃ l', d.get? m = some l' ∧ n ∈ l') := by
  have hex : ∀ n l, d.get? n = some l → ∃ n₀, UsesNode topo n₀ := by
    intro n l hl
    by_contra hno
    push Not at hno
    have hnil : topo.flatten = [] := List.eq_nil_iff_forall_not_mem.2 fun x hx => by
      obtain ⟨r, hr, hx⟩ := List.mem_flatten.1 hx; exact hno x ⟨r, hr, hx⟩
    have : isRegular topo = none := by simp [isRegular, hnil, minNode?]
    simp [nodalAdjacency, cellsAtNodesDicts, this] at hd
  constructor
  · intro n l hl
    obtain ⟨n₀, h₀⟩ := hex n l hl
    obtain ⟨d', hd', hk, hs⟩ := C07_nodal_adjacency topo n₀ h₀
    rw [hd] at hd'; obtain rfl := Option.some.inj hd'
    obtain ⟨row, hr, hn⟩ := (hk n).2 ⟨l, hl⟩
    exact ((hs n l hl).2 n).2 ⟨row, hr, hn, hn⟩
  · intro n l m hl hm
    obtain ⟨n₀, h₀⟩ := hex n l hl
    obtain ⟨d', hd', hk, hs⟩ := C07_nodal_adjacency topo n₀ h₀
    rw [hd] at hd'; obtain rfl := Option.some.inj hd'
    obtain ⟨row, hr, hn, hm'⟩ := ((hs n l hl).2 m).1 hm
    obtain ⟨l', hl'⟩ := (hk m).1 ⟨row, hr, hm'⟩
    exact ⟨l', hl', ((hs m l' hl').2 n).2 ⟨row, hr, hm', hn⟩⟩

/-- **C07** jagged format: the rows are the adjacency lists in the order of the dictionary. -/
theorem C07_adjacency_jagged (dol : PyDict Nat (List Nat)) : dolToJagged dol = dol.map Prod.snd := by
  set vals := dol.map (fun x => x.2) with hv
  have htrim : trimRows (vals.map List.length) vals = vals := by
    unfold trimRows
    induction vals with
    | nil => rfl
    | cons a l ih => simp only [List.map_cons, List.zip_cons_cons, ih]; simp
  simp only [dolToJagged, ← hv]
  rw [splitCuts_spdata (by rw [htrim]), htrim]

example : nodalAdjacency [[0, 1, 2], [2, 1, 3]] =
    some [(0, [0, 1, 2]), (1, [0, 1, 2, 3]), (2, [0, 1, 2, 3]), (3, [1, 2, 3])] := by decide

end PM
