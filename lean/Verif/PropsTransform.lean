import Verif.Transform

/-!
# Properties C08–C10 and C20 (unique entities, topology transformations, schedules)
-/

namespace PM

/-! ## C08 -/

/-- **C08** `unique_topo_data`: `(u, inv)`. Rows of `u` are pairwise different as sets of nodes (with
multiplicity), `inv` has the shape of the input and points every entity to a row with the same nodes; every
row of `u` is used; two entities get the same number iff they have the same nodes. -/
theorem C08_unique_topo_data (t : List (List (List Nat))) :
    (∀ (i j : Nat) (a b : List Nat), (uniqueTopoData t).1[i]? = some a → (uniqueTopoData t).1[j]? = some b →
      a.Perm b → i = j) ∧
    (uniqueTopoData t).2.map List.length = t.map List.length ∧
    (∀ c e row, nodeAt t c e = some row → ∃ k r, nodeAt (uniqueTopoData t).2 c e = some k ∧
      (uniqueTopoData t).1[k]? = some r ∧ r.Perm row ∧ r.Pairwise (· ≤ ·)) ∧
    (∀ k, k < (uniqueTopoData t).1.length → ∃ c e, nodeAt (uniqueTopoData t).2 c e = some k) ∧
    (∀ c e c' e' row row', nodeAt t c e = some row → nodeAt t c' e' = some row' →
      (nodeAt (uniqueTopoData t).2 c e = nodeAt (uniqueTopoData t).2 c' e' ↔ row.Perm row')) := by
  set rows := t.flatten.map sortRow with hrows
  have h1 : (uniqueTopoData t).1 = npUnique rows := rfl
  have h2 : (uniqueTopoData t).2 = t.map (List.map fun r => posIn (npUnique rows) (sortRow r)) := by
    simp only [uniqueTopoData, npUniqueInv_eq, ← hrows]
    conv_lhs => rw [show rows.map (posIn (npUnique rows)) =
      t.flatten.map (fun r => posIn (npUnique rows) (sortRow r)) by
        conv_lhs => arg 2; rw [hrows]
        rw [List.map_map]; rfl]
    exact splitCuts_map_flatten _ _
  have hperm : ∀ r, (sortRow r).Perm r := fun r => List.perm_insertionSort _ r
  have hsorted : ∀ r, (sortRow r).Pairwise (· ≤ ·) := fun r => List.pairwise_insertionSort _ r
  have hcanon : ∀ a b : List Nat, a.Perm b → sortRow a = sortRow b := by
    intro a b hab
    exact List.Perm.eq_of_pairwise (fun x y _ _ h h' => le_antisymm h h') (hsorted a) (hsorted b)
      ((hperm a).trans (hab.trans (hperm b).symm))
  have hmemu : ∀ a, a ∈ npUnique rows → sortRow a = a := by
    intro a ha
    rw [mem_npUnique] at ha
    obtain ⟨r, _, rfl⟩ := List.mem_map.1 ha
    exact hcanon _ _ (hperm r)
  have hmem : ∀ c e row, nodeAt t c e = some row → sortRow row ∈ rows := by
    intro c e row h
    unfold nodeAt at h
    cases hr : t[c]? with
    | none => simp [hr] at h
    | some l =>
      simp [hr] at h
      exact List.mem_map.2 ⟨row, List.mem_flatten.2 ⟨l, List.mem_of_getElem? hr, List.mem_of_getElem? h⟩, rfl⟩
  have hnode : ∀ c e row, nodeAt t c e = some row →
      nodeAt (uniqueTopoData t).2 c e = some (posIn (npUnique rows) (sortRow row)) := by
    intro c e row h
    rw [h2]
    unfold nodeAt at h ⊢
    rw [List.getElem?_map]
    cases hr : t[c]? with
    | none => simp [hr] at h
    | some l => simp [hr] at h ⊢; exact ⟨row, h, rfl⟩
  refine ⟨?_, ?_, ?_, ?_, ?_⟩
  · intro i j a b ha hb hab
    rw [h1] at ha hb
    have ea := hmemu a (List.mem_of_getElem? ha)
    have eb := hmemu b (List.mem_of_getElem? hb)
    have : a = b := by rw [← ea, ← eb]; exact hcanon a b hab
    subst this
    exact (List.getElem?_inj (List.getElem?_eq_some_iff.1 ha).1 (nodup_npUnique _)).1 (ha.trans hb.symm)
  · rw [h2, List.map_map]; apply List.map_congr_left; intro r _; simp
  · intro c e row h
    refine ⟨_, sortRow row, hnode c e row h, ?_, hperm row, hsorted row⟩
    rw [h1]; exact npUnique_getElem_posIn (hmem c e row h)
  · intro k hk
    rw [h1] at hk
    have : (npUnique rows)[k] ∈ rows := mem_npUnique.1 (List.getElem_mem hk)
    obtain ⟨row, hrow, he⟩ := List.mem_map.1 this
    obtain ⟨l, hl, hrl⟩ := List.mem_flatten.1 hrow
    obtain ⟨c, hc⟩ := List.getElem?_of_mem hl
    obtain ⟨e, hee⟩ := List.getElem?_of_mem hrl
    refine ⟨c, e, ?_⟩
    rw [hnode c e row (by simp [nodeAt, hc, hee]), he]
    congr 1
    exact posIn_getElem (nodup_npUnique rows) hk
  · intro c e c' e' row row' h h'
    rw [hnode c e row h, hnode c' e' row' h', Option.some.injEq,
      posIn_inj (mem_npUnique.2 (hmem c e row h))]
    constructor
    · intro heq; exact (hperm row).symm.trans (heq ▸ hperm row')
    · exact hcanon row row'

/-- The reconstruction loop of the docstring, topo.py 888-891: `edges[edgeIDs[i, j]]`. -/
def reconstruct (u : List (List Nat)) (ids : List (List Nat)) : Option (List (List (List Nat))) :=
  ids.mapM fun r => r.mapM fun k => u[k]?

/-- **C08** (negation) the docstring's claim that indexing the unique entities with the ids reconstructs the
input fails: the edges of a single quadrilateral are a counterexample (edge `3-0` comes back as `0-3`). -/
theorem C08_exact_reconstruction_false :
    ¬ ∀ t : List (List (List Nat)), reconstruct (uniqueTopoData t).1 (uniqueTopoData t).2 = some t := by
  intro h
  exact absurd (h [[[0, 1], [1, 2], [2, 3], [3, 0]]]) (by decide)

/-- **C08** exact reconstruction holds when all entities list their nodes in ascending order.
Missing from the full claim: entities in other node orders (false, see `C08_exact_reconstruction_false`). -/
theorem C08_exact_reconstruction_partial (t : List (List (List Nat)))
    (hs : ∀ c ∈ t, ∀ row ∈ c, row.Pairwise (· ≤ ·)) :
    reconstruct (uniqueTopoData t).1 (uniqueTopoData t).2 = some t := by
  set rows := t.flatten.map sortRow with hrows
  have h1 : (uniqueTopoData t).1 = npUnique rows := rfl
  have h2 : (uniqueTopoData t).2 = t.map (List.map fun r => posIn (npUnique rows) (sortRow r)) := by
    simp only [uniqueTopoData, npUniqueInv_eq, ← hrows]
    conv_lhs => rw [show rows.map (posIn (npUnique rows)) =
      t.flatten.map (fun r => posIn (npUnique rows) (sortRow r)) by
        conv_lhs => arg 2; rw [hrows]
        rw [List.map_map]; rfl]
    exact splitCuts_map_flatten _ _
  rw [h1, h2]
  unfold reconstruct
  have hid : ∀ c ∈ t, ∀ row ∈ c, (npUnique rows)[posIn (npUnique rows) (sortRow row)]? = some row := by
    intro c hc row hr
    have : sortRow row = row := List.Perm.eq_of_pairwise (fun x y _ _ h h' => le_antisymm h h')
      (List.pairwise_insertionSort _ row) (hs c hc row hr) (List.perm_insertionSort _ row)
    have hm : sortRow row ∈ rows := List.mem_map.2 ⟨row, List.mem_flatten.2 ⟨c, hc, hr⟩, rfl⟩
    rw [npUnique_getElem_posIn hm, this]
  clear h1 h2
  rw [mapM_some (g := fun r : List Nat => r.map fun k => (npUnique rows).getD k [])]
  · congr 1
    rw [List.map_map]
    conv_rhs => rw [← List.map_id t]
    apply List.map_congr_left
    intro c hc
    simp only [Function.comp, List.map_map, id]
    conv_rhs => rw [← List.map_id c]
    apply List.map_congr_left
    intro row hr
    simp only [Function.comp, List.getD_eq_getElem?_getD, hid c hc row hr, Option.getD_some, id]
  · intro r hr
    obtain ⟨c, hc, rfl⟩ := List.mem_map.1 hr
    apply mapM_some
    intro k hk
    obtain ⟨row, hrow, rfl⟩ := List.mem_map.1 hk
    simp only [List.getD_eq_getElem?_getD, hid c hc row hrow, Option.getD_some]

example : uniqueTopoData [[[0, 1], [1, 2], [2, 0]], [[2, 1], [1, 3], [3, 2]]] =
    ([[0, 1], [0, 2], [1, 2], [1, 3], [2, 3]], [[0, 2, 1], [2, 3, 4]]) := by decide

/-! ## C09 -/

/-- **C09** sub-cell `k` of cell `i` is row `i * len(path) + k`, its `j`-th node is `topo[i][path[k][j]]`, and
there are no other rows. -/
theorem C09_transform_topology {α : Type} (topo : List (List α)) (path : List (List Nat)) (nSubN : Nat)
    (zero : α) (h : PathOK topo path nSubN) :
    ∃ r, transformTopology topo path nSubN zero = some r ∧ r.length = path.length * topo.length ∧
      ∀ i k, i < topo.length → k < path.length → ∃ row, r[i * path.length + k]? = some row ∧
        row.length = nSubN ∧ ∀ j q, nodeAt path k j = some q → row[j]? = nodeAt topo i q := by
  refine ⟨_, transformResult_eq h zero fun _ => mem_transformWrites, length_transformed _ _ _, ?_⟩
  intro i k hi hk
  refine ⟨path[k].map fun q => topo[i].getD q zero, ?_, ?_, ?_⟩
  · rw [transformed_row hk]
    simp [List.getElem?_eq_getElem hi, List.getElem?_eq_getElem hk]
  · simp [h.rect _ (List.getElem_mem hk)]
  · intro j q hq
    simp only [nodeAt, List.getElem?_eq_getElem hk, Option.bind_eq_bind, Option.bind_some] at hq
    have := h.inside _ (List.getElem_mem hi) _ (List.getElem_mem hk) q (List.mem_of_getElem? hq)
    simp [nodeAt, hq, List.getElem?_eq_getElem hi, List.getElem?_eq_getElem this]

/-- **C09** no sub-cell uses a node outside of its parent. -/
theorem C09_nodes_of_parent {α : Type} (topo : List (List α)) (path : List (List Nat)) (nSubN : Nat)
    (zero : α) (h : PathOK topo path nSubN) (r : List (List α))
    (hr : transformTopology topo path nSubN zero = some r) (i k : Nat) (hi : i < topo.length)
    (hk : k < path.length) (row : List α) (hrow : r[i * path.length + k]? = some row) :
    ∀ x ∈ row, x ∈ topo[i] := by
  have := transformResult_eq (w := transformWrites topo path nSubN) h zero fun _ => mem_transformWrites
  rw [transformTopology, this] at hr
  obtain rfl := Option.some.inj hr
  rw [transformed_row hk] at hrow
  simp [List.getElem?_eq_getElem hi, List.getElem?_eq_getElem hk] at hrow
  subst hrow
  intro x hx
  obtain ⟨q, hq, rfl⟩ := List.mem_map.1 hx
  have := h.inside _ (List.getElem_mem hi) _ (List.getElem_mem hk) q hq
  simp [List.getElem?_eq_getElem this]

/-- **C09** nodal data are transformed by the same rule as the topology, so a value stays with its node. -/
theorem C09_nodal_data {α β : Type} (topo : List (List α)) (data : List (List β)) (path : List (List Nat))
    (nNE nSubN : Nat) (z : α) (zb : β) (h : PathOK topo path nSubN) (hd : data.length = topo.length)
    (hw : ∀ c ∈ data, c.length = nNE) (ht : ∀ c ∈ topo, c.length = nNE) :
    ∃ r d, transformTopology topo path nSubN z = some r ∧
      transformTopologyData topo.length nNE data nNE path nSubN zb = some d ∧ d.length = r.length ∧
      ∀ i k j q, i < topo.length → k < path.length → nodeAt path k j = some q →
        nodeAt r (i * path.length + k) j = nodeAt topo i q ∧
        nodeAt d (i * path.length + k) j = nodeAt data i q := by
  have hdok : PathOK data path nSubN := by
    refine ⟨h.rect, ?_⟩
    intro c hc p hp q hq
    rw [hw c hc]
    obtain ⟨t, ht'⟩ : ∃ t, t ∈ topo := by
      cases topo with
      | nil => simp at hd; subst hd; simp at hc
      | cons t _ => exact ⟨t, List.mem_cons_self⟩
    rw [← ht t ht']
    exact h.inside t ht' p hp q hq
  refine ⟨_, transformed data path zb, transformResult_eq h z fun _ => mem_transformWrites, ?_, ?_, ?_⟩
  · unfold transformTopologyData
    rw [if_pos ⟨hd, rfl⟩]
    exact transformResult_eq hdok zb fun _ => mem_repeatWrites
  · rw [length_transformed, length_transformed, hd]
  · intro i k j q hi hk hq
    simp only [nodeAt, List.getElem?_eq_getElem hk, Option.bind_eq_bind, Option.bind_some] at hq
    have hid : i < data.length := by omega
    have h1 := h.inside _ (List.getElem_mem hi) _ (List.getElem_mem hk) q (List.mem_of_getElem? hq)
    have h2 := hdok.inside _ (List.getElem_mem hid) _ (List.getElem_mem hk) q (List.mem_of_getElem? hq)
    constructor
    · simp [nodeAt, transformed_row hk, hq, List.getElem?_eq_getElem hi, List.getElem?_eq_getElem hk,
        List.getElem?_eq_getElem h1]
    · simp [nodeAt, transformed_row hk, hq, List.getElem?_eq_getElem hid, List.getElem?_eq_getElem hk,
        List.getElem?_eq_getElem h2]

/-- **C09** data per cell (rows of another width than the cells): row `i * len(path) + k` is the data of
cell `i`. The hypothesis `width ≠ nNE` is needed: see `C09_cell_data_false`. -/
theorem C09_cell_data_partial {α : Type} (nE nNE : Nat) (data : List (List α)) (width : Nat)
    (path : List (List Nat)) (nSubN : Nat) (zero : α) (hd : data.length = nE) (hw : width ≠ nNE) :
    ∃ d, transformTopologyData nE nNE data width path nSubN zero = some d ∧ d.length = path.length * nE ∧
      ∀ i k, i < nE → k < path.length → d[i * path.length + k]? = data[i]? := by
  refine ⟨npRepeat data path.length, ?_, ?_, ?_⟩
  · simp [transformTopologyData, hd, hw]
  · unfold npRepeat
    rw [length_flatMap_block (n := path.length) fun _ _ => by simp, hd]
  · intro i k hi hk
    unfold npRepeat
    rw [getElem?_flatMap_block (fun _ _ => by simp) hk]
    have : i < data.length := by omega
    simp [List.getElem?_eq_getElem this, hk]

/-- **C09** (negation) data that are constant over the cells are *not* repeated when they happen to have as
many columns as the cells have nodes: they are taken for nodal data. A 3-component value per triangle is
permuted by the path. -/
theorem C09_cell_data_false :
    ¬ ∀ (nE nNE : Nat) (data : List (List Nat)) (width : Nat) (path : List (List Nat)) (nSubN : Nat),
      data.length = nE → (∀ r ∈ data, r.length = width) →
      ∀ d, transformTopologyData nE nNE data width path nSubN 0 = some d →
        ∀ i k, i < nE → k < path.length → d[i * path.length + k]? = data[i]? := by
  intro h
  have := h 1 3 [[10, 20, 30]] 3 [[0, 1], [1, 2], [2, 0]] 2 rfl (by decide) [[10, 20], [20, 30], [30, 10]]
    (by decide) 0 0 (by decide) (by decide)
  exact absurd this (by decide)

example : PathOK [[5, 6, 7, 8]] [[0, 1, 2], [0, 2, 3]] 3 := ⟨by decide, by decide⟩
example : transformTopology [[5, 6, 7, 8], [1, 2, 3, 4]] [[0, 1, 2], [0, 2, 3]] 3 0 =
    some [[5, 6, 7], [5, 7, 8], [1, 2, 3], [1, 3, 4]] := by decide

/-! ## C10 -/

theorem composeTrmap_eq {map1 map2 : List (List Nat)} {n2 : Nat} (h : PathOK map1 map2 n2) :
    composeTrmap map1 map2 = some (transformed map1 map2 0) := by
  unfold composeTrmap transformed
  apply mapM_id_some
  rw [List.map_flatMap]
  apply List.flatMap_congr
  intro r hr
  rw [List.map_map]
  apply List.map_congr_left
  intro p hp
  simp only [Function.comp]
  rw [mapM_some (g := fun q => r.getD q 0)]
  intro q hq
  simp [List.getElem?_eq_getElem (h.inside r hr p hp q hq)]

/-- **C10** transforming with `path1` and then `path2` is transforming with `compose_trmap(path1, path2)`. -/
theorem C10_compose_trmap {α : Type} (topo : List (List α)) (path1 path2 : List (List Nat)) (n1 n2 : Nat)
    (zero : α) (h1 : PathOK topo path1 n1) (h2 : ∀ p ∈ path2, p.length = n2 ∧ ∀ q ∈ p, q < n1) :
    ∃ path t1 t, composeTrmap path1 path2 = some path ∧ transformTopology topo path1 n1 zero = some t1 ∧
      transformTopology t1 path2 n2 zero = some t ∧ transformTopology topo path n2 zero = some t := by
  have hp : PathOK path1 path2 n2 := ⟨fun p hp => (h2 p hp).1, fun c hc p hp q hq => by
    rw [h1.rect c hc]; exact (h2 p hp).2 q hq⟩
  have ht1 : PathOK (transformed topo path1 zero) path2 n2 := by
    refine ⟨fun p hp => (h2 p hp).1, fun c hc p hp q hq => ?_⟩
    simp only [transformed, List.mem_flatMap, List.mem_map] at hc
    obtain ⟨cell, _, p1, hp1, rfl⟩ := hc
    rw [List.length_map, h1.rect p1 hp1]; exact (h2 p hp).2 q hq
  have htt : PathOK topo (transformed path1 path2 0) n2 := by
    constructor
    · intro p hpm
      simp only [transformed, List.mem_flatMap, List.mem_map] at hpm
      obtain ⟨p1, _, p2, hp2, rfl⟩ := hpm
      rw [List.length_map]; exact (h2 p2 hp2).1
    · intro cell hcell p hpm q hq
      simp only [transformed, List.mem_flatMap, List.mem_map] at hpm
      obtain ⟨p1, hp1, p2, hp2, rfl⟩ := hpm
      obtain ⟨q2, hq2, rfl⟩ := List.mem_map.1 hq
      have hlt : q2 < p1.length := by rw [h1.rect p1 hp1]; exact (h2 p2 hp2).2 q2 hq2
      have : p1.getD q2 0 ∈ p1 := by simp [List.getElem?_eq_getElem hlt]
      exact h1.inside cell hcell p1 hp1 _ this
  refine ⟨_, _, _, composeTrmap_eq hp, transformResult_eq h1 zero fun _ => mem_transformWrites,
    transformResult_eq ht1 zero fun _ => mem_transformWrites, ?_⟩
  rw [transformTopology, transformResult_eq htt zero fun _ => mem_transformWrites]
  congr 1
  unfold transformed
  rw [List.flatMap_assoc]
  apply List.flatMap_congr
  intro cell hcell
  rw [List.map_flatMap, List.flatMap_map]
  apply List.flatMap_congr
  intro p1 hp1
  rw [List.map_map]
  apply List.map_congr_left
  intro p2 hp2
  simp only [Function.comp, List.map_map]
  apply List.map_congr_left
  intro q hq
  have hlt : q < p1.length := by rw [h1.rect p1 hp1]; exact (h2 p2 hp2).2 q hq
  simp [List.getElem?_eq_getElem hlt]

example : composeTrmap [[0, 4, 8, 7], [4, 1, 5, 8]] [[0, 1, 2], [0, 2, 3]] =
    some [[0, 4, 8], [0, 8, 7], [4, 1, 5], [4, 5, 8]] := by decide

/-! ## C20: schedules of the transformation loops -/

/-- **C20** `_transform_topology_` and `repeat_cell_nodal_data` give the same array whatever the order of their
assignments. -/
theorem C20_transform_schedule {α : Type} (topo : List (List α)) (path : List (List Nat)) (nSubN : Nat)
    (zero : α) (h : PathOK topo path nSubN) (w : List ((Nat × Nat) × Option α)) :
    ((transformWrites topo path nSubN).Perm w →
      transformResult topo path nSubN zero w = transformTopology topo path nSubN zero) ∧
    ((repeatWrites topo path nSubN).Perm w →
      transformResult topo path nSubN zero w = repeatCellNodalData topo path nSubN zero) := by
  constructor
  · intro hp
    rw [transformTopology, transformResult_eq h zero fun _ => mem_transformWrites,
      transformResult_eq h zero fun x => (hp.mem_iff.symm.trans mem_transformWrites)]
  · intro hp
    rw [repeatCellNodalData, transformResult_eq h zero fun _ => mem_repeatWrites,
      transformResult_eq h zero fun x => (hp.mem_iff.symm.trans mem_repeatWrites)]

end PM
