import Verif.Knn
import Verif.PropsTransform
import Verif.PropsTopo
import Verif.PropsLocate

/-!
# C68: lines between nearest neighbours

Specification: squared distances, and how many points are closer to a point than another one.
-/

namespace PM

/-- If exactly the points `0 .. n-1` are used, detaching changes nothing. -/
theorem detachMeshBulk_all {α : Type} (X : List α) (T : Topo) (h : ∀ n, UsesNode T n ↔ n < X.length) :
    detachMeshBulk X T = some (X, T) := by
  have hu : npUnique T.flatten = List.range X.length := by
    refine List.Pairwise.eq_of_mem_iff (r := (· < ·)) (sorted_npUnique _) List.pairwise_lt_range fun n => ?_
    rw [mem_npUnique, List.mem_range, ← h n, List.mem_flatten]
    rfl
  have hg : gather? X (List.range X.length) = some X := by
    obtain ⟨c, hc, hl, hc'⟩ := gather?_eq_some (a := X) (inds := List.range X.length) fun i hi => List.mem_range.1 hi
    rw [hc]
    congr 1
    refine List.ext_getElem? fun i => ?_
    by_cases hi : i < X.length
    · exact hc' i i (by simp [hi])
    · rw [List.getElem?_eq_none (by rw [hl, List.length_range]; omega), List.getElem?_eq_none (by omega)]
  have ht : remapTopo T (.dict (indsToInvmapAsDict (List.range X.length))) = some (T.map (List.map fun x => x)) := by
    apply remapTopo_some
    intro row hr x hx
    have hx' : x < X.length := (h x).1 ⟨row, hr, hx⟩
    have hi : List.idxOf x (List.range X.length) = x := by
      have := List.nodup_range.idxOf_getElem (xs := List.range X.length) x (by simpa using hx')
      simpa using this
    simp [IMap.get?, invmap_get? List.nodup_range, hx', hi]
  simp only [detachMeshBulk, hu, hg, ht]
  simp

section
variable {K : Type} [Field K] [LinearOrder K]

/-- Squared distance. -/
def dist2 (p q : V3 K) : K := V3.dot (p - q) (p - q)

/-- How many points of `X` are closer to `p` than `q`. -/
def closerCount (X : List (V3 K)) (p q : V3 K) : Nat := X.countP fun r => decide (dist2 p r < dist2 p q)

/-- How many points of `X` are at most as far from `p` as `q`. -/
def withinCount (X : List (V3 K)) (p q : V3 K) : Nat := X.countP fun r => decide (dist2 p r ≤ dist2 p q)

theorem sortRow_pair (i j : Nat) : sortRow [i, j] = if i ≤ j then [i, j] else [j, i] := by
  by_cases h : i ≤ j <;> simp [sortRow, List.insertionSort, List.orderedInsert, h]

/-- The rows of `unique_topo_data(knn_to_lines(inds))`. -/
theorem mem_lines {inds : List (List Nat)} {r : List Nat} :
    r ∈ (uniqueTopoData (knnToLines inds)).1 ↔ ∃ (i : Nat) (row : List Nat) (j : Nat), inds[i]? = some row ∧ j ∈ row ∧
      r = if i ≤ j then [i, j] else [j, i] := by
  simp only [uniqueTopoData, mem_npUnique, knnToLines, List.mem_map, List.mem_flatten, Prod.exists, List.mem_zipIdx_iff_getElem?]
  constructor
  · rintro ⟨a, ⟨l, ⟨row, i, h1, rfl⟩, h2⟩, rfl⟩
    obtain ⟨j, hj, rfl⟩ := List.mem_map.1 h2
    exact ⟨i, row, j, h1, hj, sortRow_pair i j⟩
  · rintro ⟨i, row, j, h1, hj, rfl⟩
    exact ⟨[i, j], ⟨_, ⟨row, i, h1, rfl⟩, List.mem_map.2 ⟨j, hj, rfl⟩⟩, sortRow_pair i j⟩

/-- The rows that are kept. -/
theorem mem_kept {inds : List (List Nat)} {r : List Nat} :
    r ∈ (uniqueTopoData (knnToLines inds)).1.filter (fun r => r.head? != r.getLast?) ↔ ∃ i j, i < j ∧ r = [i, j] ∧
      ((∃ row, inds[i]? = some row ∧ j ∈ row) ∨ ∃ row, inds[j]? = some row ∧ i ∈ row) := by
  rw [List.mem_filter, mem_lines]
  constructor
  · rintro ⟨⟨i, row, j, h1, h2, rfl⟩, h3⟩
    by_cases h : i ≤ j
    · simp only [h, if_true] at h3 ⊢
      have : i ≠ j := by simpa using h3
      exact ⟨i, j, by omega, rfl, .inl ⟨row, h1, h2⟩⟩
    · simp only [h, if_false] at h3 ⊢
      exact ⟨j, i, by omega, rfl, .inr ⟨row, h1, h2⟩⟩
  · rintro ⟨i, j, h, rfl, ⟨row, h1, h2⟩ | ⟨row, h1, h2⟩⟩
    · refine ⟨⟨i, row, j, h1, h2, by simp [h.le]⟩, ?_⟩
      simp; omega
    · refine ⟨⟨j, row, i, h1, h2, by simp [show ¬ j ≤ i by omega]⟩, ?_⟩
      simp; omega

/-- What the KD-tree of the points is asked and answers. -/
def IsQuery (X : List (V3 K)) (k : Nat) (rows : List (List Nat)) : Prop :=
  rows.length = X.length ∧ ∀ (i : Nat) (p : V3 K), X[i]? = some p → ∃ row, rows[i]? = some row ∧ IsQueryRow X p k row

/-- The rows as far as they are filled. -/
theorem IsQuery.near {X : List (V3 K)} {k : Nat} {rows : List (List Nat)} (h : IsQuery X k rows) (hk : k ≤ X.length) {i : Nat}
    {row : List Nat} (hr : rows[i]? = some row) : ∃ p, X[i]? = some p ∧ IsKNearest X p k row := by
  have hi : i < X.length := by rw [← h.1]; exact (List.getElem?_eq_some_iff.1 hr).1
  obtain ⟨row', h1, near, h2, h3⟩ := h.2 i _ (List.getElem?_eq_getElem hi)
  rw [hr] at h1
  obtain rfl := Option.some.inj h1
  rw [Nat.sub_eq_zero_of_le hk, List.replicate_zero, List.append_nil] at h3
  subst h3
  rw [min_eq_left hk] at h2
  exact ⟨_, List.getElem?_eq_getElem hi, h2⟩

/-- A point among the `k` nearest has less than `k` points closer. -/
theorem IsKNearest.closer {X : List (V3 K)} {p q : V3 K} {k j : Nat} {row : List Nat} (h : IsKNearest X p k row) (hj : j ∈ row)
    (hq : X[j]? = some q) : closerCount X p q < k := by
  obtain ⟨h1, h2, h3, h4⟩ := h
  have hlen : closerCount X p q = ((List.range X.length).filter fun l => decide (dist2 p (X.getD l 0) < dist2 p q)).length := by
    rw [closerCount, ← List.countP_eq_length_filter]
    conv_lhs => rw [show X = (List.range X.length).map (fun l => X.getD l 0) from by
      refine List.ext_getElem (by simp) fun i h h' => ?_
      simp [List.getD_eq_getElem?_getD, List.getElem?_eq_getElem h]]
    rw [List.countP_map]
    rfl
  rw [hlen, ← h1]
  have hsub : ((List.range X.length).filter fun l => decide (dist2 p (X.getD l 0) < dist2 p q)).Subperm (row.erase j) := by
    refine List.subperm_of_subset (List.Nodup.filter _ List.nodup_range) fun l hl => ?_
    obtain ⟨hl1, hl2⟩ := List.mem_filter.1 hl
    rw [List.mem_range] at hl1
    rw [decide_eq_true_eq] at hl2
    have hget : X[l]? = some (X.getD l 0) := by simp [List.getD_eq_getElem?_getD, List.getElem?_eq_getElem hl1]
    have hlr : l ∈ row := by
      by_contra hn
      exact absurd (h4 j hj l hl1 hn q _ hq hget) (not_le.2 hl2)
    refine (List.mem_erase_of_ne ?_).2 hlr
    rintro rfl
    rw [hq] at hget
    rw [← Option.some.inj hget] at hl2
    exact lt_irrefl _ hl2
  have hle := hsub.length_le
  rw [List.length_erase_of_mem hj] at hle
  have := List.length_pos_of_mem hj
  omega

/-- A point with less than `k` other points at most as far is among the `k` nearest. -/
theorem IsKNearest.mem {X : List (V3 K)} {p q : V3 K} {k j : Nat} {row : List Nat} (h : IsKNearest X p k row)
    (hq : X[j]? = some q) (hw : withinCount X p q ≤ k) : j ∈ row := by
  obtain ⟨h1, h2, h3, h4⟩ := h
  by_contra hn
  have hj : j < X.length := (List.getElem?_eq_some_iff.1 hq).1
  have hlen : withinCount X p q = ((List.range X.length).filter fun l => decide (dist2 p (X.getD l 0) ≤ dist2 p q)).length := by
    rw [withinCount, ← List.countP_eq_length_filter]
    conv_lhs => rw [show X = (List.range X.length).map (fun l => X.getD l 0) from by
      refine List.ext_getElem (by simp) fun i h h' => ?_
      simp [List.getD_eq_getElem?_getD, List.getElem?_eq_getElem h]]
    rw [List.countP_map]
    rfl
  have hget : ∀ l, l < X.length → X[l]? = some (X.getD l 0) := fun l hl => by
    simp [List.getD_eq_getElem?_getD, List.getElem?_eq_getElem hl]
  have hsub : (j :: row).Subperm ((List.range X.length).filter fun l => decide (dist2 p (X.getD l 0) ≤ dist2 p q)) := by
    refine List.subperm_of_subset (List.nodup_cons.2 ⟨hn, h2⟩) fun l hl => ?_
    rcases List.mem_cons.1 hl with rfl | hl
    · refine List.mem_filter.2 ⟨List.mem_range.2 hj, ?_⟩
      have := hget l hj
      rw [hq] at this
      rw [← Option.some.inj this]
      simp
    · refine List.mem_filter.2 ⟨List.mem_range.2 (h3 l hl), ?_⟩
      rw [decide_eq_true_eq]
      exact h4 l hl j hj hn _ q (hget l (h3 l hl)) hq
  have := hsub.length_le
  rw [List.length_cons] at this
  omega

/-- **C68** For `2 ≤ k ≤ n` the points are kept as they are; the lines are different, each joins two different points, one of
which is listed among the `k` nearest points of the other, and all such pairs are joined. -/
theorem C68_lines {X : List (V3 K)} {k : Nat} (h2 : 2 ≤ k) (hn : k ≤ X.length) {query : Nat → List (List Nat)}
    (hq : IsQuery X k (query k)) (maxd : Option K) :
    ∃ T, knngridL2 X k maxd query = some (X, T) ∧ T.Nodup ∧ (∀ r ∈ T, ∃ i j, i < j ∧ j < X.length ∧ r = [i, j]) ∧
      ∀ i j, i < j → ([i, j] ∈ T ↔ (∃ row, (query k)[i]? = some row ∧ j ∈ row) ∨ ∃ row, (query k)[j]? = some row ∧ i ∈ row) := by
  set T := (uniqueTopoData (knnToLines (query k))).1.filter (fun r => r.head? != r.getLast?) with hT
  have hb : ∀ (i : Nat) (row : List Nat) (j : Nat), (query k)[i]? = some row → j ∈ row → i < X.length ∧ j < X.length := by
    intro i row j h1 hj
    obtain ⟨p, hp, hr⟩ := hq.near hn h1
    exact ⟨(List.getElem?_eq_some_iff.1 hp).1, hr.2.2.1 j hj⟩
  have hrow : ∀ r ∈ T, ∃ i j, i < j ∧ j < X.length ∧ r = [i, j] := by
    intro r hr
    obtain ⟨i, j, hij, rfl, ⟨row, h3, h4⟩ | ⟨row, h3, h4⟩⟩ := mem_kept.1 hr
    · exact ⟨i, j, hij, (hb _ _ _ h3 h4).2, rfl⟩
    · exact ⟨i, j, hij, (hb _ _ _ h3 h4).1, rfl⟩
  have huse : ∀ n, UsesNode T n ↔ n < X.length := by
    intro n
    constructor
    · rintro ⟨r, hr, hnr⟩
      obtain ⟨i, j, hij, hj, rfl⟩ := hrow r hr
      simp only [List.mem_cons, List.not_mem_nil, or_false] at hnr
      omega
    · intro hlt
      obtain ⟨row, h3, -⟩ := hq.2 n _ (List.getElem?_eq_getElem hlt)
      obtain ⟨p, hp, hr⟩ := hq.near hn h3
      have hex : ∃ j ∈ row, j ≠ n := by
        by_contra hc
        push Not at hc
        have hrep := List.eq_replicate_iff.2 ⟨hr.1, hc⟩
        have hnd := hr.2.1
        rw [hrep, List.nodup_replicate] at hnd
        omega
      obtain ⟨j, hj, hne⟩ := hex
      rcases lt_or_gt_of_ne hne with h | h
      · exact ⟨[j, n], mem_kept.2 ⟨j, n, h, rfl, .inr ⟨row, h3, hj⟩⟩, by simp⟩
      · exact ⟨[n, j], mem_kept.2 ⟨n, j, h, rfl, .inl ⟨row, h3, hj⟩⟩, by simp⟩
  refine ⟨T, ?_, (nodup_npUnique _).filter _, hrow, fun i j hij => ?_⟩
  · have h0 : k ≠ 0 := by omega
    have h1 : k ≠ 1 := by omega
    simp only [knngridL2, kNearestNeighbours, h0, h1, if_false, KnnAns.table?, Option.bind_eq_bind, Option.bind_some]
    exact detachMeshBulk_all X T huse
  · rw [hT, mem_kept]
    constructor
    · rintro ⟨i', j', h, he, hh⟩
      simp only [List.cons.injEq, and_true] at he
      obtain ⟨rfl, rfl⟩ := he
      exact hh
    · intro hh
      exact ⟨i, j, hij, rfl, hh⟩

/-- **C68** In terms of the points alone: joined points have less than `k` points (the point itself counts) closer, from one of
the two ends; two points are joined if from one end at most `k` points, both included, are as close. -/
theorem C68_nearest {X : List (V3 K)} {k : Nat} (h2 : 2 ≤ k) (hn : k ≤ X.length) {query : Nat → List (List Nat)}
    (hq : IsQuery X k (query k)) (maxd : Option K) :
    ∃ T, knngridL2 X k maxd query = some (X, T) ∧ ∀ (i j : Nat) (p q : V3 K), i < j → X[i]? = some p → X[j]? = some q →
      ([i, j] ∈ T → closerCount X p q < k ∨ closerCount X q p < k) ∧
      (withinCount X p q ≤ k ∨ withinCount X q p ≤ k → [i, j] ∈ T) := by
  obtain ⟨T, h1, -, -, h4⟩ := C68_lines h2 hn hq maxd
  refine ⟨T, h1, fun i j p q hij hp hq' => ⟨fun h => ?_, fun h => ?_⟩⟩
  · rcases (h4 i j hij).1 h with ⟨row, h5, h6⟩ | ⟨row, h5, h6⟩
    · obtain ⟨p', e1, e2⟩ := hq.near hn h5
      rw [hp] at e1
      obtain rfl := Option.some.inj e1
      exact .inl (e2.closer h6 hq')
    · obtain ⟨p', e1, e2⟩ := hq.near hn h5
      rw [hq'] at e1
      obtain rfl := Option.some.inj e1
      exact .inr (e2.closer h6 hp)
  · refine (h4 i j hij).2 ?_
    rcases h with h | h
    · obtain ⟨row, h5, -⟩ := hq.2 i p hp
      obtain ⟨p', e1, e2⟩ := hq.near hn h5
      rw [hp] at e1
      obtain rfl := Option.some.inj e1
      exact .inl ⟨row, h5, e2.mem hq' h⟩
    · obtain ⟨row, h5, -⟩ := hq.2 j q hq'
      obtain ⟨p', e1, e2⟩ := hq.near hn h5
      rw [hq'] at e1
      obtain rfl := Option.some.inj e1
      exact .inr ⟨row, h5, e2.mem hp h⟩

/-- **C68** is false for one neighbour, for more neighbours than points, and for the other backend. -/
theorem C68_errors {X : List (V3 K)} (query : Nat → List (List Nat)) (maxd : Option K) :
    knngridL2 X 1 maxd query = none ∧
    (∀ k, X.length < k → X ≠ [] → IsQuery X k (query k) → knngridL2 X k maxd query = none) ∧
    ∀ k, kNearestNeighbours .sklearn k maxd query = none := by
  refine ⟨rfl, fun k hk hX hq => ?_, fun k => rfl⟩
  obtain ⟨p, hp⟩ : ∃ p, X[0]? = some p := ⟨_, List.getElem?_eq_getElem (List.length_pos_iff.2 hX)⟩
  have hpos := List.length_pos_iff.2 hX
  obtain ⟨row, h1, near, h2, h3⟩ := hq.2 0 p hp
  have hmem : X.length ∈ row := by
    rw [h3]
    refine List.mem_append_right _ (List.mem_replicate.2 ⟨by omega, rfl⟩)
  have hk0 : k ≠ 0 := by omega
  have hk1 : k ≠ 1 := by omega
  simp only [knngridL2, kNearestNeighbours, hk0, hk1, if_false, KnnAns.table?, Option.bind_eq_bind, Option.bind_some]
  have hk : [0, X.length] ∈ (uniqueTopoData (knnToLines (query k))).1.filter (fun r => r.head? != r.getLast?) :=
    mem_kept.2 ⟨0, X.length, hpos, rfl, .inl ⟨row, h1, hmem⟩⟩
  have hg : gather? X (npUnique ((uniqueTopoData (knnToLines (query k))).1.filter (fun r => r.head? != r.getLast?)).flatten) = none := by
    refine mapM_none (a := X.length) (mem_npUnique.2 (List.mem_flatten.2 ⟨_, hk, by simp⟩)) ?_
    simp
  simp only [detachMeshBulk, hg]
  rfl

omit [Field K] [LinearOrder K] in
/-- **C68** the maximum distance has no effect. -/
theorem C68_max_distance_ignored (X : List (V3 K)) (k : Nat) (query : Nat → List (List Nat)) (maxd : Option K) :
    knngridL2 X k maxd query = knngridL2 X k none query := rfl

/-- **C47** a block of one tetrahedron cannot be searched by default. -/
theorem C47_single_false (sched : List (Nat × Nat) → List (Nat × Nat)) (coords : List (V3 K)) (cell m : List Nat)
    (lcoords : List (V3 K)) (tol : K) {k : Nat} (hk : 1 ≤ k) (query : Nat → List (List Nat)) (x : List (V3 K)) :
    locateLazy sched coords [cell] [m] lcoords tol k query x = none := by
  have : min k 1 = 1 := by omega
  simp [locateLazy, kNearestNeighbours, this, KnnAns.table?]

/-- **C47** otherwise the default search is the search among the rows of the tree, to which `C47_sound` applies. -/
theorem C47_lazy_eq (sched : List (Nat × Nat) → List (Nat × Nat)) (coords : List (V3 K)) (topo tetmap : Topo)
    (lcoords : List (V3 K)) (tol : K) {k : Nat} (hk : 2 ≤ k) (hn : 2 ≤ topo.length * tetmap.length) (query : Nat → List (List Nat))
    (x : List (V3 K)) : locateLazy sched coords topo tetmap lcoords tol k query x =
      locate sched coords topo tetmap lcoords (query (min k (topo.length * tetmap.length))) tol x := by
  have h0 : min k (topo.length * tetmap.length) ≠ 0 := by omega
  have h1 : min k (topo.length * tetmap.length) ≠ 1 := by omega
  simp only [locateLazy, kNearestNeighbours, h0, h1, if_false, KnnAns.table?, Option.bind_eq_bind, Option.bind_some]

end

/-! Four points on a line at 0, 1, 3, 100, and their nearest neighbours. -/

def knnX : List (V3 ℚ) := [⟨0, 0, 0⟩, ⟨1, 0, 0⟩, ⟨3, 0, 0⟩, ⟨100, 0, 0⟩]
def knnRows : List (List Nat) := [[0, 1], [1, 0], [2, 1], [3, 2]]

theorem knnX_query : IsQuery knnX 2 knnRows := by
  refine ⟨rfl, fun i p hp => ?_⟩
  have hi : i < 4 := (List.getElem?_eq_some_iff.1 hp).1
  have key : ∀ i < 4, ∃ p row, knnX[i]? = some p ∧ knnRows[i]? = some row ∧ row.length = 2 ∧ row.Nodup ∧ (∀ j ∈ row, j < 4) ∧
      ∀ j ∈ row, ∀ l < 4, l ∉ row → ∃ c d, knnX[j]? = some c ∧ knnX[l]? = some d ∧ V3.dot (p - c) (p - c) ≤ V3.dot (p - d) (p - d) := by
    intro i hi
    have h : ∀ i < 4, (knnRows.getD i []).length = 2 ∧ (knnRows.getD i []).Nodup ∧ (∀ j ∈ knnRows.getD i [], j < 4) ∧
      ∀ j ∈ knnRows.getD i [], ∀ l < 4, l ∉ knnRows.getD i [] →
        V3.dot (knnX.getD i 0 - knnX.getD j 0) (knnX.getD i 0 - knnX.getD j 0) ≤
          V3.dot (knnX.getD i 0 - knnX.getD l 0) (knnX.getD i 0 - knnX.getD l 0) := by decide +kernel
    obtain ⟨h1, h2, h3, h4⟩ := h i hi
    have hX : ∀ i < 4, knnX[i]? = some (knnX.getD i 0) := by decide +kernel
    have hR : ∀ i < 4, knnRows[i]? = some (knnRows.getD i []) := by decide +kernel
    exact ⟨_, _, hX i hi, hR i hi, h1, h2, h3, fun j hj l hl hn => ⟨_, _, hX j (h3 j hj), hX l hl, h4 j hj l hl hn⟩⟩
  obtain ⟨p', row, e1, e2, e3, e4, e5, e6⟩ := key i hi
  rw [hp] at e1
  obtain rfl := Option.some.inj e1
  refine ⟨row, e2, row, ⟨e3, e4, e5, fun j hj l hl hn c d hc hd => ?_⟩, by simp [knnX]⟩
  obtain ⟨c', d', f1, f2, f3⟩ := e6 j hj l hl hn
  rw [hc] at f1
  rw [hd] at f2
  obtain rfl := Option.some.inj f1
  obtain rfl := Option.some.inj f2
  exact f3

/-- **C68** is false with a maximum distance: points further apart are joined. -/
theorem C68_max_distance_false : ¬ ∀ (X : List (V3 ℚ)) (k : Nat) (query : Nat → List (List Nat)) (m : ℚ) (Y : List (V3 ℚ)) (T : Topo),
    IsQuery X k (query k) → knngridL2 X k (some m) query = some (Y, T) → ∀ (i j : Nat) (p q : V3 ℚ), [i, j] ∈ T → Y[i]? = some p →
      Y[j]? = some q → dist2 p q ≤ m ^ 2 := by
  intro h
  have := h knnX 2 (fun _ => knnRows) 2 knnX [[0, 1], [1, 2], [2, 3]] knnX_query (by decide +kernel) 2 3 ⟨3, 0, 0⟩ ⟨100, 0, 0⟩
    (by decide) (by decide +kernel) (by decide +kernel)
  exact absurd this (by decide +kernel)

/-- **C68** is false for the documented number of neighbours: the point itself is counted. Here two are asked for, and the first
point is joined to one other. -/
theorem C68_k_false : ¬ ∀ (X : List (V3 ℚ)) (k : Nat) (query : Nat → List (List Nat)) (Y : List (V3 ℚ)) (T : Topo), k < X.length →
    IsQuery X k (query k) → knngridL2 X k none query = some (Y, T) → ∀ i < Y.length, k ≤ (T.filter fun r => decide (i ∈ r)).length := by
  intro h
  have := h knnX 2 (fun _ => knnRows) knnX [[0, 1], [1, 2], [2, 3]] (by decide) knnX_query (by decide +kernel) 0 (by decide)
  exact absurd this (by decide)

/-- The hypotheses of `C68_lines` hold for these points. -/
example : IsQuery knnX 2 knnRows ∧ knngridL2 knnX 2 none (fun _ => knnRows) = some (knnX, [[0, 1], [1, 2], [2, 3]]) :=
  ⟨knnX_query, by decide +kernel⟩

end PM
