import Verif.CellData
import Mathlib.Algebra.Order.Field.Basic
import Mathlib.Algebra.Order.Field.Rat
import Mathlib.Algebra.BigOperators.GroupWithZero.Action
import Mathlib.Algebra.Module.Basic
import Mathlib.Tactic.FieldSimp
import Mathlib.Tactic.Ring
import Mathlib.Tactic.Linarith
import Mathlib.Algebra.Order.BigOperators.Group.List

/-!
# C24: nodal distribution factors
-/

namespace PM

/-! ## sums over the places of a node -/

section
variable {M : Type} [AddCommMonoid M]

/-- The places of a node are determined up to nothing: two lists of places are equal. -/
theorem IncidenceList.unique {topo : Topo} {n : Nat} {ps : List (Nat × Nat)} (h : IncidenceList topo n ps) :
    ps = (atNode (entriesOf topo) n).map fun e => (e.cell, e.pos) := by
  have h2 := incidence_atNode topo n
  have nd : ∀ qs, IncidenceList topo n qs → qs.Nodup := fun qs hq => hq.sorted.imp fun {a b} hab he => by
    subst he; omega
  have p : ps.Perm ((atNode (entriesOf topo) n).map fun e => (e.cell, e.pos)) :=
    (List.perm_ext_iff_of_nodup (nd _ h) (nd _ h2)).2 fun x => by
      obtain ⟨c, j⟩ := x
      rw [h.exact, h2.exact]
  refine p.eq_of_pairwise (fun a b _ _ hab hba => ?_) h.sorted h2.sorted
  omega

theorem sum_flatMap_add {β : Type} (l : List β) (f : β → List M) : (l.flatMap f).sum = (l.map fun x => (f x).sum).sum := by
  induction l with
  | nil => rfl
  | cons a l ih => simp [ih]

theorem sum_atNode (topo : Topo) (n : Nat) (g : Nat → Nat → M) :
    ((atNode (entriesOf topo) n).map fun e => g e.cell e.pos).sum =
      (topo.zipIdx.map fun x => ((x.1.zipIdx.filter fun y => y.1 == n).map fun y => g x.2 y.2).sum).sum := by
  unfold atNode entriesOf
  rw [List.filter_flatMap, List.map_flatMap, sum_flatMap_add]
  congr 1
  apply List.map_congr_left
  intro x _
  rw [List.filter_map, List.map_map]
  rfl

theorem sum_positions_const (row : List Nat) (n k : Nat) (c : M) (hnd : row.Nodup) :
    (((row.zipIdx k).filter fun y => y.1 == n).map fun _ => c).sum = if n ∈ row then c else 0 := by
  induction row generalizing k with
  | nil => simp
  | cons a row ih =>
    rw [List.nodup_cons] at hnd
    rw [List.zipIdx_cons, List.filter_cons]
    by_cases h : a = n
    · subst h
      have h0 := ih (k + 1) hnd.2
      rw [if_neg hnd.1] at h0
      rw [if_pos List.mem_cons_self, if_pos (by simp), List.map_cons, List.sum_cons, h0, add_zero]
    · have h' : ¬ n = a := fun e => h e.symm
      rw [if_neg (by simpa using h), ih (k + 1) hnd.2]
      simp [h']

end

section
variable {K : Type} [Field K]

theorem nodalW_foldl (l : List (List Nat × K)) (m : Nat → K) (n : Nat) :
    l.foldl (fun m x n => if n ∈ x.1 then m n + x.2 else m n) m n =
      m n + (l.map fun x => if n ∈ x.1 then x.2 else 0).sum := by
  induction l generalizing m with
  | nil => simp
  | cons x l ih =>
    rw [List.foldl_cons, ih, List.map_cons, List.sum_cons]
    split <;> ring

/-- `nodal_w[n]` is the sum of the weights of the cells at node `n`, if no cell repeats a node. -/
theorem nodalW_eq {topo : Topo} {w : List K} (hl : w.length = topo.length) (hnd : ∀ r ∈ topo, r.Nodup) (n : Nat) :
    nodalW topo w n = ((atNode (entriesOf topo) n).map fun e => w.getD e.cell 0).sum := by
  rw [nodalW, nodalW_foldl, zero_add, sum_atNode topo n fun c _ => w.getD c 0]
  congr 1
  apply List.ext_getElem
  · simp [hl]
  · intro i h1 h2
    have hi : i < topo.length := by simpa using h2
    have hw : i < w.length := by omega
    simp only [List.getElem_map, List.getElem_zip, List.getElem_zipIdx, Nat.zero_add]
    rw [sum_positions_const _ n 0 _ (hnd _ (List.getElem_mem hi)), List.getD_eq_getElem?_getD,
      List.getElem?_eq_getElem hw]
    rfl

theorem ndf_get {topo : Topo} {w : List K} {c j n : Nat} (hl : w.length = topo.length)
    (h : nodeAt topo c j = some n) :
    nodeAt (List.zipWith (fun row wi => row.map fun n => wi / nodalW topo w n) topo w) c j =
      some (w.getD c 0 / nodalW topo w n) := by
  rw [nodeAt] at h ⊢
  cases ht : topo[c]? with
  | none => rw [ht] at h; cases h
  | some r =>
    rw [ht] at h
    change r[j]? = some n at h
    have hc : c < w.length := by rw [hl]; exact (List.getElem?_eq_some_iff.1 ht).1
    rw [List.getElem?_zipWith, ht, List.getElem?_eq_getElem hc]
    change (r.map _)[j]? = _
    rw [List.getElem?_map, h, List.getD_eq_getElem?_getD, List.getElem?_eq_getElem hc]
    rfl

end

/-! ## the property -/

section
variable {K : Type} [Field K] [LinearOrder K] [IsStrictOrderedRing K]

/-- `F` holds one factor for each node of each cell, and the factors at a node are a partition of one among its
cells, in proportion to their weights `w`. -/
structure IsPartition (topo : Topo) (w : List K) (F : List (List K)) : Prop where
  shape : F.map List.length = topo.map List.length
  sum_one : ∀ n ps, IncidenceList topo n ps → ps ≠ [] → (ps.map fun p => (nodeAt F p.1 p.2).getD 0).sum = 1
  pos : ∀ r ∈ F, ∀ x ∈ r, 0 < x ∧ x ≤ 1
  proportional : ∀ n c j c' j' f f' wc wc', nodeAt topo c j = some n → nodeAt topo c' j' = some n →
    nodeAt F c j = some f → nodeAt F c' j' = some f' → w[c]? = some wc → w[c']? = some wc' → f * wc' = f' * wc

theorem le_sum_of_mem' {l : List K} (h : ∀ x ∈ l, 0 ≤ x) {a : K} (ha : a ∈ l) : a ≤ l.sum := by
  induction l with
  | nil => simp at ha
  | cons b l ih =>
    rw [List.sum_cons]
    have hs : 0 ≤ l.sum := List.sum_nonneg fun x hx => h x (List.mem_cons_of_mem _ hx)
    rcases List.mem_cons.1 ha with rfl | ha
    · linarith
    · have := ih (fun x hx => h x (List.mem_cons_of_mem _ hx)) ha
      have := h b List.mem_cons_self
      linarith

theorem sum_div' {β : Type} (l : List β) (f : β → K) (c : K) : (l.map fun x => f x / c).sum = (l.map f).sum / c := by
  induction l with
  | nil => simp
  | cons a l ih => simp only [List.map_cons, List.sum_cons, ih]; ring

theorem nodalW_ge {topo : Topo} {w : List K} (hl : w.length = topo.length) (hnd : ∀ r ∈ topo, r.Nodup)
    (hw : ∀ x ∈ w, 0 < x) {c j n : Nat} (h : nodeAt topo c j = some n) :
    0 < w.getD c 0 ∧ w.getD c 0 ≤ nodalW topo w n := by
  have hmem : (⟨c, j, n⟩ : Entry) ∈ atNode (entriesOf topo) n := by
    simp [atNode, mem_entriesOf, h]
  have hpos : ∀ e ∈ entriesOf topo, 0 < w.getD e.cell 0 := by
    intro e he
    have hc : e.cell < w.length := by rw [hl]; exact cell_lt_of_mem_entriesOf he
    rw [List.getD_eq_getElem?_getD, List.getElem?_eq_getElem hc]
    exact hw _ (List.getElem_mem hc)
  refine ⟨hpos _ (List.mem_of_mem_filter hmem), ?_⟩
  rw [nodalW_eq hl hnd]
  refine le_sum_of_mem' ?_ (List.mem_map_of_mem (f := fun e : Entry => w.getD e.cell 0) hmem)
  intro x hx
  obtain ⟨e, he, rfl⟩ := List.mem_map.1 hx
  exact (hpos e (List.mem_of_mem_filter he)).le

theorem isPartition_closed {topo : Topo} {w : List K} (hl : w.length = topo.length) (hnd : ∀ r ∈ topo, r.Nodup)
    (hw : ∀ x ∈ w, 0 < x) :
    IsPartition topo w (List.zipWith (fun row wi => row.map fun n => wi / nodalW topo w n) topo w) := by
  set F := List.zipWith (fun row wi => row.map fun n => wi / nodalW topo w n) topo w with hF
  refine ⟨?_, ?_, ?_, ?_⟩
  · apply List.ext_getElem
    · simp [hF, hl]
    · intro i h1 h2
      simp [hF]
  · intro n ps hps hne
    rw [hps.unique] at hne ⊢
    rw [List.map_map]
    have hcong : ((atNode (entriesOf topo) n).map ((fun p : Nat × Nat => (nodeAt F p.1 p.2).getD 0) ∘ fun e => (e.cell, e.pos)))
        = (atNode (entriesOf topo) n).map fun e => w.getD e.cell 0 / nodalW topo w n := by
      apply List.map_congr_left
      intro e he
      have h1 := List.mem_filter.1 he
      have h2 := mem_entriesOf.1 h1.1
      have h3 : e.node = n := by simpa using h1.2
      rw [h3] at h2
      simp only [Function.comp, hF, ndf_get hl h2, Option.getD_some]
    rw [hcong, sum_div', ← nodalW_eq hl hnd, div_self]
    obtain ⟨e, he⟩ := List.exists_mem_of_ne_nil _ (fun h => hne (by rw [h]; rfl) : atNode (entriesOf topo) n ≠ [])
    have h1 := List.mem_filter.1 he
    have h2 := mem_entriesOf.1 h1.1
    have h3 : e.node = n := by simpa using h1.2
    rw [h3] at h2
    have := nodalW_ge hl hnd hw h2
    linarith
  · intro r hr x hx
    obtain ⟨c, hc, rfl⟩ := List.mem_iff_getElem.1 hr
    obtain ⟨j, hj, rfl⟩ := List.mem_iff_getElem.1 hx
    have hct : c < topo.length := by simp [hF] at hc; omega
    have hjt : j < topo[c].length := by simpa [hF] using hj
    have hn : nodeAt topo c j = some topo[c][j] := by
      simp [nodeAt, List.getElem?_eq_getElem hct, List.getElem?_eq_getElem hjt]
    have h1 := ndf_get hl hn
    rw [← hF] at h1
    have h2 : nodeAt F c j = some F[c][j] := by
      simp [nodeAt, List.getElem?_eq_getElem hc, List.getElem?_eq_getElem hj]
    rw [h2] at h1
    rw [Option.some.inj h1]
    obtain ⟨h3, h4⟩ := nodalW_ge hl hnd hw hn
    have h5 : 0 < nodalW topo w topo[c][j] := lt_of_lt_of_le h3 h4
    exact ⟨div_pos h3 h5, (div_le_one h5).2 h4⟩
  · intro n c j c' j' f f' wc wc' h h' hf hf' hwc hwc'
    rw [hF, ndf_get hl h] at hf
    rw [hF, ndf_get hl h'] at hf'
    rw [← Option.some.inj hf, ← Option.some.inj hf', List.getD_eq_getElem?_getD, List.getD_eq_getElem?_getD, hwc, hwc']
    simp only [Option.getD_some]
    ring

/-- **C24** dense topologies. -/
theorem C24_partition {topo : Topo} {w : List K} (hl : w.length = topo.length) (hne : topo.flatten ≠ [])
    (hnd : ∀ r ∈ topo, r.Nodup) (hw : ∀ x ∈ w, 0 < x) :
    ∃ F, ndf topo w = some F ∧ IsPartition topo w F := by
  refine ⟨_, ?_, isPartition_closed hl hnd hw⟩
  rw [ndf, if_neg]
  rintro (h | h)
  · exact hne h
  · omega

/-- Two triangles of areas 1 and 3 with a common edge. -/
example : ndf (K := ℚ) [[0, 1, 2], [2, 1, 3]] [1, 3] = some [[1, 1/4, 1/4], [3/4, 3/4, 1]] := by decide +kernel

/-- **C24** fails for a cell that lists a node twice (a collapsed quadrilateral): its weight is counted once, but
the node gets two factors, whose sum is 2. -/
theorem C24_repeated_node_false :
    ∃ (topo : Topo) (w : List ℚ) (F : List (List ℚ)) (n : Nat) (ps : List (Nat × Nat)), w.length = topo.length ∧
      (∀ x ∈ w, 0 < x) ∧ ndf topo w = some F ∧ IncidenceList topo n ps ∧ ps ≠ [] ∧
      (ps.map fun p => (nodeAt F p.1 p.2).getD 0).sum = 2 := by
  refine ⟨[[0, 1, 2, 2]], [1], [[1, 1, 1, 1]], 2, [(0, 2), (0, 3)], rfl, by simp, by decide +kernel, ?_, by simp,
    by decide +kernel⟩
  have := incidence_atNode [[0, 1, 2, 2]] 2
  exact this

/-! ### csr -/

theorem take_succ_length {α : Type} (rows : List (List α)) {i : Nat} (hi : i < rows.length) :
    (rows.take (i + 1)).flatten.length = (rows.take i).flatten.length + rows[i].length := by
  rw [List.take_succ_eq_append_getElem hi, List.flatten_append, List.length_append, List.flatten_cons,
    List.flatten_nil, List.append_nil]

theorem slice_flatten {α : Type} (rows : List (List α)) {i : Nat} (hi : i < rows.length) :
    slice rows.flatten (rows.take i).flatten.length (rows.take (i + 1)).flatten.length = rows[i] := by
  have h1 : rows = rows.take i ++ rows[i] :: rows.drop (i + 1) := by
    rw [List.cons_getElem_drop_succ, List.take_append_drop]
  have h2 := take_succ_length rows hi
  have h3 : rows.flatten = (rows.take i).flatten ++ (rows[i] ++ (rows.drop (i + 1)).flatten) := by
    conv_lhs => rw [h1]
    rw [List.flatten_append, List.flatten_cons]
  rw [slice, h2, h3, List.drop_left, Nat.add_sub_cancel_left, List.take_left]

theorem rowPtr_get {α : Type} (rows : List (List α)) {i : Nat} (hi : i ≤ rows.length) :
    (rowPtr rows).getD i 0 = (rows.take i).flatten.length := by
  rw [List.getD_eq_getElem?_getD, rowPtr, List.getElem?_map, List.getElem?_range (by omega)]
  rfl

theorem csrRows_rowPtr {α : Type} (rows : List (List α)) : csrRows rows.flatten (rowPtr rows) = rows := by
  apply List.ext_getElem
  · simp [csrRows, rowPtr]
  · intro i h1 h2
    simp only [csrRows, List.getElem_map, List.getElem_range]
    rw [rowPtr_get _ h2.le, rowPtr_get _ (by omega), slice_flatten _ h2]

/-- **C24** ragged topologies in csr format, in any order of the parallel assignments: the flat array of factors
holds the factors of the dense function, row after row. -/
theorem C24_csr {topo : Topo} {w : List K} (hl : w.length = topo.length) (hne : topo.flatten ≠ [])
    (hnd : ∀ r ∈ topo, r.Nodup) (hw : ∀ x ∈ w, 0 < x) {sched : List (Nat × K)}
    (hp : (ndfCsrW topo.flatten (rowPtr topo) w).Perm sched) :
    ∃ F, ndfCsrWith topo.flatten (rowPtr topo) w sched = some F.flatten ∧ IsPartition topo w F := by
  set F := List.zipWith (fun row wi => row.map fun n => wi / nodalW topo w n) topo w with hF
  refine ⟨F, ?_, isPartition_closed hl hnd hw⟩
  have hptr : (rowPtr topo).length - 1 = topo.length := by simp [rowPtr]
  rw [ndfCsrWith, if_neg (by rw [hptr]; rintro (h | h); exacts [hne h, by omega])]
  have hlens : F.map List.length = topo.map List.length := (isPartition_closed hl hnd hw).shape
  have hFl : F.length = topo.length := by simpa using congrArg List.length hlens
  have htk : ∀ i, (F.take i).flatten.length = (topo.take i).flatten.length := by
    intro i
    rw [List.length_flatten, List.length_flatten, List.map_take, List.map_take, hlens]
  have hlen : F.flatten.length = topo.flatten.length := by
    rw [List.length_flatten, List.length_flatten, hlens]
  -- entry `ptr i + j` of a flattened array
  have hget : ∀ {α : Type} (rows : List (List α)) (i j : Nat) (hi : i < rows.length), j < rows[i].length →
      rows.flatten[(rows.take i).flatten.length + j]? = (rows[i])[j]? := by
    intro α rows i j hi hj
    have h := slice_flatten rows hi
    have h2 := take_succ_length rows hi
    rw [slice, h2, Nat.add_sub_cancel_left] at h
    conv_rhs => rw [← h]
    rw [List.getElem?_take_of_lt hj, List.getElem?_drop]
  have hm : ∀ x, x ∈ sched ↔ ∃ i j, ∃ (hi : i < topo.length) (hj : j < topo[i].length),
      x = ((topo.take i).flatten.length + j, w.getD i 0 / nodalW topo w topo[i][j]) := by
    intro x
    rw [← hp.mem_iff]
    simp only [ndfCsrW, hptr, csrRows_rowPtr, List.mem_flatMap, List.mem_range, List.mem_map]
    constructor
    · rintro ⟨i, hi, j, hj, rfl⟩
      rw [rowPtr_get _ hi.le, rowPtr_get _ (by omega : i + 1 ≤ topo.length)] at hj
      rw [take_succ_length topo hi] at hj
      have hj' : j < topo[i].length := by omega
      refine ⟨i, j, hi, hj', ?_⟩
      rw [rowPtr_get _ hi.le, List.getD_eq_getElem?_getD, List.getD_eq_getElem?_getD, hget topo i j hi hj',
        List.getElem?_eq_getElem hj']
      simp
    · rintro ⟨i, j, hi, hj, rfl⟩
      refine ⟨i, hi, j, ?_, ?_⟩
      · rw [rowPtr_get _ hi.le, rowPtr_get _ (by omega : i + 1 ≤ topo.length), take_succ_length topo hi]
        omega
      · rw [rowPtr_get _ hi.le, List.getD_eq_getElem?_getD, List.getD_eq_getElem?_getD, hget topo i j hi hj,
          List.getElem?_eq_getElem hj]
        simp
  have hval : ∀ x ∈ sched, F.flatten[x.1]? = some x.2 := by
    intro x hx
    obtain ⟨i, j, hi, hj, rfl⟩ := (hm x).1 hx
    have hiF : i < F.length := by omega
    have hjF : j < F[i].length := by simpa [hF] using hj
    have := hget F i j hiF hjF
    rw [htk] at this
    rw [this, List.getElem?_eq_getElem hjF]
    have hiw : i < w.length := by omega
    simp [hF, List.getElem?_eq_getElem hiw]
  have hc : Consistent sched := by
    intro x hx y hy hxy
    have h1 := hval x hx
    rw [hxy, hval y hy] at h1
    exact (Option.some.inj h1).symm
  congr 1
  apply List.ext_getElem?
  intro k
  by_cases hk : k < topo.flatten.length
  · rw [toArr_getElem? _ hk]
    -- locate `k`
    have hloc : ∀ (rows : Topo) (k : Nat), k < rows.flatten.length → ∃ i j, ∃ (hi : i < rows.length),
        j < rows[i].length ∧ k = (rows.take i).flatten.length + j := by
      intro rows
      induction rows with
      | nil => intro k hk; simp at hk
      | cons r rows ih =>
        intro k hk
        by_cases h : k < r.length
        · exact ⟨0, k, by simp, by simpa using h, by simp⟩
        · obtain ⟨i, j, hi, hj, e⟩ := ih (k - r.length) (by simp at hk ⊢; omega)
          refine ⟨i + 1, j, by simpa using hi, by simpa using hj, ?_⟩
          simp only [List.take_succ_cons, List.flatten_cons, List.length_append]
          omega
    obtain ⟨i, j, hi, hj, rfl⟩ := hloc topo k hk
    have hx := (hm _).2 ⟨i, j, hi, hj, rfl⟩
    rw [hval _ hx, ← runW_of_mem hc (m := fun _ => 0) hx]
  · rw [List.getElem?_eq_none (by rw [length_toArr]; omega), List.getElem?_eq_none (by omega)]

example : ndfCsrWith (K := ℚ) [0, 1, 2, 2, 1] [0, 3, 5] [1, 3] (ndfCsrW [0, 1, 2, 2, 1] [0, 3, 5] [1, 3]) =
    some [1, 1/4, 1/4, 3/4, 3/4] := by decide +kernel

end

end PM
