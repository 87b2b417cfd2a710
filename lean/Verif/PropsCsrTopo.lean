import Verif.CsrTopo
import Verif.PropsTopo
import Verif.PropsFactors

/-!
# C85: topologies in other containers
-/

namespace PM

/-! ## specification -/

/-- The csr matrix holds the rows of the topology. -/
structure IsCsr (topo : Topo) (c : Csr) : Prop where
  data : c.data = topo.flatten
  len : c.indptr.length = topo.length + 1
  ptr : ∀ i ≤ topo.length, c.indptr[i]? = some (topo.take i).flatten.length

/-! ## entries -/

theorem IsCsr.getD {topo : Topo} {c : Csr} (h : IsCsr topo c) {i : Nat} (hi : i ≤ topo.length) :
    c.indptr.getD i 0 = (topo.take i).flatten.length := by
  rw [List.getD_eq_getElem?_getD, h.ptr i hi, Option.getD_some]

theorem take_flatten_succ {α : Type} (rows : List (List α)) {i : Nat} (hi : i < rows.length) :
    (rows.take (i + 1)).flatten.length = (rows.take i).flatten.length + rows[i].length := by
  rw [List.take_succ_eq_append_getElem hi, List.flatten_append, List.length_append]
  simp

theorem flatten_at {α : Type} (rows : List (List α)) {i j : Nat} (hi : i < rows.length) (hj : j < rows[i].length) :
    rows.flatten[(rows.take i).flatten.length + j]? = some rows[i][j] := by
  have h := slice_flatten rows hi
  rw [slice, take_flatten_succ rows hi, Nat.add_sub_cancel_left] at h
  have h2 : (rows[i])[j]? = some rows[i][j] := List.getElem?_eq_getElem hj
  rw [← h2]
  conv_rhs => rw [← h]
  rw [List.getElem?_take_of_lt hj, List.getElem?_drop]

theorem IsCsr.entries {topo : Topo} {c : Csr} (h : IsCsr topo c) : csrEntries c = some (entriesOf topo) := by
  unfold csrEntries
  rw [h.len, Nat.add_sub_cancel]
  rw [mapM_some (g := fun iE => (List.range (topo.getD iE []).length).map fun j => (⟨iE, j, (topo.getD iE []).getD j 0⟩ : Entry))]
  · rw [Option.map_some, entriesOf, ← List.flatMap_def]
    congr 1
    have : topo.zipIdx = (List.range topo.length).map fun i => (topo.getD i [], i) := by
      apply List.ext_getElem (by simp)
      intro i h1 h2
      simp at h1
      simp [h1]
    rw [this, List.flatMap_map]
    congr 1
    funext i
    apply List.ext_getElem (by simp)
    intro j h1 h2
    simp at h1
    simp [h1]
  · intro i hi
    have hi : i < topo.length := List.mem_range.1 hi
    have e : topo.getD i [] = topo[i] := by rw [List.getD_eq_getElem?_getD, List.getElem?_eq_getElem hi, Option.getD_some]
    rw [h.getD hi.le, h.getD (by omega : i + 1 ≤ topo.length), take_flatten_succ topo hi, Nat.add_sub_cancel_left, e]
    apply mapM_some
    intro j hj
    have hj : j < topo[i].length := List.mem_range.1 hj
    rw [h.data, flatten_at topo hi hj, Option.map_some, List.getD_eq_getElem?_getD, List.getElem?_eq_getElem hj, Option.getD_some]

theorem IsCsr.map {topo : Topo} {c : Csr} (h : IsCsr topo c) (g : Nat → Nat) :
    IsCsr (topo.map (List.map g)) ⟨c.data.map g, c.indptr⟩ := by
  refine ⟨by rw [h.data, List.map_flatten], by rw [h.len, List.length_map], fun i hi => ?_⟩
  rw [List.length_map] at hi
  rw [h.ptr i hi]
  congr 1
  rw [← List.map_take, ← List.map_flatten, List.length_map]

theorem IsCsr.regularize {topo : Topo} {c : Csr} (h : IsCsr topo c) : IsCsr (regularize topo).1 (regularizeCsr c).1 := by
  rw [regularize_fst, ← h.data]
  exact h.map _

theorem foldlM_node {S : Type} (f : S → Nat → Option S) (topo : Topo) (s : S) :
    (entriesOf topo).foldlM (fun s e => f s e.node) s = topo.flatten.foldlM f s := by
  rw [← entriesOf_map_node, List.foldlM_map]

theorem IsCsr.count {topo : Topo} {c : Csr} (h : IsCsr topo c) : countRegCsr c = countCellsAtNodesReg topo := by
  unfold countRegCsr countCellsAtNodesReg
  rw [h.entries, h.data]
  cases maxNode? topo.flatten with
  | none => rfl
  | some mx => exact foldlM_node _ _ _

theorem IsCsr.countDict {topo : Topo} {c : Csr} (h : IsCsr topo c) :
    countDictCsr c = (countCellsAtNodesDict topo).map fun d => (d, (regularizeCsr c).1) := by
  unfold countDictCsr countCellsAtNodesDict
  have e2 : (regularizeCsr c).2 = (PM.regularize topo).2 := by
    show npUnique c.data = npUnique topo.flatten
    rw [h.data]
  simp only [h.regularize.entries, e2, Option.bind_eq_bind, Option.bind_some, foldlM_node]
  rw [Option.map_eq_bind]
  rfl

theorem IsCsr.cellsAtNodes {topo : Topo} {c : Csr} (h : IsCsr topo c) : cellsAtNodesRegCsr c = cellsAtNodesReg topo := by
  unfold cellsAtNodesRegCsr cellsAtNodesReg
  rw [h.count, h.entries, h.data]
  cases h1 : maxNode? topo.flatten with
  | none => simp [countCellsAtNodesReg, h1]
  | some mx =>
    cases h2 : countCellsAtNodesReg topo with
    | none => rfl
    | some ct =>
      cases h3 : maxNode? ct <;> simp [h3]

theorem IsCsr.isRegular {topo : Topo} {c : Csr} (h : IsCsr topo c) : isRegularCsr c = isRegular topo := by
  unfold isRegularCsr PM.isRegular
  rw [h.data]
  cases minNode? topo.flatten with
  | none => rfl
  | some mn =>
    cases maxNode? topo.flatten with
    | none => rfl
    | some mx =>
      simp only [Option.bind_eq_bind, Option.bind_some, Option.pure_def, Option.some.injEq]
      rw [Bool.eq_iff_iff]
      simp

theorem IsCsr.dicts {topo : Topo} {c : Csr} (h : IsCsr topo c) (cellIDs : Option (List Nat)) :
    cellsAtNodesDictsCsr c cellIDs = (cellsAtNodesDicts topo cellIDs).bind fun r => (PM.isRegular topo).map fun b =>
      (r, if b then c else (regularizeCsr c).1) := by
  unfold cellsAtNodesDictsCsr cellsAtNodesDicts
  rw [h.isRegular]
  cases PM.isRegular topo with
  | none => rfl
  | some b =>
    simp only [Option.bind_eq_bind, Option.bind_some]
    have h2 : (if b = true then c else (regularizeCsr c).1).indptr.length - 1 = topo.length := by
      have : (regularizeCsr c).1.indptr = c.indptr := rfl
      split <;> simp [this, h.len]
    have h3 : cellsAtNodesRegCsr (if b = true then c else (regularizeCsr c).1) =
        cellsAtNodesReg (if b = true then topo else (PM.regularize topo).1) := by
      split
      · exact h.cellsAtNodes
      · exact h.regularize.cellsAtNodes
    have h4 : (regularizeCsr c).2 = (PM.regularize topo).2 := by
      show npUnique c.data = npUnique topo.flatten
      rw [h.data]
    rw [h2, h3, h4]
    cases cellsAtNodesReg (if b = true then topo else (PM.regularize topo).1) with
    | none => rfl
    | some s =>
      simp only [Option.bind_some]
      cases nodalCellDataToDicts s _ _ <;> rfl

/-! ## theorems -/

/-- **C85** counts for regular csr topologies. -/
theorem C85_count (topo : Topo) (c : Csr) (h : IsCsr topo c) (mx : Nat) (hu : UsesNode topo mx)
    (hmax : ∀ n, UsesNode topo n → n ≤ mx) :
    ∃ r, countRegCsr c = some r ∧ r.length = mx + 1 ∧
      (∀ n, n ≤ mx → r[n]? = some (topo.map fun row => row.count n).sum) ∧ r.sum = (topo.map List.length).sum := by
  rw [h.count]
  exact C05_count topo mx hu hmax

/-- **C85** counts for csr topologies with any numbers: right, but the numbers in the matrix of the caller are replaced. -/
theorem C85_count_dict (topo : Topo) (c : Csr) (h : IsCsr topo c) :
    ∃ d c' topo', countDictCsr c = some (d, c') ∧ IsCsr topo' c' ∧
      (∀ n, d.get? n = if n ∈ topo.flatten then some (topo.map fun row => row.count n).sum else none) ∧
      topo'.map List.length = topo.map List.length ∧ ∃ ids : List Nat, ids.Pairwise (· < ·) ∧ (∀ n, n ∈ ids ↔ UsesNode topo n) ∧
        ∀ i j n, nodeAt topo i j = some n → ∃ k, nodeAt topo' i j = some k ∧ ids[k]? = some n := by
  obtain ⟨d, hd, hg⟩ := C05_count_dict topo
  obtain ⟨h1, h2, -, h4, h5⟩ := C01_regularize topo
  exact ⟨d, (regularizeCsr c).1, (regularize topo).1, by rw [h.countDict, hd]; rfl, h.regularize, hg, h4, (regularize topo).2, h1, h2, h5⟩

/-- **C85** incidences for regular csr topologies. -/
theorem C85_cells_at_nodes (topo : Topo) (c : Csr) (h : IsCsr topo c) (mx : Nat) (hu : UsesNode topo mx)
    (hmax : ∀ n, UsesNode topo n → n ≤ mx) :
    ∃ s, cellsAtNodesRegCsr c = some s ∧ s.count.length = mx + 1 ∧
      ∀ n, n ≤ mx → ∃ ps k er nr, IncidenceList topo n ps ∧ s.count[n]? = some k ∧ s.ereg[n]? = some er ∧
        s.nreg[n]? = some nr ∧ k = ps.length ∧ er.take k = ps.map Prod.fst ∧ nr.take k = ps.map Prod.snd := by
  rw [h.cellsAtNodes]
  exact C06_cells_at_nodes_raw topo mx hu hmax

/-- **C85** incidences for csr topologies with any numbers; the matrix stays as it is if it has no gaps. -/
theorem C85_cells_at_nodes_dicts (topo : Topo) (c : Csr) (h : IsCsr topo c) (n₀ : Nat) (h₀ : UsesNode topo n₀)
    (cellIDs : Option (List Nat)) (hc : ∀ l, cellIDs = some l → l.length = topo.length) :
    ∃ E N c', cellsAtNodesDictsCsr c cellIDs = some ((E, N), c') ∧
      (∀ n, UsesNode topo n ∨ (E.get? n = none ∧ N.get? n = none)) ∧
      (∀ n, UsesNode topo n → ∃ ps, IncidenceList topo n ps ∧
        E.get? n = some (ps.map fun p => (cellIDs.getD (List.range topo.length)).getD p.1 0) ∧
        N.get? n = some (ps.map Prod.snd)) ∧
      ((∃ m, ∀ n, UsesNode topo n ↔ n ≤ m) → c' = c) := by
  obtain ⟨E, N, e, h1, h2⟩ := C06_cells_at_nodes_dicts topo n₀ h₀ cellIDs hc
  obtain ⟨r1, r2⟩ := C02_isRegular topo
  cases hb : isRegular topo with
  | none => exact absurd h₀ (r1.1 hb n₀)
  | some b =>
    refine ⟨E, N, _, by rw [h.dicts, e, hb]; rfl, h1, h2, fun hm => ?_⟩
    rw [r2.2 hm] at hb
    obtain rfl := Option.some.inj hb
    rfl

/-- **C85** (disagreement) counting renumbers the topology of the caller: the second call gives other nodes. -/
theorem C85_twice_false : ∃ (topo : Topo) (c c' c'' : Csr) (d d' : PyDict Nat Nat), IsCsr topo c ∧ countDictCsr c = some (d, c') ∧
    countDictCsr c' = some (d', c'') ∧ d.get? 7 = some 2 ∧ d'.get? 7 = none :=
  ⟨[[5, 7], [7, 9, 3]], ⟨[5, 7, 7, 9, 3], [0, 2, 5]⟩, ⟨[1, 2, 2, 3, 0], [0, 2, 5]⟩, ⟨[1, 2, 2, 3, 0], [0, 2, 5]⟩,
    [(3, 1), (5, 1), (7, 2), (9, 1)], [(0, 1), (1, 1), (2, 2), (3, 1)],
    ⟨rfl, rfl, by decide⟩, by decide, by decide, by decide, by decide⟩

/-! ## adjacency of jagged topologies -/

theorem indptrOf_get (rows : List (List Nat)) (k i : Nat) (hi : i ≤ rows.length) :
    (cumsumFrom k (rows.map List.length)).getD i 0 = k + (rows.take i).flatten.length := by
  induction rows generalizing k i with
  | nil =>
    obtain rfl : i = 0 := by simpa using hi
    simp [cumsumFrom]
  | cons r rows ih =>
    cases i with
    | zero => simp [cumsumFrom]
    | succ i =>
      rw [List.map_cons, cumsumFrom, List.getD_cons_succ, ih _ _ (by simpa using hi)]
      simp [Nat.add_assoc]

theorem subtopoW_eq (topo : Topo) {inds : List Nat} {rows : List (List Nat)} (h : gather? topo inds = some rows) (k : Nat) :
    (((cumsumFrom k (rows.map List.length)).zip inds).flatMap fun x =>
      sliceWrites x.1 (slice topo.flatten ((indptrOf (topo.map List.length)).getD x.2 0) ((indptrOf (topo.map List.length)).getD (x.2 + 1) 0)))
      = ((cumsumFrom k (rows.map List.length)).zip rows).flatMap fun x => sliceWrites x.1 x.2 := by
  have hf := mapM_eq_some_iff.1 h
  clear h
  induction hf generalizing k with
  | nil => rfl
  | @cons i r inds rows hi hr ih =>
    simp only [List.map_cons, cumsumFrom, List.zip_cons_cons, List.flatMap_cons, ih]
    congr 2
    obtain ⟨hlt, rfl⟩ := List.getElem?_eq_some_iff.1 hi
    rw [indptrOf, indptrOf_get _ _ _ hlt.le, indptrOf_get _ _ _ (by omega), Nat.zero_add, Nat.zero_add, slice_flatten topo hlt]

theorem subtopo_eq {sched : List (Nat × Nat) → List (Nat × Nat)} (hs : ∀ w, (sched w).Perm w) (topo : Topo) (inds : List Nat) :
    subtopo1d sched topo.flatten (topo.map List.length) inds (indptrOf (topo.map List.length)) =
      (gather? topo inds).map List.flatten := by
  unfold subtopo1d
  cases h : gather? topo inds with
  | none =>
    have : gather? (topo.map List.length) inds = none := by
      by_contra hn
      obtain ⟨r, hr⟩ := Option.ne_none_iff_exists'.1 hn
      have hm : ∀ i ∈ inds, topo[i]? = some (topo.getD i []) := by
        have hf := mapM_eq_some_iff.1 hr
        clear h hn hr
        induction hf with
        | nil => simp
        | @cons j v inds r e hf ih =>
          intro i hi
          rcases List.mem_cons.1 hi with rfl | hi
          · rw [List.getElem?_map] at e
            cases ht : topo[i]? with
            | none => rw [ht] at e; cases e
            | some row => simp [ht]
          · exact ih i hi
      have h' : gather? topo inds = some _ := mapM_some (g := fun i => topo.getD i []) hm
      rw [h] at h'
      cases h'
    rw [this]
    rfl
  | some rows =>
    have : gather? (topo.map List.length) inds = some (rows.map List.length) := by
      have hf := mapM_eq_some_iff.1 h
      refine mapM_eq_some_iff.2 (List.forall₂_map_right_iff.2 (hf.imp fun i r e => ?_))
      rw [List.getElem?_map, e, Option.map_some]
    rw [this, Option.map_some, Option.map_some, subtopoW, show indptrOf (rows.map List.length) = cumsumFrom 0 (rows.map List.length) from rfl,
      subtopoW_eq topo h, spdata_writes_eq]
    congr 1
    have hl : (rows.map List.length).sum = rows.flatten.length := by rw [List.length_flatten]
    rw [hl]
    exact toArr_runW_zipIdx _ (hs _).symm

/-- **C85** the adjacency of a jagged topology is that of C07, in every order of the parallel loops. -/
theorem C85_adjacency {sched : List (Nat × Nat) → List (Nat × Nat)} (hs : ∀ w, (sched w).Perm w) (topo : Topo) (n₀ : Nat)
    (h₀ : UsesNode topo n₀) :
    ∃ d, nodalAdjacencyOf sched (.jagged topo) = some d ∧ (∀ n, UsesNode topo n ↔ ∃ l, d.get? n = some l) ∧
      ∀ n l, d.get? n = some l → l.Pairwise (· < ·) ∧ ∀ m, m ∈ l ↔ ∃ row ∈ topo, n ∈ row ∧ m ∈ row := by
  have e : nodalAdjacencyOf sched (.jagged topo) = nodalAdjacency topo := by
    have hstep : ∀ E, adjacencyAk sched topo.flatten (topo.map List.length) E = E.mapM (adjacencyStep topo) := by
      intro E
      unfold adjacencyAk
      congr 1
      funext x
      rw [subtopo_eq hs, adjacencyStep]
      cases gather? topo x.2 <;> rfl
    unfold nodalAdjacencyOf nodalAdjacency
    simp only [hstep]
  rw [e]
  exact C07_nodal_adjacency topo n₀ h₀

/-- **C85** (disagreement) there is no adjacency of topologies stored as csr matrices. -/
theorem C85_csr_adjacency_false (sched : List (Nat × Nat) → List (Nat × Nat)) (c : Csr) : nodalAdjacencyOf sched (.csr c) = none := by
  simp only [nodalAdjacencyOf]
  cases cellsAtNodesDictsCsr c none <;> rfl

/-! ## jagged arrays as csr matrices -/

theorem sliceWrites_eq {α : Type} (k : Nat) (l : List α) : sliceWrites k l = (l.zipIdx k).map fun x => (x.2, x.1) := by
  rw [sliceWrites, List.zipIdx_eq_map_add (i := k), List.map_map]
  rfl

/-- The row pointers as writes. -/
def ptrWrites (k c : Nat) : List (List Nat) → List (Nat × Nat)
  | [] => []
  | r :: rows => (k + 1, c + r.length) :: ptrWrites (k + 1) (c + r.length) rows

theorem spFold (rows : List (List Nat)) (k : Nat) (s : SpState) :
    (rows.zipIdx k).foldl spStep s =
      ⟨s.c + rows.flatten.length, (rows.map List.length).foldl max s.wmax,
        runW ((rows.flatten.zipIdx s.c).map fun x => (x.2, x.1)) s.data,
        runW (((rows.map fun r => List.range r.length).flatten.zipIdx s.c).map fun x => (x.2, x.1)) s.inds,
        runW (ptrWrites k s.c rows) s.indptr⟩ := by
  induction rows generalizing k s with
  | nil => simp [runW, ptrWrites]
  | cons r rows ih =>
    rw [List.zipIdx_cons, List.foldl_cons, ih]
    simp only [spStep, List.flatten_cons, List.map_cons, List.foldl_cons, List.zipIdx_append, List.map_append, runW_append,
      List.length_append, sliceWrites_eq, List.length_range, ptrWrites, Nat.add_assoc]
    have e : (if s.wmax < r.length then r.length else s.wmax) = max s.wmax r.length := by
      rw [max_def]
      split <;> split <;> omega
    rw [e]
    rfl

theorem ptrWrites_mem (rows : List (List Nat)) (k c : Nat) {i : Nat} (hi : i < rows.length) :
    (k + i + 1, c + (rows.take (i + 1)).flatten.length) ∈ ptrWrites k c rows := by
  induction rows generalizing k c i with
  | nil => simp at hi
  | cons r rows ih =>
    cases i with
    | zero => simp [ptrWrites]
    | succ i =>
      rw [ptrWrites]
      refine List.mem_cons_of_mem _ ?_
      have := ih (k + 1) (c + r.length) (i := i) (by simpa using hi)
      rw [List.take_succ_cons, List.flatten_cons, List.length_append, ← Nat.add_assoc]
      convert this using 2 <;> omega

theorem ptrWrites_lt {rows : List (List Nat)} {k c : Nat} {x : Nat × Nat} (h : x ∈ ptrWrites k c rows) : k < x.1 := by
  induction rows generalizing k c with
  | nil => simp [ptrWrites] at h
  | cons r rows ih =>
    rcases List.mem_cons.1 h with rfl | h
    · simp
    · have := ih h
      omega

theorem ptrWrites_consistent (rows : List (List Nat)) (k c : Nat) : Consistent (ptrWrites k c rows) := by
  induction rows generalizing k c with
  | nil => intro x hx; simp [ptrWrites] at hx
  | cons r rows ih =>
    intro x hx y hy e
    rcases List.mem_cons.1 hx with rfl | hx <;> rcases List.mem_cons.1 hy with rfl | hy
    · rfl
    · have := ptrWrites_lt hy
      simp at e
      omega
    · have := ptrWrites_lt hx
      simp at e
      omega
    · exact ih _ _ x hx y hy e

/-- **C85** a jagged array as a csr matrix: the same rows; the indices count the places within the rows; the number of columns is the
length of the longest row. -/
theorem C85_spdata (rows : Topo) :
    ∃ data inds indptr w, jaggedToSpdata rows = (data, inds, indptr, (rows.length, w)) ∧ IsCsr rows ⟨data, indptr⟩ ∧
      inds = (rows.map fun r => List.range r.length).flatten ∧ (∀ r ∈ rows, r.length ≤ w) ∧ (w = 0 ∨ ∃ r ∈ rows, r.length = w) := by
  have hN : (rows.map List.length).sum = rows.flatten.length := by rw [List.length_flatten]
  have hN' : (rows.map List.length).sum = (rows.map fun r => List.range r.length).flatten.length := by
    rw [List.length_flatten, List.map_map]
    congr 2
    funext r
    simp
  have hw : ∀ (l : List Nat) (a : Nat), a ≤ l.foldl max a ∧ (∀ x ∈ l, x ≤ l.foldl max a) ∧ (l.foldl max a = a ∨ l.foldl max a ∈ l) := by
    intro l
    induction l with
    | nil => simp
    | cons b l ih =>
      intro a
      obtain ⟨h1, h2, h3⟩ := ih (max a b)
      rw [List.foldl_cons]
      refine ⟨by omega, ?_, ?_⟩
      · intro x hx
        rcases List.mem_cons.1 hx with rfl | hx
        · omega
        · exact h2 x hx
      · rcases h3 with h3 | h3
        · rw [h3]
          rcases le_total a b with h | h
          · right; simp [h]
          · left; exact max_eq_left h
        · right; exact List.mem_cons_of_mem _ h3
  obtain ⟨-, w2, w3⟩ := hw (rows.map List.length) 0
  refine ⟨_, _, _, _, by rw [jaggedToSpdata, spFold], ⟨?_, ?_, ?_⟩, ?_, ?_, ?_⟩
  · rw [hN]
    exact toArr_runW_zipIdx _ (List.Perm.refl _)
  · simp [toArr]
  · intro i hi
    rw [toArr_getElem? _ (by omega)]
    dsimp only
    cases i with
    | zero =>
      rw [runW_of_not_mem]
      · simp
      · intro x hx
        have := ptrWrites_lt hx
        omega
    | succ i =>
      have := runW_of_mem (ptrWrites_consistent rows 0 0) (m := fun _ => 0) (ptrWrites_mem rows 0 0 (i := i) (by omega))
      simp only [Nat.zero_add] at this
      exact congrArg some this
  · rw [hN']
    exact toArr_runW_zipIdx _ (List.Perm.refl _)
  · intro r hr
    exact w2 _ (List.mem_map_of_mem hr)
  · rcases w3 with w3 | w3
    · exact Or.inl w3
    · obtain ⟨r, hr, e⟩ := List.mem_map.1 w3
      exact Or.inr ⟨r, hr, e⟩

/-- Two cells with two and three nodes. -/
example : IsCsr [[5, 7], [7, 9, 3]] ⟨[5, 7, 7, 9, 3], [0, 2, 5]⟩ ∧ countRegCsr ⟨[0, 1, 1, 2, 3], [0, 2, 5]⟩ = some [1, 2, 1, 1] ∧
    (nodalAdjacencyOf List.reverse (.jagged [[5, 7], [7, 9, 3]])) = some [(3, [3, 7, 9]), (5, [5, 7]), (7, [3, 5, 7, 9]), (9, [3, 7, 9])] :=
  ⟨⟨rfl, rfl, by decide⟩, by decide, by decide⟩

end PM
