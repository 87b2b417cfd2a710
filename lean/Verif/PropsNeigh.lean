import Verif.Neigh
import Verif.PropsWalk
import Verif.PropsCsrTopo
import Verif.PropsAround
import Verif.PropsKnn
import Verif.PropsElevate

/-!
# C94: neighbours in whole meshes
-/

namespace PM

section
variable {P D : Type}

/-- Specification: `n` is a node of a cell of the block at `p` or of a block beneath it. -/
def UsedIn (m : List (MBlock P D)) (p : List Nat) (n : Nat) : Prop :=
  ∃ b ∈ m, p <:+ b.path ∧ ∃ c, b.cells = some c ∧ UsesNode c.topo n

/-- Rows of the topology are the rows of the cells. -/
theorem mem_topologyOf {m : List (MBlock P D)} {p : List Nat} {T : Topo} (h : topologyOf m p = some T) (row : List Nat) :
    row ∈ T ↔ ∃ b ∈ m, p <:+ b.path ∧ ∃ c, b.cells = some c ∧ row ∈ c.topo := by
  unfold topologyOf stackAll at h
  split at h
  · cases h
  · obtain rfl := Option.some.inj h
    simp only [List.mem_flatten, List.mem_map]
    constructor
    · rintro ⟨_, ⟨⟨b, c⟩, hbc, rfl⟩, hr⟩
      obtain ⟨h1, h2, h3⟩ := mem_cellsUnder.1 hbc
      exact ⟨b, h1, h2, c, h3, hr⟩
    · rintro ⟨b, h1, h2, c, h3, hr⟩
      exact ⟨c.topo, ⟨(b, c), mem_cellsUnder.2 ⟨h1, h2, h3⟩, rfl⟩, hr⟩

theorem usedIn_iff {m : List (MBlock P D)} {p : List Nat} {T : Topo} (h : topologyOf m p = some T) (n : Nat) : UsedIn m p n ↔ UsesNode T n := by
  constructor
  · rintro ⟨b, h1, h2, c, h3, row, hr, hn⟩
    exact ⟨row, (mem_topologyOf h row).2 ⟨b, h1, h2, c, h3, hr⟩, hn⟩
  · rintro ⟨row, hr, hn⟩
    obtain ⟨b, h1, h2, c, h3, hr⟩ := (mem_topologyOf h row).1 hr
    exact ⟨b, h1, h2, c, h3, row, hr, hn⟩

/-- **C94** (cells at nodes): for every node that is used, the cells at it and its places in them, in order; other nodes have no entry. The number of a
cell is its place in the topology of the mesh, in which the cells of all blocks are listed once, or an id that is given for it. -/
theorem C94_cells_at_nodes {toCsr : Topo → Csr} (hcsr : ∀ t, IsCsr t (toCsr t)) {m : List (MBlock P D)} (hm : MeshTree m) {p : List Nat} {n₀ : Nat}
    (h₀ : UsedIn m p n₀) (cellIDs : Option (List Nat)) (hid : ∀ l, cellIDs = some l → l.length = numberOfCells m p) :
    ∃ W T E N, IsWalk m p W ∧ topologyOf m p = some T ∧ meshCellsAtNodes toCsr m p cellIDs = some (E, N) ∧ T.length = W.length ∧
      (∀ (k : Nat) (b : MBlock P D) (c : CData D) (j : Nat), W[k]? = some ((b, c), j) → T[k]? = c.topo[j]?) ∧
      (∀ n, ¬ UsedIn m p n → E.get? n = none ∧ N.get? n = none) ∧
      ∀ n, UsedIn m p n → ∃ ps : List (Nat × Nat), IncidenceList T n ps ∧ N.get? n = some (ps.map Prod.snd) ∧
        ∃ E', E.get? n = some E' ∧ (cellIDs = none → E' = ps.map Prod.fst) ∧
          ∀ l, cellIDs = some l → List.Forall₂ (fun id q => l[Prod.fst q]? = some id) E' ps := by
  have hne : ∃ b ∈ m, p <:+ b.path ∧ b.cells.isSome := by
    obtain ⟨b, h1, h2, c, h3, -⟩ := h₀
    exact ⟨b, h1, h2, by rw [h3]; rfl⟩
  have hL := cellsUnder_ne hne
  have hw := stack_walk m p (fun c => c.2.topo) fun _ _ => rfl
  set T := (cellsUnder m p).flatMap fun c => c.2.topo with hT
  have htop : topologyOf m p = some T := stackAll_map hL _
  have hlen : T.length = numberOfCells m p := by
    rw [hT, List.length_flatMap]; rfl
  have hid' : ∀ l, cellIDs = some l → l.length = T.length := fun l hl => by rw [hlen]; exact hid l hl
  have hu₀ := (usedIn_iff htop n₀).1 h₀
  have main : ∃ E N, meshCellsAtNodes toCsr m p cellIDs = some (E, N) ∧ (∀ n, UsesNode T n ∨ (E.get? n = none ∧ N.get? n = none)) ∧
      ∀ n, UsesNode T n → ∃ ps, IncidenceList T n ps ∧ E.get? n = some (ps.map fun p => (cellIDs.getD (List.range T.length)).getD p.1 0) ∧
        N.get? n = some (ps.map Prod.snd) := by
    unfold meshCellsAtNodes
    rw [htop, Option.bind_some]
    by_cases hj : isJagged T = true
    · obtain ⟨E, N, c', e, h1, h2, -⟩ := C85_cells_at_nodes_dicts T (toCsr T) (hcsr T) n₀ hu₀ cellIDs hid'
      exact ⟨E, N, by rw [if_pos hj, e]; rfl, h1, h2⟩
    · obtain ⟨E, N, e, h1, h2⟩ := C06_cells_at_nodes_dicts T n₀ hu₀ cellIDs hid'
      exact ⟨E, N, by rw [if_neg hj, e], h1, h2⟩
  obtain ⟨E, N, e, h1, h2⟩ := main
  refine ⟨walkOf m p, T, E, N, walk_isWalk hm.nodup p, htop, e, hw.1, fun k b c j hk => hw.2 k _ j hk, fun n hn => ?_, fun n hn => ?_⟩
  · exact (h1 n).resolve_left fun h => hn ((usedIn_iff htop n).2 h)
  · obtain ⟨ps, g1, g2, g3⟩ := h2 n ((usedIn_iff htop n).1 hn)
    refine ⟨ps, g1, g3, _, g2, ?_, ?_⟩
    · rintro rfl
      refine List.map_congr_left fun q hq => ?_
      have : q.1 < T.length := by
        have := (g1.exact q.1 q.2).1 hq
        exact nodeAt_lt this
      simp [List.getD_eq_getElem?_getD, List.getElem?_range this]
    · rintro l rfl
      rw [List.forall₂_map_left_iff]
      refine List.forall₂_same.2 fun q hq => ?_
      have hlt : q.1 < l.length := by
        rw [hid' l rfl]
        exact nodeAt_lt ((g1.exact q.1 q.2).1 hq)
      simp [List.getD_eq_getElem?_getD, List.getElem?_eq_getElem hlt]

/-- **C94** (adjacency): the neighbours of a node are the nodes of the cells it belongs to, whatever blocks these are in. -/
theorem C94_adjacency {sched : List (Nat × Nat) → List (Nat × Nat)} (hs : ∀ w, (sched w).Perm w) {m : List (MBlock P D)} {p : List Nat} {n₀ : Nat}
    (h₀ : UsedIn m p n₀) :
    ∃ d, meshAdjacency sched m p = some d ∧ (∀ n, UsedIn m p n ↔ ∃ l, d.get? n = some l) ∧
      ∀ n l, d.get? n = some l → l.Pairwise (· < ·) ∧
        ∀ k, k ∈ l ↔ ∃ b ∈ m, p <:+ b.path ∧ ∃ c, b.cells = some c ∧ ∃ row ∈ c.topo, n ∈ row ∧ k ∈ row := by
  have hne : ∃ b ∈ m, p <:+ b.path ∧ b.cells.isSome := by
    obtain ⟨b, h1, h2, c, h3, -⟩ := h₀
    exact ⟨b, h1, h2, by rw [h3]; rfl⟩
  obtain ⟨T, htop⟩ : ∃ T, topologyOf m p = some T := ⟨_, stackAll_map (cellsUnder_ne hne) _⟩
  have hu₀ := (usedIn_iff htop n₀).1 h₀
  have main : ∃ d, meshAdjacency sched m p = some d ∧ (∀ n, UsesNode T n ↔ ∃ l, d.get? n = some l) ∧
      ∀ n l, d.get? n = some l → l.Pairwise (· < ·) ∧ ∀ m, m ∈ l ↔ ∃ row ∈ T, n ∈ row ∧ m ∈ row := by
    unfold meshAdjacency
    rw [htop, Option.bind_some]
    by_cases hj : isJagged T = true
    · rw [if_pos hj]; exact C85_adjacency hs T n₀ hu₀
    · rw [if_neg hj]; exact C07_nodal_adjacency T n₀ hu₀
  obtain ⟨d, h1, h2, h3⟩ := main
  refine ⟨d, h1, fun n => (usedIn_iff htop n).trans (h2 n), fun n l hl => ⟨(h3 n l hl).1, fun k => ?_⟩⟩
  rw [(h3 n l hl).2 k]
  constructor
  · rintro ⟨row, hr, hn⟩
    obtain ⟨b, g1, g2, c, g3, g4⟩ := (mem_topologyOf htop row).1 hr
    exact ⟨b, g1, g2, c, g3, row, g4, hn⟩
  · rintro ⟨b, g1, g2, c, g3, row, g4, hn⟩
    exact ⟨row, (mem_topologyOf htop row).2 ⟨b, g1, g2, c, g3, g4⟩, hn⟩

/-- **C94** (rows): cells of different numbers of nodes are noticed, and only those. -/
theorem C94_jagged (T : Topo) : isJagged T = true ↔ ∃ r ∈ T, ∃ r' ∈ T, r.length ≠ r'.length := by
  unfold isJagged
  rw [List.any_eq_true]
  constructor
  · rintro ⟨r, hr, h⟩
    cases T with
    | nil => cases hr
    | cons r' T => exact ⟨r, hr, r', List.mem_cons_self, by simpa using h⟩
  · rintro ⟨r, hr, r', hr', h⟩
    by_cases hc : r.length = (T.headD []).length
    · exact ⟨r', hr', decide_eq_true fun e => h (hc.trans e.symm)⟩
    · exact ⟨r, hr, decide_eq_true hc⟩

/-- **C94** is false for the default format of `cells_at_nodes`: node numbers with gaps are an error. -/
theorem C94_gaps_false {toCsr : Topo → Csr} {m : List (MBlock P D)} {p : List Nat} {T : Topo} (h : topologyOf m p = some T) (hj : isJagged T = false)
    {n : Nat} (hn : ¬ UsedIn m p n) {k : Nat} (hk : UsedIn m p k) (hnk : n < k) : meshCellsAtNodesRaw toCsr m p = none := by
  unfold meshCellsAtNodesRaw
  rw [h, Option.bind_some, hj, if_neg (by decide)]
  cases hr : isRegular T with
  | none => rfl
  | some r =>
    cases r with
    | false => rfl
    | true =>
      exfalso
      obtain ⟨mx, hmx⟩ := (C02_isRegular T).2.1 hr
      rw [usedIn_iff h] at hn hk
      exact hn ((hmx n).2 (by have := (hmx k).1 hk; omega))

end

/-- A case: the lines of `flatMesh` and a triangle. -/
def triBlockMesh : List (MBlock (V3 ℚ) ℚ) :=
  flatMesh ++ [⟨[2], Fr.ambient, none, some ⟨[[1, 3, 5]], [7], fun _ => none⟩⟩]

example : topologyOf triBlockMesh [] = some [[1, 2], [3, 2], [1, 3, 5]] ∧ isJagged [[1, 2], [3, 2], [1, 3, 5]] = true ∧
    meshCellsAtNodes (fun t => ⟨t.flatten, indptrOf (t.map List.length)⟩) triBlockMesh [] none =
      some ([(1, [0, 2]), (2, [0, 1]), (3, [1, 2]), (5, [2])], [(1, [0, 0]), (2, [1, 1]), (3, [0, 1]), (5, [2])]) ∧
    meshAdjacency id triBlockMesh [] = some [(1, [1, 2, 3, 5]), (2, [1, 2, 3]), (3, [1, 2, 3, 5]), (5, [1, 3, 5])] ∧
    meshAdjacency id flatMesh [] = some [(1, [1, 2]), (2, [1, 2, 3]), (3, [2, 3])] ∧
    meshCellsAtNodesRaw (fun t => ⟨t.flatten, indptrOf (t.map List.length)⟩) flatMesh [] = none := by decide +kernel

section
variable {K D : Type} [Field K]

/-- **C94** (centre): of a block without own points, the mean of the points that its cells use, each of them once. -/
theorem C94_center_used {m : List (MBlock (V3 K) D)} (hm : MeshTree m) {p : List Nat} {s : MBlock (V3 K) D} {q : PData (V3 K) D}
    (hs : ClosestPts m p s q) (hsp : s.path ≠ p) (hnest : ∀ b ∈ m, b.pts.isSome → s.path <:+ b.path → b = s)
    (hr : ∀ n, UsedIn m p n → n < q.x.length) (hu : ∃ n, UsedIn m p n) :
    ∃ (us : List Nat) (z : V3 K), meshCentre m p = some z ∧ us.Nodup ∧ us ≠ [] ∧ (∀ n, n ∈ us ↔ UsedIn m p n) ∧ MeanOfRow q.x us z := by
  have hx : pointsBeneath m s.path = q.x := pointsBeneath_eq hm.nodup hs.mem hs.pts hnest
  have hmem : ∀ n, n ∈ npUnique (topoBeneath m p).flatten ↔ UsedIn m p n := by
    intro n
    rw [mem_npUnique, List.mem_flatten]
    constructor
    · rintro ⟨row, hrow, hn⟩
      obtain ⟨c, hc, hrow⟩ := List.mem_flatMap.1 hrow
      obtain ⟨b, hb, hbc⟩ := List.mem_filterMap.1 hc
      obtain ⟨h1, h2⟩ := List.mem_filter.1 hb
      exact ⟨b, h1, by simpa using h2, c, hbc, row, hrow, hn⟩
    · rintro ⟨b, h1, h2, c, h3, row, h4, h5⟩
      exact ⟨row, List.mem_flatMap.2 ⟨c, List.mem_filterMap.2 ⟨b, List.mem_filter.2 ⟨h1, by simpa using h2⟩, h3⟩, h4⟩, h5⟩
  obtain ⟨pts, e1, e2, e3⟩ := gather?_eq_some (a := q.x) (inds := npUnique (topoBeneath m p).flatten) fun i hi => hr i ((hmem i).1 hi)
  refine ⟨npUnique (topoBeneath m p).flatten, meshCenter pts, ?_, nodup_npUnique _, ?_, hmem, pts, e2, e3, ?_⟩
  · unfold meshCentre movedPoints
    rw [sourcePath_eq hm.nodup hs, Option.bind_some, if_neg hsp, hx, e1]
    rfl
  · obtain ⟨n, hn⟩ := hu
    exact List.ne_nil_of_mem ((hmem n).2 hn)
  · simp only [meshCenter, e2]

/-- **C94** (centre): of a block with points, without others beneath it, the mean of its points. -/
theorem C94_center_own {m : List (MBlock (V3 K) D)} (hm : MeshTree m) {s : MBlock (V3 K) D} {q : PData (V3 K) D} (hs : s ∈ m) (hq : s.pts = some q)
    (hnest : ∀ b ∈ m, b.pts.isSome → s.path <:+ b.path → b = s) (hne : q.x ≠ []) :
    ∃ z, meshCentre m s.path = some z ∧ MeanOfRow q.x (List.range q.x.length) z ∧ 0 < q.x.length := by
  have hx : pointsBeneath m s.path = q.x := pointsBeneath_eq hm.nodup hs hq hnest
  have hc : ClosestPts m s.path s q := ⟨hs, hq, List.suffix_refl _, fun b _ _ h => h.length_le⟩
  refine ⟨meshCenter q.x, ?_, ⟨q.x, by simp, fun i n hn => ?_, by simp [meshCenter]⟩, List.length_pos_iff.2 hne⟩
  · unfold meshCentre movedPoints
    rw [sourcePath_eq hm.nodup hc, Option.bind_some, if_pos rfl, hx]
    rfl
  · obtain ⟨h1, h2⟩ := List.getElem?_eq_some_iff.1 hn
    rw [List.getElem_range] at h2
    rw [h2]

example : meshCentre flatMesh [0] = some ⟨3/2, 0, 0⟩ ∧ meshCentre flatMesh [1] = some ⟨5/2, 0, 0⟩ := by decide +kernel

/-- Nearest cells by an actual search, of the two cells of `flatMesh`. -/
example : (∃ t, nearestCells flatMesh [] 2 none (fun X k => X.zipIdx.map fun x => (x.2 :: (List.range X.length).erase x.2).take k) =
    some (.table t) ∧ t = [[0, 1], [1, 0]]) ∧ numberOfCells flatMesh [] = 2 := ⟨⟨_, rfl, by decide +kernel⟩, by decide +kernel⟩

/-- `flatMesh` meets the conditions on the blocks. -/
example : MeshTree flatMesh ∧ (∃ s q, ClosestPts flatMesh [1] s q ∧ s.path ≠ [1] ∧ (∀ b ∈ flatMesh, b.pts.isSome → s.path <:+ b.path → b = s) ∧
    ∀ b ∈ flatMesh, [1] <:+ b.path → ∀ c, b.cells = some c → ∀ n ∈ c.topo.flatten, n < q.x.length) ∧ UsedIn flatMesh [1] 3 := by
  refine ⟨⟨⟨_, _, rfl, rfl⟩, by decide +kernel⟩, ⟨_, _, ⟨List.mem_cons_self, rfl, by decide +kernel, by simp [flatMesh]⟩, by decide +kernel,
    by simp [flatMesh], ?_⟩, ?_⟩
  · simp [flatMesh]
  · exact ⟨_, List.mem_cons_of_mem _ (List.mem_cons_of_mem _ List.mem_cons_self), List.suffix_refl _, _, rfl, [3, 2], by simp, by simp⟩

/-- **C94** (nearest cells): for at least two neighbours, and not more than there are cells, the row of a cell lists cells with the nearest centres. -/
theorem C94_nearest_partial [LinearOrder K] [IsStrictOrderedRing K] {m : List (MBlock (V3 K) D)} (hm : MeshTree m) {p : List Nat}
    (hne : ∃ b ∈ m, p <:+ b.path ∧ b.cells.isSome) {s : MBlock (V3 K) D} {q : PData (V3 K) D} (hs : ClosestPts m p s q)
    (hnest : ∀ b ∈ m, b.pts.isSome → s.path <:+ b.path → b = s)
    (hr : ∀ b ∈ m, p <:+ b.path → ∀ c, b.cells = some c → ∀ n ∈ c.topo.flatten, n < q.x.length)
    {k : Nat} (hk : 2 ≤ k) (hkn : k ≤ numberOfCells m p) (maxd : Option K) {query : List (V3 K) → Nat → List (List Nat)}
    (hq : ∀ X, IsQuery X k (query X k)) :
    ∃ W C t, IsWalk m p W ∧ nearestCells m p k maxd query = some (.table t) ∧ C.length = W.length ∧ t.length = W.length ∧
      (∀ (i : Nat) (b : MBlock (V3 K) D) (c : CData D) (j : Nat), W[i]? = some ((b, c), j) →
        ∃ (row : List Nat) (z : V3 K), c.topo[j]? = some row ∧ C[i]? = some z ∧ MeanOfRow q.x row z) ∧
      ∀ (i : Nat) (z : V3 K) (row : List Nat), C[i]? = some z → t[i]? = some row → IsKNearest C z k row := by
  obtain ⟨W, C, T, h1, h2, h3, h4, h5, h6⟩ := C79_centers_partial hm hne hs hnest hr
  have hn : numberOfCells m p = W.length := by
    have htop : topologyOf m p = some ((cellsUnder m p).flatMap fun c => c.2.topo) := stackAll_map (cellsUnder_ne hne) _
    rw [h3] at htop
    obtain rfl := Option.some.inj htop
    rw [← h5, List.length_flatMap]
    rfl
  refine ⟨W, C, query C k, h1, ?_, h4, by rw [(hq C).1, h4], fun i b c j hi => ?_, fun i z row hi hrow => ?_⟩
  · unfold nearestCells kNearestNeighbours
    rw [h2, Option.bind_some]
    simp only [show k ≠ 0 by omega, show k ≠ 1 by omega, if_false]
  · obtain ⟨row, z, g1, -, g3, g4⟩ := h6 i b c j hi
    exact ⟨row, z, g1, g3, g4⟩
  · obtain ⟨z', e1, e2⟩ := (hq C).near (by rw [h4, ← hn]; exact hkn) hrow
    rw [hi] at e1
    obtain rfl := Option.some.inj e1
    exact e2

end

/-- **C94** (cells around cells): every cell has a row of ten places; it begins with the first ten of the cells whose centres are within the radius. -/
theorem C94_around_partial {D : Type} {m : List (MBlock (V3 ℝ) D)} (hm : MeshTree m) {p : List Nat}
    (hne : ∃ b ∈ m, p <:+ b.path ∧ b.cells.isSome) {s : MBlock (V3 ℝ) D} {q : PData (V3 ℝ) D} (hs : ClosestPts m p s q)
    (hnest : ∀ b ∈ m, b.pts.isSome → s.path <:+ b.path → b = s)
    (hr : ∀ b ∈ m, p <:+ b.path → ∀ c, b.cells = some c → ∀ n ∈ c.topo.flatten, n < q.x.length) (r : ℝ) :
    ∃ W C d, IsWalk m p W ∧ cellsAroundCells m p r = some d ∧ C.length = W.length ∧
      (∀ (i : Nat) (b : MBlock (V3 ℝ) D) (c : CData D) (j : Nat), W[i]? = some ((b, c), j) →
        ∃ (row : List Nat) (z : V3 ℝ), c.topo[j]? = some row ∧ C[i]? = some z ∧ MeanOfRow q.x row z) ∧
      ∀ i, i < W.length → ∃ row near : List Nat, d.get? i = some row ∧ row.length = 10 ∧ near.Pairwise (· < ·) ∧
        (∀ k, k ∈ near ↔ WithinR C r i k) ∧ near.take 10 = row.take near.length := by
  obtain ⟨W, C, T, h1, h2, -, h4, -, h6⟩ := C79_centers_partial hm hne hs hnest hr
  refine ⟨W, C, _, h1, by rw [cellsAroundCells, h2]; rfl, h4, fun i b c j hi => ?_, fun i hi => ?_⟩
  · obtain ⟨row, z, g1, -, g3, g4⟩ := h6 i b c j hi
    exact ⟨row, z, g1, g3, g4⟩
  · obtain ⟨row, hrow⟩ := Option.isSome_iff_exists.1 ((C51_formats C r 10 i).2.2 (by rw [h4]; exact hi))
    obtain ⟨near, g1, g2, g3, g4, -⟩ := C51_partial hrow
    exact ⟨row, near, hrow, g3, g1, g2, g4⟩

end PM
