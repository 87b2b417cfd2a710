import Verif.Walk
import Verif.PropsPolyData
import Verif.PropsMotion
import Verif.PropsTopo
import Verif.PropsFactors
import Verif.PropsFrames

/-!
# C79: quantities of meshes with several blocks. C80: detached meshes
-/

namespace PM

/-! ## C79 -/

section
variable {P D : Type}

/-- The cells beneath a path, each with its place in its block. -/
def walkOf (m : List (MBlock P D)) (p : List Nat) : List ((MBlock P D × CData D) × Nat) :=
  (cellsUnder m p).flatMap fun c => (List.range c.2.topo.length).map fun j => (c, j)

/-- Specification: `W` lists the cells of the block at `p` and of all blocks beneath it, each of them once. -/
structure IsWalk (m : List (MBlock P D)) (p : List Nat) (W : List ((MBlock P D × CData D) × Nat)) : Prop where
  mem : ∀ b c j, ((b, c), j) ∈ W ↔ b ∈ m ∧ p <:+ b.path ∧ b.cells = some c ∧ j < c.topo.length
  once : (W.map fun w => (w.1.1.path, w.2)).Nodup

theorem mem_cellsUnder {m : List (MBlock P D)} {p : List Nat} {b : MBlock P D} {c : CData D} :
    (b, c) ∈ cellsUnder m p ↔ b ∈ m ∧ p <:+ b.path ∧ b.cells = some c := by
  simp only [cellsUnder, List.mem_filterMap, List.mem_filter, decide_eq_true_eq, Option.map_eq_some_iff, Prod.mk.injEq]
  constructor
  · rintro ⟨b', ⟨h1, h2⟩, c', h3, rfl, rfl⟩; exact ⟨h1, h2, h3⟩
  · rintro ⟨h1, h2, h3⟩; exact ⟨b, ⟨h1, h2⟩, c, h3, rfl, rfl⟩

theorem cellsUnder_paths (m : List (MBlock P D)) (p : List Nat) :
    ((cellsUnder m p).map fun c => c.1.path).Sublist (m.map MBlock.path) := by
  unfold cellsUnder
  have h1 : ∀ l : List (MBlock P D), ((l.filterMap fun b => b.cells.map fun c => (b, c)).map fun c => c.1.path).Sublist
      (l.map MBlock.path) := by
    intro l
    induction l with
    | nil => simp
    | cons b l ih =>
      cases hb : b.cells with
      | none => simpa [List.filterMap_cons, hb] using ih.cons _
      | some c => simpa [List.filterMap_cons, hb] using ih
  exact (h1 _).trans (List.Sublist.map _ List.filter_sublist)

theorem walk_isWalk {m : List (MBlock P D)} (hm : (m.map MBlock.path).Nodup) (p : List Nat) : IsWalk m p (walkOf m p) := by
  constructor
  · intro b c j
    simp only [walkOf, List.mem_flatMap, List.mem_map, List.mem_range, Prod.mk.injEq]
    constructor
    · rintro ⟨⟨b', c'⟩, h1, j', h2, h6, rfl⟩
      obtain ⟨rfl, rfl⟩ := Prod.mk.inj h6
      obtain ⟨h3, h4, h5⟩ := mem_cellsUnder.1 h1
      exact ⟨h3, h4, h5, h2⟩
    · rintro ⟨h1, h2, h3, h4⟩
      exact ⟨(b, c), mem_cellsUnder.2 ⟨h1, h2, h3⟩, j, h4, rfl, rfl⟩
  · have h1 : ((cellsUnder m p).map fun c => c.1.path).Nodup := hm.sublist (cellsUnder_paths m p)
    unfold walkOf
    rw [List.map_flatMap]
    simp only [List.map_map, Function.comp_def]
    generalize cellsUnder m p = L at h1
    induction L with
    | nil => simp
    | cons x L ih =>
      rw [List.map_cons, List.nodup_cons] at h1
      rw [List.flatMap_cons, List.nodup_append]
      refine ⟨List.Nodup.map (fun a b h => (Prod.mk.inj h).2) List.nodup_range, ih h1.2, ?_⟩
      intro a ha b hb hab
      subst hab
      obtain ⟨j, -, rfl⟩ := List.mem_map.1 ha
      obtain ⟨y, hy, hb⟩ := List.mem_flatMap.1 hb
      obtain ⟨j', -, he⟩ := List.mem_map.1 hb
      exact h1.1 (List.mem_map.2 ⟨y, hy, (Prod.mk.inj he).1⟩)

/-- Lists of values per block, one after the other, follow the walk. -/
theorem stack_walk {β : Type} (m : List (MBlock P D)) (p : List Nat) (g : MBlock P D × CData D → List β)
    (hg : ∀ c ∈ cellsUnder m p, (g c).length = c.2.topo.length) :
    ((cellsUnder m p).flatMap g).length = (walkOf m p).length ∧
      ∀ (k : Nat) (c : MBlock P D × CData D) (j : Nat), (walkOf m p)[k]? = some (c, j) →
        ((cellsUnder m p).flatMap g)[k]? = (g c)[j]? := by
  have key : ((cellsUnder m p).flatMap g).map some = (walkOf m p).map fun w => (g w.1)[w.2]? := by
    unfold walkOf
    rw [List.map_flatMap, List.map_flatMap]
    apply List.flatMap_congr
    intro c hc
    apply List.ext_getElem?
    intro i
    rw [List.map_map, List.getElem?_map, List.getElem?_map, ← hg c hc]
    by_cases hi : i < (g c).length
    · rw [List.getElem?_range hi, List.getElem?_eq_getElem hi]
      simp [List.getElem?_eq_getElem hi]
    · rw [List.getElem?_eq_none (by omega), List.getElem?_eq_none (by simpa using hi)]
      rfl
  constructor
  · simpa using congrArg List.length key
  · intro k c j hk
    have h1 := congrArg (fun l => l[k]?) key
    simp only [List.getElem?_map, hk, Option.map_some] at h1
    cases h2 : ((cellsUnder m p).flatMap g)[k]? with
    | none => rw [h2] at h1; cases h1
    | some v => rw [h2] at h1; exact Option.some.inj h1

theorem stackAll_map {α β : Type} {l : List α} (h : l ≠ []) (g : α → List β) : stackAll (l.map g) = some (l.flatMap g) := by
  unfold stackAll
  rw [if_neg (by simpa using h), List.flatMap_def]

theorem cellsUnder_ne {m : List (MBlock P D)} {p : List Nat} (h : ∃ b ∈ m, p <:+ b.path ∧ b.cells.isSome) :
    cellsUnder m p ≠ [] := by
  obtain ⟨b, hb, hp, hc⟩ := h
  obtain ⟨c, hc⟩ := Option.isSome_iff_exists.1 hc
  intro h0
  have := mem_cellsUnder.2 ⟨hb, hp, hc⟩
  rw [h0] at this
  cases this

/-- **C79** topology, ids and volumes have one entry for each cell, and the entries at the same place belong to the same cell;
`number_of_cells` is their number. -/
theorem C79_aligned {K : Type} {m : List (MBlock P D)} (hm : MeshTree m) {p : List Nat}
    (hne : ∃ b ∈ m, p <:+ b.path ∧ b.cells.isSome) (vol : MBlock P D → CData D → List K)
    (hid : ∀ b ∈ m, ∀ c, b.cells = some c → c.id.length = c.topo.length)
    (hv : ∀ b ∈ m, ∀ c, b.cells = some c → (vol b c).length = c.topo.length) :
    ∃ W T I V, IsWalk m p W ∧ topologyOf m p = some T ∧ cellIndices m p = some I ∧ volumesOf vol m p = some V ∧
      numberOfCells m p = W.length ∧ T.length = W.length ∧ I.length = W.length ∧ V.length = W.length ∧
      ∀ (k : Nat) (b : MBlock P D) (c : CData D) (j : Nat), W[k]? = some ((b, c), j) →
        T[k]? = c.topo[j]? ∧ I[k]? = c.id[j]? ∧ V[k]? = (vol b c)[j]? := by
  have hL := cellsUnder_ne hne
  have h1 := stack_walk m p (fun c => c.2.topo) fun _ _ => rfl
  have h2 := stack_walk m p (fun c => c.2.id) fun c hc => by
    obtain ⟨g1, -, g3⟩ := mem_cellsUnder.1 hc; exact hid _ g1 _ g3
  have h3 := stack_walk m p (fun c => vol c.1 c.2) fun c hc => by
    obtain ⟨g1, -, g3⟩ := mem_cellsUnder.1 hc; exact hv _ g1 _ g3
  refine ⟨walkOf m p, _, _, _, walk_isWalk hm.nodup p, stackAll_map hL _, stackAll_map hL _, stackAll_map hL _, ?_,
    h1.1, h2.1, h3.1, fun k b c j hk => ⟨h1.2 k _ j hk, h2.2 k _ j hk, h3.2 k _ j hk⟩⟩
  unfold numberOfCells walkOf
  rw [List.length_flatMap]
  simp

end

theorem sourcePath_eq {P D : Type} {m : List (MBlock P D)} (h : (m.map MBlock.path).Nodup) {p : List Nat} {s : MBlock P D}
    {q : PData P D} (hc : ClosestPts m p s q) : sourcePath m p = some s.path := by
  induction p with
  | nil =>
    have : s.path = [] := List.suffix_nil.1 hc.above
    rw [← this]
    exact sourcePath_self (by rw [ptsAt_of_mem h hc.mem, hc.pts]; rfl)
  | cons k p ih =>
    rcases List.suffix_cons_iff.1 hc.above with e | e
    · rw [← e]
      exact sourcePath_self (by rw [ptsAt_of_mem h hc.mem, hc.pts]; rfl)
    · unfold sourcePath
      rw [if_neg]
      · exact ih ⟨hc.mem, hc.pts, e, fun b hb hs hbp => hc.closest b hb hs (hbp.trans (List.suffix_cons k p))⟩
      · intro hp
        obtain ⟨q', hp⟩ := Option.isSome_iff_exists.1 hp
        obtain ⟨b, hb, hbp, hbq⟩ := ptsAt_some hp
        have h1 := hc.closest b hb (by simp [hbq]) (by rw [hbp])
        have h2 := e.length_le
        rw [hbp] at h1
        simp at h1
        omega

section
variable {K D : Type} [Field K]

/-- Specification: `c` is the mean of the points of `x` with the numbers `row`. -/
def MeanOfRow (x : List (V3 K)) (row : List Nat) (c : V3 K) : Prop :=
  ∃ pts : List (V3 K), pts.length = row.length ∧ (∀ i n : Nat, row[i]? = some n → pts[i]? = x[n]?) ∧
    c = ⟨(pts.map V3.x).sum / row.length, (pts.map V3.y).sum / row.length, (pts.map V3.z).sum / row.length⟩

/-- **C79** `centers` for a block beneath whose source there are no other points: one centre for each cell, the mean of the
coordinates of its nodes, in the order of the topology. -/
theorem C79_centers_partial {m : List (MBlock (V3 K) D)} (hm : MeshTree m) {p : List Nat}
    (hne : ∃ b ∈ m, p <:+ b.path ∧ b.cells.isSome) {s : MBlock (V3 K) D} {q : PData (V3 K) D} (hs : ClosestPts m p s q)
    (hnest : ∀ b ∈ m, b.pts.isSome → s.path <:+ b.path → b = s)
    (hr : ∀ b ∈ m, p <:+ b.path → ∀ c, b.cells = some c → ∀ n ∈ c.topo.flatten, n < q.x.length) :
    ∃ W C T, IsWalk m p W ∧ centersOf m p = some C ∧ topologyOf m p = some T ∧ C.length = W.length ∧ T.length = W.length ∧
      ∀ (k : Nat) (b : MBlock (V3 K) D) (c : CData D) (j : Nat), W[k]? = some ((b, c), j) →
        ∃ (row : List Nat) (z : V3 K), c.topo[j]? = some row ∧ T[k]? = some row ∧ C[k]? = some z ∧ MeanOfRow q.x row z := by
  have hL := cellsUnder_ne hne
  have hx : pointsBeneath m s.path = q.x := pointsBeneath_eq hm.nodup hs.mem hs.pts hnest
  have hgath : ∀ c ∈ cellsUnder m p, ∀ row ∈ c.2.topo, ∃ pts, gather? q.x row = some pts := by
    intro c hc row hrow
    obtain ⟨g1, g2, g3⟩ := mem_cellsUnder.1 (show (c.1, c.2) ∈ cellsUnder m p from hc)
    obtain ⟨pts, h1, -⟩ := gather?_eq_some (a := q.x) (inds := row) fun i hi =>
      hr _ g1 g2 _ g3 i (List.mem_flatten.2 ⟨row, hrow, hi⟩)
    exact ⟨pts, h1⟩
  let f : List Nat → V3 K := fun row => meshCenter ((gather? q.x row).getD [])
  have hC : centersOf m p = some ((cellsUnder m p).flatMap fun c => c.2.topo.map f) := by
    unfold centersOf
    rw [sourcePath_eq hm.nodup hs, Option.bind_some, hx]
    rw [mapM_some (g := fun c : MBlock (V3 K) D × CData D => c.2.topo.map f), Option.bind_some, stackAll_map hL]
    intro c hc
    apply mapM_some
    intro row hrow
    obtain ⟨pts, h1⟩ := hgath c hc row hrow
    simp only [f, h1, Option.map_some, Option.getD_some]
  have h1 := stack_walk m p (fun c => c.2.topo.map f) fun c _ => by simp
  have h2 := stack_walk m p (fun c => c.2.topo) fun _ _ => rfl
  refine ⟨walkOf m p, _, _, walk_isWalk hm.nodup p, hC, stackAll_map hL _, h1.1, h2.1, fun k b c j hk => ?_⟩
  obtain ⟨g1, g2, g3, g4⟩ := ((walk_isWalk hm.nodup p).mem b c j).1 (List.mem_of_getElem? hk)
  have hrow : c.topo[j]? = some c.topo[j] := List.getElem?_eq_getElem g4
  refine ⟨c.topo[j], f c.topo[j], hrow, by rw [h2.2 k _ j hk]; exact hrow, by rw [h1.2 k _ j hk, List.getElem?_map, hrow]; rfl, ?_⟩
  obtain ⟨pts, e1, e2, e3⟩ := gather?_eq_some (a := q.x) (inds := c.topo[j]) fun i hi =>
    hr _ g1 g2 _ g3 i (List.mem_flatten.2 ⟨_, List.getElem_mem g4, hi⟩)
  refine ⟨pts, e2, fun i n hin => e3 i n hin, ?_⟩
  simp only [f, e1, Option.getD_some, meshCenter, e2]

/-- **C79** the distribution factors of a mesh with points: those of C24 for the cells of all blocks together, weighted by their
volumes. -/
theorem C79_factors [LinearOrder K] [IsStrictOrderedRing K] {m : List (MBlock (V3 K) D)} (hm : MeshTree m) {p : List Nat}
    (hp : (ptsAt m p).isSome) (hne : ∃ b ∈ m, p <:+ b.path ∧ ∃ c, b.cells = some c ∧ c.topo.flatten ≠ [])
    (vol : MBlock (V3 K) D → CData D → List K)
    (hid : ∀ b ∈ m, ∀ c, b.cells = some c → c.id.length = c.topo.length)
    (hv : ∀ b ∈ m, ∀ c, b.cells = some c → (vol b c).length = c.topo.length ∧ ∀ v ∈ vol b c, 0 < v)
    (hnd : ∀ b ∈ m, ∀ c, b.cells = some c → ∀ r ∈ c.topo, r.Nodup) :
    ∃ T V F, topologyOf m p = some T ∧ volumesOf vol m p = some V ∧ meshFactors vol m p = some F ∧ IsPartition T V F := by
  obtain ⟨b0, hb0, hp0, c0, hc0, hf0⟩ := hne
  have hne' : ∃ b ∈ m, p <:+ b.path ∧ b.cells.isSome := ⟨b0, hb0, hp0, by rw [hc0]; rfl⟩
  have hL := cellsUnder_ne hne'
  obtain ⟨W, T, I, V, hW, hT, -, hV, -, h1, -, h2, -⟩ := C79_aligned hm hne' vol hid fun b hb c hc => (hv b hb c hc).1
  have hT' : T = (cellsUnder m p).flatMap fun c => c.2.topo := by
    have := stackAll_map hL (fun c : MBlock (V3 K) D × CData D => c.2.topo)
    unfold topologyOf at hT
    rw [this] at hT
    exact (Option.some.inj hT).symm
  have hV' : V = (cellsUnder m p).flatMap fun c => vol c.1 c.2 := by
    have := stackAll_map hL (fun c : MBlock (V3 K) D × CData D => vol c.1 c.2)
    unfold volumesOf at hV
    rw [this] at hV
    exact (Option.some.inj hV).symm
  obtain ⟨F, hF, hpart⟩ := C24_partition (topo := T) (w := V) (by omega)
    (by
      intro h0
      apply hf0
      rw [List.flatten_eq_nil_iff] at h0 ⊢
      intro row hrow
      exact h0 row (by rw [hT']; exact List.mem_flatMap.2 ⟨(b0, c0), mem_cellsUnder.2 ⟨hb0, hp0, hc0⟩, hrow⟩))
    (by
      intro r hr
      rw [hT'] at hr
      obtain ⟨c, hc, hr⟩ := List.mem_flatMap.1 hr
      obtain ⟨g1, -, g3⟩ := mem_cellsUnder.1 (show (c.1, c.2) ∈ cellsUnder m p from hc)
      exact hnd _ g1 _ g3 r hr)
    (by
      intro v hv'
      rw [hV'] at hv'
      obtain ⟨c, hc, hr⟩ := List.mem_flatMap.1 hv'
      obtain ⟨g1, -, g3⟩ := mem_cellsUnder.1 (show (c.1, c.2) ∈ cellsUnder m p from hc)
      exact (hv _ g1 _ g3).2 v hr)
  refine ⟨T, V, F, hT, hV, ?_, hpart⟩
  unfold meshFactors
  rw [if_pos hp, hT, hV]
  simp only [Option.bind_some]
  rw [if_pos (by omega), hF]

end

/-- **C79** `index_of_closest_cell` and `index_of_furthest_cell`: the place, in the walk, of a cell with a centre at minimal
(maximal) distance. -/
theorem C79_closest_partial {D : Type} {m : List (MBlock (V3 ℝ) D)} (hm : MeshTree m) {p : List Nat}
    (hne : ∃ b ∈ m, p <:+ b.path ∧ ∃ c, b.cells = some c ∧ c.topo ≠ []) {s : MBlock (V3 ℝ) D} {q : PData (V3 ℝ) D}
    (hs : ClosestPts m p s q) (hnest : ∀ b ∈ m, b.pts.isSome → s.path <:+ b.path → b = s)
    (hr : ∀ b ∈ m, p <:+ b.path → ∀ c, b.cells = some c → ∀ n ∈ c.topo.flatten, n < q.x.length) (t : V3 ℝ) :
    ∃ W k l, IsWalk m p W ∧ closestCell m p t = some k ∧ furthestCell m p t = some l ∧
      (∃ b c j row z, W[k]? = some ((b, c), j) ∧ c.topo[j]? = some row ∧ MeanOfRow q.x row z ∧
        ∀ b' c' j' row' z', ((b', c'), j') ∈ W → c'.topo[j']? = some row' → MeanOfRow q.x row' z' → dist3 z t ≤ dist3 z' t) ∧
      (∃ b c j row z, W[l]? = some ((b, c), j) ∧ c.topo[j]? = some row ∧ MeanOfRow q.x row z ∧
        ∀ b' c' j' row' z', ((b', c'), j') ∈ W → c'.topo[j']? = some row' → MeanOfRow q.x row' z' → dist3 z' t ≤ dist3 z t) := by
  obtain ⟨b0, hb0, hp0, c0, hc0, hf0⟩ := hne
  obtain ⟨W, C, T, hW, hC, -, hl, -, hk⟩ := C79_centers_partial hm ⟨b0, hb0, hp0, by rw [hc0]; rfl⟩ hs hnest hr
  have hWne : W ≠ [] := by
    intro h0
    have := (hW.mem b0 c0 0).2 ⟨hb0, hp0, hc0, List.length_pos_iff.2 hf0⟩
    rw [h0] at this
    cases this
  have hCne : C ≠ [] := by
    intro h0
    rw [h0] at hl
    exact hWne (List.length_eq_zero_iff.1 hl.symm)
  have huniq : ∀ {row : List Nat} {z z' : V3 ℝ}, MeanOfRow q.x row z → MeanOfRow q.x row z' → z = z' := by
    rintro row z z' ⟨u, h1, h2, rfl⟩ ⟨v, g1, g2, rfl⟩
    have : u = v := by
      apply List.ext_getElem?
      intro i
      by_cases hi : i < row.length
      · rw [h2 i _ (List.getElem?_eq_getElem hi), g2 i _ (List.getElem?_eq_getElem hi)]
      · rw [List.getElem?_eq_none (by omega), List.getElem?_eq_none (by omega)]
    rw [this]
  have hall : ∀ b' c' j' row' z', ((b', c'), j') ∈ W → c'.topo[j']? = some row' → MeanOfRow q.x row' z' → z' ∈ C := by
    intro b' c' j' row' z' hmem hrow hz
    obtain ⟨i, hi⟩ := List.mem_iff_getElem?.1 hmem
    obtain ⟨row, z, g1, -, g3, g4⟩ := hk i b' c' j' hi
    rw [hrow] at g1
    obtain rfl := Option.some.inj g1
    rw [huniq hz g4]
    exact List.mem_of_getElem? g3
  have hat : ∀ (k : Nat) (z : V3 ℝ), C[k]? = some z → ∃ b c j row, W[k]? = some ((b, c), j) ∧ c.topo[j]? = some row ∧
      MeanOfRow q.x row z := by
    intro k z hz
    have hlt : k < W.length := by rw [← hl]; exact (List.getElem?_eq_some_iff.1 hz).1
    obtain ⟨row, z', g1, -, g3, g4⟩ := hk k W[k].1.1 W[k].1.2 W[k].2 (List.getElem?_eq_getElem hlt)
    rw [hz] at g3
    obtain rfl := Option.some.inj g3
    exact ⟨_, _, _, row, List.getElem?_eq_getElem hlt, g1, g4⟩
  obtain ⟨i, z, h1, h2, h3, -⟩ := C32_closest hCne t
  obtain ⟨l, h4, ⟨z2, h5, h6⟩⟩ := C32_furthest hCne t
  refine ⟨W, i, l, hW, by rw [closestCell, hC]; exact h1, by rw [furthestCell, hC]; exact h4, ?_, ?_⟩
  · obtain ⟨b, c, j, row, g1, g2, g3⟩ := hat i z h2
    exact ⟨b, c, j, row, z, g1, g2, g3, fun b' c' j' row' z' hm' hr' hz' => h3 z' (hall b' c' j' row' z' hm' hr' hz')⟩
  · obtain ⟨b, c, j, row, g1, g2, g3⟩ := hat l z2 h5
    exact ⟨b, c, j, row, z2, g1, g2, g3, fun b' c' j' row' z' hm' hr' hz' => h6 z' (hall b' c' j' row' z' hm' hr' hz')⟩

/-- **C79** the index of the closest cell is not the id of a cell: for the second block of a mesh, whose only cell has the id 1, it
is 0. -/
theorem C79_closest_false : ¬ ∀ (m : List (MBlock (V3 ℝ) ℝ)) (p : List Nat) (t : V3 ℝ) (k : Nat), MeshTree m →
    closestCell m p t = some k → ∃ b ∈ m, p <:+ b.path ∧ ∃ c, b.cells = some c ∧ k ∈ c.id := by
  intro h
  let m : List (MBlock (V3 ℝ) ℝ) :=
    [⟨[], Fr.ambient, some ⟨[⟨0, 0, 0⟩, ⟨1, 0, 0⟩, ⟨2, 0, 0⟩, ⟨3, 0, 0⟩], [0, 1, 2, 3], fun _ => none⟩, none⟩,
     ⟨[0], Fr.ambient, none, some ⟨[[1, 2]], [0], fun _ => none⟩⟩,
     ⟨[1], Fr.ambient, none, some ⟨[[3, 2]], [1], fun _ => none⟩⟩]
  have hm : MeshTree m := ⟨⟨_, _, rfl, rfl⟩, by simp [m]⟩
  obtain ⟨s, hs⟩ := exists_closest hm.nodup (p := [1]) (q := _) (show sourceOf m [1] = some _ from rfl)
  have hsm : s = m[0] := by
    have h1 := hs.mem
    have h2 := hs.pts
    simp only [m, List.mem_cons, List.not_mem_nil, or_false] at h1
    rcases h1 with rfl | rfl | rfl
    · rfl
    · cases h2
    · cases h2
  subst hsm
  obtain ⟨W, k, l, hW, hk, -, ⟨b, c, j, row, z, h1, -⟩, -⟩ := C79_closest_partial hm (p := [1])
    ⟨m[2], by simp [m], List.suffix_rfl, _, rfl, by simp⟩ hs
    (by
      intro b hb hbp _
      simp only [m, List.mem_cons, List.not_mem_nil, or_false] at hb
      rcases hb with rfl | rfl | rfl
      · rfl
      · cases hbp
      · cases hbp)
    (by
      intro b hb hp c hc n hn
      simp only [m, List.mem_cons, List.not_mem_nil, or_false] at hb
      rcases hb with rfl | rfl | rfl
      · cases hc
      · exact absurd hp (by decide)
      · cases hc
        simp at hn
        show n < 4
        omega)
    ⟨0, 0, 0⟩
  have hone : ∀ b c j, ((b, c), j) ∈ W → (b.path, j) = ([1], 0) := by
    intro b c j hmem
    obtain ⟨g1, g2, g3, g4⟩ := (hW.mem b c j).1 hmem
    simp only [m, List.mem_cons, List.not_mem_nil, or_false] at g1
    rcases g1 with rfl | rfl | rfl
    · cases g3
    · exact absurd g2 (by decide)
    · cases g3
      simp at g4
      subst g4
      rfl
  have hk0 : k = 0 := by
    by_contra hne
    have hlt := (List.getElem?_eq_some_iff.1 h1).1
    have e0 := hone _ _ _ (List.getElem_mem (show 0 < W.length by omega))
    have e1 := hone _ _ _ (List.getElem_mem hlt)
    have hinj := List.nodup_iff_injective_get.1 hW.once
    have : (⟨0, by simpa using (show 0 < W.length by omega)⟩ : Fin (W.map fun w => (w.1.1.path, w.2)).length) = ⟨k, by simpa using hlt⟩ := by
      apply hinj
      simp only [List.get_eq_getElem, List.getElem_map]
      exact e0.trans e1.symm
    exact hne (congrArg Fin.val this).symm
  subst hk0
  obtain ⟨b', hb', hp', c', hc', hid⟩ := h m [1] ⟨0, 0, 0⟩ 0 hm hk
  simp only [m, List.mem_cons, List.not_mem_nil, or_false] at hb'
  rcases hb' with rfl | rfl | rfl
  · cases hc'
  · exact absurd hp' (by decide)
  · cases hc'
    simp at hid

/-- The claim of C79 about centres for all meshes: the centre of a cell is the mean of the points of the source of its block. -/
def CentersRight (K D : Type) [Field K] : Prop :=
  ∀ (m : List (MBlock (V3 K) D)) (p : List Nat) (C : List (V3 K)), MeshTree m → centersOf m p = some C →
    ∃ W, IsWalk m p W ∧ ∀ (k : Nat) (b : MBlock (V3 K) D) (c : CData D) (j : Nat), W[k]? = some ((b, c), j) →
      ∀ s q row, ClosestPts m b.path s q → c.topo[j]? = some row → ∃ z, C[k]? = some z ∧ MeanOfRow q.x row z

/-- **C79** fails for blocks with points of their own: the nodes of their cells are looked up among the points of the source of the
block the call is made on. -/
theorem C79_centers_false : ¬ CentersRight ℚ ℚ := by
  intro h
  have hm := demoMesh_tree (Fr.ambient : Fr (V3 ℚ))
  obtain ⟨W, hW, hk⟩ := h (demoMesh Fr.ambient) [] _ hm (by rfl)
  have hmem : (((demoMesh Fr.ambient)[2], ⟨[[2, 0, 1], [1, 2, 0]], [0, 1], fun _ => none⟩), 0) ∈ W :=
    (hW.mem _ _ _).2 ⟨by simp [demoMesh], List.nil_suffix, rfl, by simp⟩
  obtain ⟨k, hk'⟩ := List.mem_iff_getElem?.1 hmem
  obtain ⟨s, hs⟩ := exists_closest hm.nodup (p := [1, 0]) (q := _) (show sourceOf (demoMesh Fr.ambient) [1, 0] = some _ from rfl)
  obtain ⟨z, h1, pts, h2, h3, rfl⟩ := hk k _ _ 0 hk' s _ [2, 0, 1] hs rfl
  have e0 := h3 0 2 rfl
  have e1 := h3 1 0 rfl
  have e2 := h3 2 1 rfl
  have hp : pts = [⟨5, 1, 0⟩, ⟨5, 0, 0⟩, ⟨6, 0, 0⟩] := by
    match pts, h2 with
    | [a, b, c], _ =>
      simp at e0 e1 e2
      rw [e0, e1, e2]
  subst hp
  have h5 := List.mem_of_getElem? h1
  revert h5
  norm_num [V3.ext_iff, meshCenter]

section
variable {P D : Type}

/-- **C79** `areas` of a mesh without solids follows the ids as volumes do; solids have no entries. -/
theorem C79_areas_partial {K : Type} {m : List (MBlock P D)} (hm : MeshTree m) {p : List Nat} (ndim : MBlock P D → Nat)
    (hne : ∃ b ∈ m, p <:+ b.path ∧ b.cells.isSome) (area : MBlock P D → CData D → List K)
    (hid : ∀ b ∈ m, ∀ c, b.cells = some c → c.id.length = c.topo.length)
    (ha : ∀ b ∈ m, ∀ c, b.cells = some c → (area b c).length = c.topo.length)
    (hd : ∀ b ∈ m, p <:+ b.path → b.cells.isSome → ndim b < 3) :
    ∃ W I A, IsWalk m p W ∧ cellIndices m p = some I ∧ areasOf ndim area m p = some A ∧ I.length = W.length ∧
      A.length = W.length ∧ ∀ (k : Nat) (b : MBlock P D) (c : CData D) (j : Nat), W[k]? = some ((b, c), j) →
        I[k]? = c.id[j]? ∧ A[k]? = (area b c)[j]? := by
  obtain ⟨W, T, I, V, h1, -, h3, h4, -, -, h6, h7, h8⟩ := C79_aligned hm hne area hid ha
  refine ⟨W, I, V, h1, h3, ?_, h6, h7, fun k b c j hk => (h8 k b c j hk).2⟩
  rw [← h4]
  unfold areasOf volumesOf
  rw [List.filter_eq_self.2]
  intro c hc
  obtain ⟨g1, g2, g3⟩ := mem_cellsUnder.1 (show (c.1, c.2) ∈ cellsUnder m p from hc)
  simpa using hd _ g1 g2 (by rw [g3]; rfl)

/-- **C79** with solids among the blocks the areas do not follow the ids: the first area belongs to another cell than the first
id. -/
theorem C79_areas_false : ¬ ∀ (m : List (MBlock (V3 ℚ) ℚ)) (p : List Nat) (ndim : MBlock (V3 ℚ) ℚ → Nat)
    (area : MBlock (V3 ℚ) ℚ → CData ℚ → List ℚ) (I : List Nat) (A : List ℚ), MeshTree m →
    (∀ b ∈ m, ∀ c, b.cells = some c → (area b c).length = c.topo.length) →
    cellIndices m p = some I → areasOf ndim area m p = some A →
    ∀ (k : Nat) (a : ℚ) (i : Nat), A[k]? = some a → I[k]? = some i →
      ∃ b ∈ m, ∃ c, b.cells = some c ∧ ∃ j : Nat, c.id[j]? = some i ∧ (area b c)[j]? = some a := by
  intro h
  let m : List (MBlock (V3 ℚ) ℚ) :=
    [⟨[], Fr.ambient, none, none⟩, ⟨[0], Fr.ambient, none, some ⟨[[0, 1, 2, 3]], [0], fun _ => none⟩⟩,
     ⟨[1], Fr.ambient, none, some ⟨[[0, 1, 2]], [1], fun _ => none⟩⟩]
  obtain ⟨b, hb, c, hc, j, h1, h2⟩ := h m [] (fun b => if b.path = [0] then 3 else 2)
    (fun b c => c.topo.map fun _ => if b.path = [0] then 1 else 2) _ _ ⟨⟨_, _, rfl, rfl⟩, by simp [m]⟩ (by simp)
    (by rfl) (by rfl) 0 2 0 (by rfl) (by rfl)
  simp only [m, List.mem_cons, List.not_mem_nil, or_false] at hb
  rcases hb with rfl | rfl | rfl
  · cases hc
  · cases hc
    simp only [if_true, List.map_cons, List.map_nil] at h2
    have : (2 : ℚ) ∈ [(1 : ℚ)] := List.mem_of_getElem? h2
    norm_num at this
  · cases hc
    have : 0 ∈ [1] := List.mem_of_getElem? h1
    simp at this

/-- Specification: what is shown of a block, points `x` and cells `t`, are the cells `topo` between the points `q`: the same
numbers of nodes, every node at its place, only used points; and the values `d` go with the points. -/
structure ShowsCells (q : List P) (topo : Topo) (x : List P) (t : Topo) : Prop where
  shape : t.map List.length = topo.map List.length
  nodes : ∀ i j n, nodeAt topo i j = some n → ∃ k, nodeAt t i j = some k ∧ x[k]? = q[n]?
  used : ∀ k, UsesNode t k ↔ k < x.length

theorem under_only {m : List (MBlock P D)} {b : MBlock P D} {c : CData D} (hm : (m.map MBlock.path).Nodup) (hb : b ∈ m)
    (hc : b.cells = some c) (hflat : ∀ b' ∈ m, b'.cells.isSome → b.path <:+ b'.path → b' = b) :
    topologyOf m b.path = some c.topo := by
  have h1 : cellsUnder m b.path = [(b, c)] := by
    have hmem : ∀ x, x ∈ cellsUnder m b.path ↔ x = (b, c) := by
      rintro ⟨b', c'⟩
      rw [mem_cellsUnder]
      constructor
      · rintro ⟨g1, g2, g3⟩
        obtain rfl := hflat b' g1 (by rw [g3]; rfl) g2
        rw [hc] at g3
        rw [Option.some.inj g3]
      · intro h
        obtain ⟨rfl, rfl⟩ := Prod.mk.inj h
        exact ⟨hb, List.suffix_rfl, hc⟩
    have hnd : (cellsUnder m b.path).Nodup := (hm.sublist (cellsUnder_paths m b.path)).of_map _
    have hperm : (cellsUnder m b.path).Perm [(b, c)] :=
      (List.perm_ext_iff_of_nodup hnd (List.nodup_singleton _)).2 fun x => by rw [hmem]; simp
    exact List.perm_singleton.1 hperm
  unfold topologyOf
  rw [h1]
  simp [stackAll]

/-- **C79** `_detach_block_data_` for a block without other cells beneath it, whose source has no other points beneath it: the
cells of the block at their points, with the values of the points. -/
theorem C79_shown_partial {m : List (MBlock P D)} (hm : MeshTree m) {b : MBlock P D} {c : CData D} (hb : b ∈ m)
    (hc : b.cells = some c) (hflat : ∀ b' ∈ m, b'.cells.isSome → b.path <:+ b'.path → b' = b)
    {s : MBlock P D} {q : PData P D} (hs : ClosestPts m b.path s q)
    (hnest : ∀ b ∈ m, b.pts.isSome → s.path <:+ b.path → b = s) (hr : ∀ n, UsesNode c.topo n → n < q.x.length) :
    (∃ x t, detachBlock .nothing m b c = some (x, t, none) ∧ ShowsCells q.x c.topo x t) ∧
    (∀ d : List D, d.length = q.x.length → ∃ x t e, detachBlock (.array d) m b c = some (x, t, some e) ∧
      ShowsCells q.x c.topo x t ∧ ∀ i j n, nodeAt c.topo i j = some n → ∃ k, nodeAt t i j = some k ∧ e[k]? = d[n]?) ∧
    (∀ d : List D, d.length ≠ q.x.length → detachBlock (.array d) m b c = none) ∧
    (∀ f d, q.fields f = some d → d.length = q.x.length → ∃ x t e, detachBlock (.field f) m b c = some (x, t, some e) ∧
      ShowsCells q.x c.topo x t ∧ ∀ i j n, nodeAt c.topo i j = some n → ∃ k, nodeAt t i j = some k ∧ e[k]? = d[n]?) ∧
    (∀ f, q.fields f = none → ∃ x t, detachBlock (.field f) m b c = some (x, t, c.fields f) ∧ ShowsCells q.x c.topo x t) := by
  have hsp := sourcePath_eq hm.nodup hs
  have hpt : ptsAt m s.path = some q := by rw [ptsAt_of_mem hm.nodup hs.mem, hs.pts]
  have hx : pointsBeneath m s.path = q.x := pointsBeneath_eq hm.nodup hs.mem hs.pts hnest
  have htop := under_only hm.nodup hb hc hflat
  obtain ⟨x, t, ids, h1, -, -, -, -, h2, h3, h4⟩ := C04_detach q.x c.topo hr
  have h1' : detachMeshBulk q.x c.topo = some (x, t) := by
    unfold detach at h1; exact h1
  have hsh : ShowsCells q.x c.topo x t := ⟨h2, h4, h3⟩
  have hdata : ∀ d : List D, d.length = q.x.length → ∃ e, detachMeshDataBulk q.x c.topo d = some (x, e, t) ∧
      ∀ i j n, nodeAt c.topo i j = some n → ∃ k, nodeAt t i j = some k ∧ e[k]? = d[n]? := by
    intro d hd
    obtain ⟨-, x', t', e, g1, g2, g3⟩ := C04_detach_variants q.x d c.topo hr hd
    rw [h1] at g2
    obtain ⟨rfl, rfl⟩ := Prod.mk.inj (Option.some.inj g2)
    exact ⟨e, g1, fun i j n hn => by obtain ⟨k, u1, -, u3⟩ := g3 i j n hn; exact ⟨k, u1, u3⟩⟩
  refine ⟨⟨x, t, ?_, hsh⟩, ?_, ?_, ?_, ?_⟩
  · simp only [detachBlock, hsp, hpt, htop, hx, Option.bind_some, h1', Option.map_some]
  · intro d hd
    obtain ⟨e, g1, g2⟩ := hdata d hd
    refine ⟨x, t, e, ?_, hsh, g2⟩
    simp only [detachBlock, hsp, hpt, htop, hx, Option.bind_some, if_pos hd, g1, Option.map_some]
  · intro d hd
    simp only [detachBlock, hsp, hpt, htop, Option.bind_some, if_neg hd]
  · intro f d hf hd
    obtain ⟨e, g1, g2⟩ := hdata d hd
    refine ⟨x, t, e, ?_, hsh, g2⟩
    simp only [detachBlock, hsp, hpt, htop, hx, Option.bind_some, hf, g1, Option.map_some]
  · intro f hf
    refine ⟨x, t, ?_, hsh⟩
    simp only [detachBlock, hsp, hpt, htop, hx, Option.bind_some, hf, h1', Option.map_some]

/-- **C79** `_detach_block_data_` of a mesh gives one result for every block with cells, in their order, with the data it was asked for; it fails if
it fails for one of them. -/
theorem C79_shown_each {data : DataArg D} {m : List (MBlock P D)} {p : List Nat} :
    (∀ l, detachBlocks data m p = some l → List.Forall₂ (fun b r => ∃ c, b.cells = some c ∧ detachBlock data m b c = some r)
      ((m.filter fun b => p <:+ b.path).filter fun b => b.cells.isSome) l) ∧
    (detachBlocks data m p = none ↔ ∃ b ∈ m, p <:+ b.path ∧ ∃ c, b.cells = some c ∧ detachBlock data m b c = none) := by
  unfold detachBlocks cellsUnder
  constructor
  · intro l h
    generalize m.filter (fun b => decide (p <:+ b.path)) = bs at h ⊢
    induction bs generalizing l with
    | nil => cases h; exact .nil
    | cons b bs ih =>
      cases hc : b.cells with
      | none =>
        simp only [List.filterMap_cons, hc, Option.map_none] at h
        simpa [List.filter_cons, hc] using ih l h
      | some c =>
        simp only [List.filterMap_cons, hc, Option.map_some, List.mapM_cons, Option.bind_eq_bind, Option.bind_eq_some_iff, Option.pure_def,
          Option.some.injEq] at h
        obtain ⟨r, hr, l', hl', rfl⟩ := h
        rw [List.filter_cons, hc]
        exact .cons ⟨c, hc, hr⟩ (ih l' hl')
  · have key : ∀ bs : List (MBlock P D), ((bs.filterMap fun b => b.cells.map fun c => (b, c)).mapM fun c => detachBlock data m c.1 c.2) = none ↔
        ∃ b ∈ bs, ∃ c, b.cells = some c ∧ detachBlock data m b c = none := by
      intro bs
      induction bs with
      | nil => simp
      | cons b bs ih =>
        cases hc : b.cells with
        | none => simpa [List.filterMap_cons, hc] using ih
        | some c =>
          cases hd : detachBlock data m b c with
          | none => simp [hc, hd]
          | some r =>
            cases hm : ((bs.filterMap fun b => b.cells.map fun c => (b, c)).mapM fun c => detachBlock data m c.1 c.2) with
            | none => simpa [List.filterMap_cons, hc, hd, hm] using ih.1 hm
            | some l =>
              rw [hm] at ih
              simpa [List.filterMap_cons, hc, hd, hm] using ih
    rw [key]
    simp [and_assoc]

/-- **C79** a block of cells beneath another one is shown twice, with the other block and on its own: a mesh with two cells shows
three. -/
theorem C79_shown_false : ¬ ∀ (m : List (MBlock (V3 ℚ) ℚ)) (l : List (List (V3 ℚ) × Topo × Option (List ℚ))), MeshTree m →
    detachBlocks .nothing m [] = some l → (l.map fun r => r.2.1.length).sum = numberOfCells m [] := by
  intro h
  have hm : MeshTree nestedMesh := ⟨⟨_, _, rfl, rfl⟩, by simp [nestedMesh]⟩
  have h3 : (detachBlocks .nothing nestedMesh []).map (fun l => (l.map fun r => r.2.1.length).sum) = some 3 := by decide +kernel
  obtain ⟨l, hl, hl3⟩ := Option.map_eq_some_iff.1 h3
  have h4 := h nestedMesh l hm hl
  rw [hl3] at h4
  exact absurd h4 (by decide +kernel)

/-- A concrete case: two blocks of one cell each. -/
example : topologyOf flatMesh [] = some [[1, 2], [3, 2]] ∧ cellIndices flatMesh [] = some [0, 1] ∧ numberOfCells flatMesh [] = 2 ∧
    centersOf flatMesh [] = some [⟨3/2, 0, 0⟩, ⟨5/2, 0, 0⟩] ∧ centersOf flatMesh [1] = some [⟨5/2, 0, 0⟩] := by decide +kernel

/-- **C79** without cells there is no topology, no ids and no volumes, but a number of cells. -/
theorem C79_empty {K : Type} {m : List (MBlock P D)} {p : List Nat} (h : ∀ b ∈ m, p <:+ b.path → b.cells = none)
    (vol : MBlock P D → CData D → List K) :
    topologyOf m p = none ∧ cellIndices m p = none ∧ volumesOf vol m p = none ∧ numberOfCells m p = 0 := by
  have h1 : cellsUnder m p = [] := by
    rw [List.eq_nil_iff_forall_not_mem]
    rintro ⟨b, c⟩ hbc
    obtain ⟨g1, g2, g3⟩ := mem_cellsUnder.1 hbc
    rw [h b g1 g2] at g3
    cases g3
  simp [topologyOf, cellIndices, volumesOf, numberOfCells, h1, stackAll]

end

/-! ## C80 -/

section
variable {P D : Type}

/-- Specification: the mesh `m` has at path `r` a block of cells with the given topology and fields, whose closest points are
`q`. -/
def HasCells (m : List (MBlock P D)) (q : List P) (r : List Nat) (topo : Topo) (fields : Nat → Option (List D)) : Prop :=
  ∃ b ∈ m, b.path = r ∧ ∃ c, b.cells = some c ∧ c.topo = topo ∧ c.fields = fields ∧
    ∃ s Q, ClosestPts m b.path s Q ∧ Q.x = q

theorem relPath_append {p l : List Nat} (h : p <:+ l) : relPath p l ++ p = l := (List.suffix_iff_eq_append.1 h)

theorem mem_detachBeneath {h : Nat} {p : List Nat} {m : List (HBlock D)} : ∀ {next : Nat} {x : HBlock D},
    x ∈ detachBeneath h p next m → ∃ b ∈ m, ∃ c ids, b.cells = some c ∧ p <:+ b.path ∧ b.path ≠ p ∧
      x = ⟨relPath p b.path, none, some { c with id := ids }, .points h⟩ := by
  induction m with
  | nil => intro next x hx; cases hx
  | cons b m ih =>
    intro next x hx
    unfold detachBeneath at hx
    cases hc : b.cells with
    | none =>
      rw [hc] at hx
      obtain ⟨b', hb', r⟩ := ih hx
      exact ⟨b', List.mem_cons_of_mem _ hb', r⟩
    | some c =>
      rw [hc] at hx
      simp only at hx
      split at hx
      · rename_i hp
        rcases List.mem_cons.1 hx with rfl | hx
        · exact ⟨b, List.mem_cons_self, c, _, hc, hp.1, hp.2, rfl⟩
        · obtain ⟨b', hb', r⟩ := ih hx
          exact ⟨b', List.mem_cons_of_mem _ hb', r⟩
      · obtain ⟨b', hb', r⟩ := ih hx
        exact ⟨b', List.mem_cons_of_mem _ hb', r⟩

theorem detachBeneath_mem {h : Nat} {p : List Nat} {m : List (HBlock D)} {b : HBlock D} {c : CData D} (hb : b ∈ m)
    (hc : b.cells = some c) (hp : p <:+ b.path) (hne : b.path ≠ p) : ∀ next : Nat, ∃ ids,
      ⟨relPath p b.path, none, some { c with id := ids }, .points h⟩ ∈ detachBeneath h p next m := by
  induction m with
  | nil => cases hb
  | cons a m ih =>
    intro next
    unfold detachBeneath
    rcases List.mem_cons.1 hb with rfl | hb
    · rw [hc]
      simp only [if_pos (And.intro hp hne)]
      exact ⟨_, List.mem_cons_self⟩
    · cases ha : a.cells with
      | none => exact ih hb next
      | some c' =>
        simp only
        split
        · obtain ⟨ids, h1⟩ := ih hb (next + c'.topo.length)
          exact ⟨ids, List.mem_cons_of_mem _ h1⟩
        · exact ih hb next

/-- The paths of the blocks beneath, put together with the path of the block, are paths of the mesh. -/
theorem detachBeneath_paths {h : Nat} {p : List Nat} (m : List (HBlock D)) : ∀ next : Nat,
    ((detachBeneath h p next m).map fun b => b.path ++ p).Sublist (m.map HBlock.path) := by
  induction m with
  | nil => intro next; simp [detachBeneath]
  | cons a m ih =>
    intro next
    unfold detachBeneath
    cases ha : a.cells with
    | none => exact (ih next).cons _
    | some c =>
      simp only
      split
      · rename_i hp
        simp only [List.map_cons, relPath_append hp.1]
        exact (ih _).cons_cons _
      · exact (ih next).cons _

/-- The detached mesh, seen with the new store, is a tree with points at its root only. -/
theorem detached_tree {st st' : List (PData P D)} {m m' : List (HBlock D)} (hm : (m.map HBlock.path).Nodup) {p : List Nat}
    (h : detachMesh st m p = some (st', m')) : MeshTree (deref st' m') ∧ ∃ k q, sourceRef m p = some k ∧ st[k]? = some q ∧
      st' = st.set k { q with id := List.range q.x.length } ∧
      m' = ⟨[], some k, (m.find? fun b => b.path = p).bind HBlock.cells, .mesh⟩ :: detachBeneath k p 0 m ∧
      ptsAt (deref st' m') [] = some { q with id := List.range q.x.length } ∧
      ∀ b ∈ deref st' m', b.pts.isSome → b.path = [] := by
  unfold detachMesh at h
  obtain ⟨k, hk, h⟩ := Option.bind_eq_some_iff.1 h
  obtain ⟨q, hq, h⟩ := Option.map_eq_some_iff.1 h
  obtain ⟨rfl, rfl⟩ := Prod.mk.inj h
  have hkl := (List.getElem?_eq_some_iff.1 hq).1
  refine ⟨⟨⟨_, _, rfl, rfl⟩, ?_⟩, k, q, hk, hq, rfl, rfl, ?_, ?_⟩
  · simp only [deref, List.map_cons, List.map_map, List.nodup_cons]
    constructor
    · intro hmem
      obtain ⟨b, hb, hbp⟩ := List.mem_map.1 hmem
      obtain ⟨b', -, c, ids, -, hp, hne, rfl⟩ := mem_detachBeneath hb
      have := relPath_append hp
      simp only [Function.comp] at hbp
      rw [hbp] at this
      exact hne this.symm
    · have h1 := hm.sublist (detachBeneath_paths (h := k) (p := p) m 0)
      have h2 : ((detachBeneath k p 0 m).map HBlock.path).Nodup := by
        have : ((detachBeneath k p 0 m).map fun b => b.path ++ p) = ((detachBeneath k p 0 m).map HBlock.path).map (· ++ p) := by
          rw [List.map_map]; rfl
        rw [this] at h1
        exact h1.of_map _
      exact h2
  · simp [ptsAt, blockAt, deref, List.getElem?_set_self hkl]
  · intro b hb hbp
    rcases List.mem_cons.1 hb with rfl | hb
    · rfl
    · obtain ⟨b0, hb0, rfl⟩ := List.mem_map.1 hb
      obtain ⟨b', -, c, ids, -, hp, hne, rfl⟩ := mem_detachBeneath hb0
      cases hbp

/-- **C80** the cells of the detached mesh: those of the block and of all blocks beneath it, at the same relative paths and with the
same data, and no others; all of them refer to the points of the source of the block. -/
theorem C80_cells {st st' : List (PData P D)} {m m' : List (HBlock D)} (hm : (m.map HBlock.path).Nodup) {p : List Nat}
    (h : detachMesh st m p = some (st', m')) {k : Nat} {q : PData P D} (hk : sourceRef m p = some k) (hq : st[k]? = some q) :
    (∀ b ∈ m, ∀ c r, b.cells = some c → b.path = r ++ p → HasCells (deref st' m') q.x r c.topo c.fields) ∧
    ∀ r topo fields, HasCells (deref st' m') q.x r topo fields →
      ∃ b ∈ m, ∃ c, b.path = r ++ p ∧ b.cells = some c ∧ c.topo = topo ∧ c.fields = fields := by
  obtain ⟨ht, k', q', hk', hq', hst, hm', hpt, honly⟩ := detached_tree hm h
  rw [hk] at hk'
  obtain rfl := Option.some.inj hk'
  rw [hq] at hq'
  obtain rfl := Option.some.inj hq'
  have hclose : ∀ r : List Nat, ∃ s Q, ClosestPts (deref st' m') r s Q ∧ Q.x = q.x := by
    intro r
    obtain ⟨s, hs⟩ := exists_closest ht.nodup (p := []) (q := _) (show sourceOf (deref st' m') [] = _ from hpt)
    have hsp := honly s hs.mem (by rw [hs.pts]; rfl)
    exact ⟨s, _, ⟨hs.mem, hs.pts, by rw [hsp]; exact List.nil_suffix, fun b hb hbp _ => by rw [honly b hb hbp]; simp⟩, rfl⟩
  constructor
  · intro b hb c r hc hr
    by_cases hr0 : r = []
    · subst hr0
      have hf : (m.find? fun b => b.path = p) = some b := by
        rw [List.nil_append] at hr
        have := List.find?_isSome (xs := m) (p := fun b => decide (b.path = p))
        obtain ⟨b', hb'⟩ := Option.isSome_iff_exists.1 (this.2 ⟨b, hb, by simpa using hr⟩)
        have hmem := List.mem_of_find?_eq_some hb'
        have hp' : b'.path = p := by simpa using List.find?_some hb'
        rw [hb']
        congr 1
        exact List.inj_on_of_nodup_map hm hmem hb (hp'.trans hr.symm)
      refine ⟨⟨[], Fr.ambient, st'[k]?, some c⟩, ?_, rfl, c, rfl, rfl, rfl, hclose _⟩
      rw [hm']
      refine List.mem_map.2 ⟨_, List.mem_cons_self, ?_⟩
      simp [hf, hc]
    · have hp : p <:+ b.path := by rw [hr]; exact List.suffix_append _ _
      have hne : b.path ≠ p := by
        intro he
        rw [hr] at he
        exact hr0 (List.append_left_eq_self.1 he)
      obtain ⟨ids, hmem⟩ := detachBeneath_mem (h := k) hb hc hp hne 0
      have hrel : relPath p b.path = r := List.append_cancel_right ((relPath_append hp).trans hr)
      refine ⟨⟨r, Fr.ambient, none, some { c with id := ids }⟩, ?_, rfl, _, rfl, rfl, rfl, hclose _⟩
      rw [hm']
      refine List.mem_map.2 ⟨_, List.mem_cons_of_mem _ hmem, ?_⟩
      simp [hrel]
  · rintro r topo fields ⟨b, hb, rfl, c, hc, rfl, rfl, -⟩
    rw [hm'] at hb
    obtain ⟨b0, hb0, rfl⟩ := List.mem_map.1 hb
    rcases List.mem_cons.1 hb0 with rfl | hb0
    · obtain ⟨b', hb', hbc⟩ := Option.bind_eq_some_iff.1 hc
      exact ⟨b', List.mem_of_find?_eq_some hb', c, by simpa using List.find?_some hb', hbc, rfl, rfl⟩
    · obtain ⟨b', hb', c', ids, hc', hp, -, rfl⟩ := mem_detachBeneath hb0
      obtain rfl := Option.some.inj hc
      exact ⟨b', hb', c', (relPath_append hp).symm, hc', rfl, rfl⟩

/-- The source as a place in the store and the closest points. -/
theorem sourceRef_eq {st : List (PData P D)} {m : List (HBlock D)} {p : List Nat} {k : Nat} {q : PData P D}
    (hk : sourceRef m p = some k) (hq : st[k]? = some q) : sourceOf (deref st m) p = some q := by
  have hfind : ∀ r : List Nat, ptsAt (deref st m) r = ((m.find? fun b => b.path = r).bind HBlock.pts).bind fun h => st[h]? := by
    intro r
    unfold ptsAt blockAt deref
    rw [List.find?_map]
    simp only [Function.comp_def]
    cases m.find? fun b => decide (b.path = r) <;> rfl
  induction p with
  | nil =>
    unfold sourceOf
    unfold sourceRef at hk
    rw [hfind, hk]
    exact hq
  | cons a p ih =>
    unfold sourceOf
    unfold sourceRef at hk
    rw [hfind]
    cases hb : (m.find? fun b => decide (b.path = a :: p)).bind HBlock.pts with
    | none =>
      rw [hb] at hk
      exact ih hk
    | some h =>
      rw [hb] at hk
      obtain rfl := Option.some.inj hk
      rw [Option.bind_some, hq]

/-- **C80** the points of the cells stay where they are, if no block strictly beneath the block has points of its own: every block of
cells of the detached mesh has the closest points of the block it comes from. -/
theorem C80_geometry_partial {st st' : List (PData P D)} {m m' : List (HBlock D)} (hm : (m.map HBlock.path).Nodup) {p : List Nat} (h : detachMesh st m p = some (st', m'))
    (hnest : ∀ b ∈ m, b.pts.isSome → p <:+ b.path → b.path = p) :
    ∀ b ∈ m, ∀ c r, b.cells = some c → b.path = r ++ p → ∀ s q, ClosestPts (deref st m) b.path s q →
      HasCells (deref st' m') q.x r c.topo c.fields := by
  intro b hb c r hc hr s q hs
  obtain ⟨-, k, q', hk, hq, -⟩ := detached_tree hm h
  have h1 := sourceRef_eq hk hq
  have hmd : ((deref st m).map MBlock.path).Nodup := by
    unfold deref
    rw [List.map_map]
    exact hm
  obtain ⟨s', hs'⟩ := exists_closest hmd h1
  have hq' : q = q' := by
    have h2 : ClosestPts (deref st m) p s q := by
      refine ⟨hs.mem, hs.pts, ?_, fun b' hb' hp' ha' => hs.closest b' hb' hp' (ha'.trans (by rw [hr]; exact List.suffix_append _ _))⟩
      rcases le_total s.path.length p.length with hle | hle
      · exact List.suffix_of_suffix_length_le hs.above (by rw [hr]; exact List.suffix_append _ _) hle
      · have h3 : p <:+ s.path :=
          List.suffix_of_suffix_length_le (by rw [hr]; exact List.suffix_append _ _) hs.above hle
        obtain ⟨b0, hb0, he⟩ := List.mem_map.1 hs.mem
        have h4 := hnest b0 hb0 (by
          have := hs.pts
          rw [← he] at this
          obtain ⟨k', h5, -⟩ := Option.bind_eq_some_iff.1 this
          rw [h5]; rfl) (by rw [← he] at h3; exact h3)
        rw [← he]
        show b0.path <:+ p
        rw [h4]
    have h3 := sourceOf_eq hmd h2
    rw [h1] at h3
    exact (Option.some.inj h3).symm
  subst hq'
  exact (C80_cells hm h hk hq).1 b hb c r hc hr

/-- **C80** `detach` leaves the mesh it is called on as it was, if the points of its source are numbered from 0. -/
theorem C80_original_partial {st st' : List (PData P D)} {m m' : List (HBlock D)} {p : List Nat}
    (h : detachMesh st m p = some (st', m')) (hid : ∀ k q, sourceRef m p = some k → st[k]? = some q → q.id = List.range q.x.length) :
    deref st' m = deref st m := by
  unfold detachMesh at h
  obtain ⟨k, hk, h⟩ := Option.bind_eq_some_iff.1 h
  obtain ⟨q, hq, h⟩ := Option.map_eq_some_iff.1 h
  obtain ⟨rfl, -⟩ := Prod.mk.inj h
  have hkl := (List.getElem?_eq_some_iff.1 hq).1
  have : st.set k { q with id := List.range q.x.length } = st := by
    rw [← hid k q hk hq]
    have h2 := (List.getElem?_eq_some_iff.1 hq).2
    rw [show ({ q with id := q.id } : PData P D) = st[k] from h2.symm]
    exact List.set_getElem_self hkl
  rw [this]

/-- **C80** the cells beneath the block find their coordinates at the points of the source. -/
theorem C80_coords_partial {st st' : List (PData P D)} {m m' : List (HBlock D)} (hm : (m.map HBlock.path).Nodup) {p : List Nat}
    (h : detachMesh st m p = some (st', m')) {k : Nat} {q : PData P D} (hk : sourceRef m p = some k) (hq : st[k]? = some q) :
    ∀ b ∈ m', b.path ≠ [] → sourceCoords st' m' b = some q.x := by
  obtain ⟨-, k', q', hk', hq', hst, hm', -⟩ := detached_tree hm h
  rw [hk] at hk'
  obtain rfl := Option.some.inj hk'
  rw [hq] at hq'
  obtain rfl := Option.some.inj hq'
  intro b hb hne
  rw [hm'] at hb
  rcases List.mem_cons.1 hb with rfl | hb
  · exact absurd rfl hne
  · obtain ⟨b', -, c, ids, -, -, -, rfl⟩ := mem_detachBeneath hb
    have hkl := (List.getElem?_eq_some_iff.1 hq).1
    simp [sourceCoords, hst, List.getElem?_set_self hkl]

/-- **C80** the cells of the block itself do not find coordinates: their `pointdata` is a mesh. -/
theorem C80_coords_false {st st' : List (PData P D)} {m m' : List (HBlock D)} {p : List Nat}
    (h : detachMesh st m p = some (st', m')) : ∃ b ∈ m', b.path = [] ∧ sourceCoords st' m' b = none := by
  unfold detachMesh at h
  obtain ⟨k, hk, h⟩ := Option.bind_eq_some_iff.1 h
  obtain ⟨q, hq, h⟩ := Option.map_eq_some_iff.1 h
  obtain ⟨rfl, rfl⟩ := Prod.mk.inj h
  exact ⟨_, List.mem_cons_self, rfl, rfl⟩

end

/-- Points at places 0 and 1 of a store. -/
def demoStore : List (PData (V3 ℚ) ℚ) :=
  [⟨[⟨0, 0, 0⟩, ⟨1, 0, 0⟩, ⟨0, 1, 0⟩], [3, 4, 5], fun _ => none⟩, ⟨[⟨5, 0, 0⟩, ⟨6, 0, 0⟩], [0, 1], fun _ => none⟩]

/-- A mesh with points and cells at the root and in two blocks beneath it, the second of them with its own points. -/
def demoH : List (HBlock ℚ) :=
  [⟨[], some 0, some ⟨[[0, 1, 2]], [0], fun _ => none⟩, .points 0⟩, ⟨[0], none, some ⟨[[1, 2]], [1], fun _ => none⟩, .points 0⟩,
   ⟨[1], some 1, some ⟨[[0, 1]], [2], fun _ => none⟩, .points 1⟩]

/-- A concrete case: the cells of the demo mesh are all in the detached mesh. -/
example : ((detachMesh demoStore demoH []).map fun r => r.2.map fun b => (b.path, b.cells.map fun c => (c.topo, c.id))) =
    some [([], some ([[0, 1, 2]], [0])), ([0], some ([[1, 2]], [0])), ([1], some ([[0, 1]], [1]))] := by decide +kernel

/-- **C80** fails for blocks with points of their own: their cells get the points of the source of the block `detach` is called
on. -/
theorem C80_geometry_false : ¬ ∀ (st st' : List (PData (V3 ℚ) ℚ)) (m m' : List (HBlock ℚ)) (p : List Nat),
    (m.map HBlock.path).Nodup → detachMesh st m p = some (st', m') →
    ∀ b ∈ m, ∀ c r, b.cells = some c → b.path = r ++ p → ∀ s q, ClosestPts (deref st m) b.path s q →
      HasCells (deref st' m') q.x r c.topo c.fields := by
  intro h
  have hm : (demoH.map HBlock.path).Nodup := by decide
  have hd : detachMesh demoStore demoH [] = some (_, _) := rfl
  have hmd : ((deref demoStore demoH).map MBlock.path).Nodup := by simp [deref, demoH]
  obtain ⟨s, hs⟩ := exists_closest hmd (p := [1]) (q := ⟨[⟨5, 0, 0⟩, ⟨6, 0, 0⟩], [0, 1], fun _ => none⟩) rfl
  obtain ⟨b, hb, hbp, c, hc, -, -, s', Q, hs', hQ⟩ := h demoStore _ demoH _ [] hm hd demoH[2] (by simp [demoH]) ⟨[[0, 1]], [2], fun _ => none⟩ [1] rfl rfl s _ hs
  obtain ⟨ht, k, q, hk, hq, hst, hm', hpt, honly⟩ := detached_tree hm hd
  have h1 := sourceOf_eq ht.nodup hs'
  rw [hbp] at h1
  have h2 : Q.x = [⟨0, 0, 0⟩, ⟨1, 0, 0⟩, ⟨0, 1, 0⟩] := by
    have : some Q = some _ := h1.symm.trans rfl
    rw [Option.some.inj this]
  rw [h2] at hQ
  exact absurd hQ (by decide +kernel)

/-- **C80** the ids of the cells of a detached mesh are not unique: the cells of the block keep theirs, those beneath are numbered
from 0. -/
theorem C80_ids_false : ¬ ∀ (st st' : List (PData (V3 ℚ) ℚ)) (m m' : List (HBlock ℚ)) (p : List Nat),
    ((m.flatMap fun b => (b.cells.map CData.id).getD [])).Nodup → detachMesh st m p = some (st', m') →
    ((m'.flatMap fun b => (b.cells.map CData.id).getD [])).Nodup := by
  intro h
  exact absurd (h demoStore _ demoH _ [] (by decide) rfl) (by decide +kernel)

/-- **C80** `detach` changes the mesh it is called on: the ids of the points are overwritten. -/
theorem C80_original_false : ¬ ∀ (st st' : List (PData (V3 ℚ) ℚ)) (m m' : List (HBlock ℚ)) (p : List Nat),
    detachMesh st m p = some (st', m') → (allPts (deref st' m)).map PData.id = (allPts (deref st m)).map PData.id := by
  intro h
  exact absurd (h demoStore _ demoH _ [] rfl) (by decide +kernel)

/-- **C80** a detached mesh is not independent: new coordinates of its points are new coordinates of the points of the mesh it was
detached from (and nothing else changes). -/
theorem C80_shared_false {P D : Type} {st st' : List (PData P D)} {m m' : List (HBlock D)} {p : List Nat}
    (h : detachMesh st m p = some (st', m')) : ∃ k, sourceRef m p = some k ∧ (m'.head?.bind HBlock.pts) = some k ∧
      ∀ x : List P, (∃ q q', st'[k]? = some q ∧ (storeX st' k x)[k]? = some q' ∧ q'.x = x ∧ q'.id = q.id ∧ q'.fields = q.fields) ∧
        ∀ j, j ≠ k → (storeX st' k x)[j]? = st'[j]? := by
  unfold detachMesh at h
  obtain ⟨k, hk, h⟩ := Option.bind_eq_some_iff.1 h
  obtain ⟨q, hq, h⟩ := Option.map_eq_some_iff.1 h
  obtain ⟨rfl, rfl⟩ := Prod.mk.inj h
  have hkl := (List.getElem?_eq_some_iff.1 hq).1
  refine ⟨k, hk, rfl, fun x => ⟨⟨_, ⟨x, List.range q.x.length, q.fields⟩, List.getElem?_set_self hkl, by simp [storeX, List.getElem?_set_self hkl], rfl, rfl, rfl⟩, fun j hj => ?_⟩⟩
  simp [storeX, Ne.symm hj]

end PM
