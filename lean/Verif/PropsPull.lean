import Verif.Pull
import Verif.PropsCollect

/-!
# C97: nodal data pulled to the cells of a mesh
-/

namespace PM

section
variable {K M : Type} [Field K] [AddCommGroup M] [Module K M]

/-! ## lemmas -/

/-- A row of nodes against a row of factors. -/
def pullRow (data : List M) (x : List Nat × List K) : Option (List M) :=
  x.1.zipIdx.mapM fun y => data[y.1]? >>= fun v => x.2[y.2]?.map fun f => f • v

theorem zipIdx_mapM_zip {α β γ : Type} {l : List α} {r : List β} (h : r.length = l.length) (g : α × Nat → Option γ)
    (g' : α × β → Option γ) (hg : ∀ i a b, l[i]? = some a → r[i]? = some b → g (a, i) = g' (a, b)) :
    l.zipIdx.mapM g = (l.zip r).mapM g' := by
  have e1 : l.zipIdx.mapM g = (List.range l.length).mapM fun i => l[i]? >>= fun a => g (a, i) := by
    have : l.zipIdx.mapM g = (List.range l.length).mapM fun i => (l.zipIdx)[i]? >>= g := by
      have hz : l.zipIdx = (List.range l.length).attach.map fun i => (l[i.1]'(List.mem_range.1 i.2), i.1) := by
        apply List.ext_getElem <;> simp
      conv_lhs => rw [hz]
      rw [mapM_map']
      have : (List.range l.length).mapM (fun i => (l.zipIdx)[i]? >>= g) =
          ((List.range l.length).attach.map Subtype.val).mapM (fun i => (l.zipIdx)[i]? >>= g) := by simp
      rw [this, mapM_map']
      apply mapM_congr'
      intro i _
      have := List.mem_range.1 i.2
      simp [this]
    rw [this]
    apply mapM_congr'
    intro i hi
    have := List.mem_range.1 hi
    simp [this]
  have e2 : (l.zip r).mapM g' = (List.range l.length).mapM fun i => (l.zip r)[i]? >>= g' := by
    have hz : l.zip r = (List.range l.length).attach.map fun i =>
        (l[i.1]'(List.mem_range.1 i.2), r[i.1]'(by rw [h]; exact List.mem_range.1 i.2)) := by
      apply List.ext_getElem
      · simp [h]
      · simp
    conv_lhs => rw [hz]
    rw [mapM_map']
    have : (List.range l.length).mapM (fun i => (l.zip r)[i]? >>= g') =
        ((List.range l.length).attach.map Subtype.val).mapM (fun i => (l.zip r)[i]? >>= g') := by simp
    rw [this, mapM_map']
    apply mapM_congr'
    intro i _
    have h1 := List.mem_range.1 i.2
    have h2 : i.1 < r.length := by omega
    simp [h1, h2, List.zip]
  rw [e1, e2]
  apply mapM_congr'
  intro i hi
  have h1 := List.mem_range.1 hi
  have h2 : i < r.length := by omega
  rw [List.getElem?_eq_getElem h1, List.zip, List.getElem?_zipWith, List.getElem?_eq_getElem h1,
    List.getElem?_eq_getElem h2]
  exact hg i _ _ (List.getElem?_eq_getElem h1) (List.getElem?_eq_getElem h2)

theorem distribute_zip (data : List M) {T : Topo} {F : List (List K)} (h : F.length = T.length) :
    distribute data T F = (T.zip F).mapM (pullRow data) := by
  unfold distribute
  apply zipIdx_mapM_zip h
  intro i a b _ hb
  unfold pullRow
  apply mapM_congr'
  intro y _
  simp only [nodeAt, hb]
  rfl

theorem rowPtr_get? {α : Type} (rows : List (List α)) {i : Nat} (hi : i ≤ rows.length) :
    (rowPtr rows)[i]? = some (rows.take i).flatten.length := by
  rw [rowPtr, List.getElem?_map, List.getElem?_range (by omega)]
  rfl

/-- Sparse distribution takes the rows named by the ids. -/
theorem distributeSparse_zip (data : List M) {T : Topo} {ids : List Nat} {F : List (List K)}
    (h : ids.length = T.length) (hi : ∀ i ∈ ids, i < F.length) :
    distributeSparse data T ids F.flatten (rowPtr F) =
      (T.zip (ids.map fun i => F.getD i [])).mapM (pullRow data) := by
  unfold distributeSparse
  apply zipIdx_mapM_zip (by simpa using h)
  intro i a b _ hb
  rw [List.getElem?_map, Option.map_eq_some_iff] at hb
  obtain ⟨c, hc, rfl⟩ := hb
  have hcl := hi c (List.mem_of_getElem? hc)
  simp only [hc, Option.bind_eq_bind, Option.bind_some, rowPtr_get? F hcl.le, rowPtr_get? F (show c + 1 ≤ F.length by omega)]
  rw [slice_flatten _ hcl]
  simp [pullRow, hcl]

/-! ## the property -/

/-- The cells of a block: ids and nodes. -/
structure PullBlock where
  ids : List Nat
  topo : Topo

theorem mapM_flatten {α β γ : Type} (l : List α) (f : α → List β) (g : β → Option γ) :
    (l.mapM fun a => (f a).mapM g).map List.flatten = (l.flatMap f).mapM g := by
  induction l with
  | nil => rfl
  | cons a l ih =>
    rw [List.mapM_cons, List.flatMap_cons, List.mapM_append, ← ih]
    cases (f a).mapM g with
    | none => rfl
    | some x => cases l.mapM (fun a => (f a).mapM g) <;> rfl

theorem zip_flatMap {α β γ : Type} (l : List α) (f : α → List β) (g : α → List γ)
    (h : ∀ a ∈ l, (f a).length = (g a).length) :
    (l.flatMap fun a => (f a).zip (g a)) = (l.flatMap f).zip (l.flatMap g) := by
  induction l with
  | nil => rfl
  | cons a l ih =>
    rw [List.flatMap_cons, List.flatMap_cons, List.flatMap_cons, ih fun b hb => h b (List.mem_cons_of_mem _ hb),
      List.zip_append (h a List.mem_cons_self)]

/-- `D`, data at the places of the cells of `T`, adds up to `data` at every node used. -/
def AddsUpTo (T : Topo) (D : List (List M)) (data : List M) : Prop :=
  D.map List.length = T.map List.length ∧
    ∀ n ps, UsesNode T n → IncidenceList T n ps → some ((ps.map fun p => (nodeAt D p.1 p.2).getD 0).sum) = data[n]?

theorem shape_of_distribute {data : List M} {T : Topo} {F : List (List K)} {E : List (List M)}
    (h : distribute data T F = some E) : E.map List.length = T.map List.length := by
  unfold distribute at h
  apply List.ext_getElem
  · rw [List.length_map, List.length_map, mapM_length h, List.length_zipIdx]
  · intro i h1 h2
    rw [List.length_map] at h1 h2
    have h3 : (T.zipIdx)[i]? = some (T[i], i) := by simp [h2]
    obtain ⟨b, h4, h5⟩ := mapM_get h h3
    rw [List.getElem?_eq_getElem h1] at h5
    rw [List.getElem_map, List.getElem_map, Option.some.inj h5, mapM_length h4, List.length_zipIdx]

/-- Data pulled by all blocks of a mesh, with factors of the whole mesh that add up to one at every node: nothing is
lost, nothing is counted twice, in either container of the factors. The ids have to be the places of the cells in the
mesh; a dense array has to be reduced to the rows of the block. -/
theorem C97_partial [LinearOrder K] [IsStrictOrderedRing K] {blocks : List PullBlock} {w : List K} {F : List (List K)}
    {data : List M} (hlen : ∀ b ∈ blocks, b.ids.length = b.topo.length)
    (hids : (blocks.flatMap fun b => b.ids) = List.range (blocks.flatMap fun b => b.topo).length)
    (hP : IsPartition (blocks.flatMap fun b => b.topo) w F)
    (hin : ∀ b ∈ blocks, ∀ r ∈ b.topo, ∀ n ∈ r, n < data.length) :
    ∃ Es, (blocks.mapM fun b => cellPull data b.topo b.ids (.csr F.flatten (rowPtr F))) = some Es ∧
      (blocks.mapM fun b => cellPull data b.topo b.ids (.dense (b.ids.map fun i => F.getD i []))) = some Es ∧
      Es.map (List.map List.length) = blocks.map (fun b => b.topo.map List.length) ∧
      AddsUpTo (blocks.flatMap fun b => b.topo) Es.flatten data := by
  set T := blocks.flatMap fun b => b.topo with hT
  have hFl : F.length = T.length := by simpa using congrArg List.length hP.shape
  have hidl : ∀ b ∈ blocks, ∀ i ∈ b.ids, i < F.length := by
    intro b hb i hi
    have : i ∈ blocks.flatMap fun b => b.ids := List.mem_flatMap.2 ⟨b, hb, hi⟩
    rw [hids, List.mem_range] at this
    omega
  have hrows : (blocks.flatMap fun b => b.ids.map fun i => F.getD i []) = F := by
    rw [← List.map_flatMap, hids, ← hFl]
    apply List.ext_getElem
    · simp
    · intro i h1 h2
      simp [h2]
  have e1 : (blocks.mapM fun b => cellPull data b.topo b.ids (.csr F.flatten (rowPtr F))) =
      blocks.mapM fun b => (b.topo.zip (b.ids.map fun i => F.getD i [])).mapM (pullRow data) :=
    mapM_congr' fun b hb => distributeSparse_zip data (hlen b hb) (hidl b hb)
  have e2 : (blocks.mapM fun b => cellPull data b.topo b.ids (.dense (b.ids.map fun i => F.getD i []))) =
      blocks.mapM fun b => (b.topo.zip (b.ids.map fun i => F.getD i [])).mapM (pullRow data) :=
    mapM_congr' fun b hb => distribute_zip data (by simpa using hlen b hb)
  have hu : ∀ n, UsesNode T n → n < data.length := by
    rintro n ⟨r, hr, hn⟩
    obtain ⟨b, hb, hrb⟩ := List.mem_flatMap.1 hr
    exact hin b hb r hrb n hn
  obtain ⟨E, hE, hsum, -⟩ := C25_distribute hP hu
  have hfl : (blocks.mapM fun b : PullBlock => (b.topo.zip (b.ids.map fun i => F.getD i [])).mapM (pullRow data)).map List.flatten =
      some E := by
    rw [mapM_flatten, zip_flatMap _ _ _ (fun b hb => by simpa using (hlen b hb).symm), hrows, ← distribute_zip data hFl, hE]
  obtain ⟨Es, hEs, hEf⟩ := Option.map_eq_some_iff.1 hfl
  refine ⟨Es, e1.trans hEs, e2.trans hEs, ?_, ?_, ?_⟩
  · rw [← e2] at hEs
    apply List.ext_getElem
    · simp [mapM_length hEs]
    · intro i h1 h2
      rw [List.length_map] at h1 h2
      obtain ⟨c, h4, h5⟩ := mapM_get hEs (List.getElem?_eq_getElem h2)
      rw [List.getElem?_eq_getElem h1] at h5
      rw [List.getElem_map, List.getElem_map, Option.some.inj h5]
      exact shape_of_distribute h4
  · rw [hEf]; exact shape_of_distribute hE
  · rw [hEf]; exact hsum

/-- The factors the library computes for such a mesh (C24), in a csr matrix. -/
theorem C97_computed_partial [LinearOrder K] [IsStrictOrderedRing K] {blocks : List PullBlock} {w : List K} {data : List M}
    (hlen : ∀ b ∈ blocks, b.ids.length = b.topo.length)
    (hids : (blocks.flatMap fun b => b.ids) = List.range (blocks.flatMap fun b => b.topo).length)
    (hw : w.length = (blocks.flatMap fun b => b.topo).length) (hpos : ∀ x ∈ w, 0 < x)
    (hne : (blocks.flatMap fun b => b.topo).flatten ≠ []) (hnd : ∀ b ∈ blocks, ∀ r ∈ b.topo, r.Nodup)
    (hin : ∀ b ∈ blocks, ∀ r ∈ b.topo, ∀ n ∈ r, n < data.length) {sched : List (Nat × K)}
    (hp : (ndfCsrW (blocks.flatMap fun b => b.topo).flatten (rowPtr (blocks.flatMap fun b => b.topo)) w).Perm sched) :
    ∃ d Es, ndfCsrWith (blocks.flatMap fun b => b.topo).flatten (rowPtr (blocks.flatMap fun b => b.topo)) w sched = some d ∧
      (blocks.mapM fun b => cellPull data b.topo b.ids (.csr d (rowPtr (blocks.flatMap fun b => b.topo)))) = some Es ∧
      AddsUpTo (blocks.flatMap fun b => b.topo) Es.flatten data := by
  obtain ⟨F, hF, hP⟩ := C24_csr hw hne (fun r hr => by
    obtain ⟨b, hb, hr⟩ := List.mem_flatMap.1 hr
    exact hnd b hb r hr) hpos hp
  obtain ⟨Es, h1, -, -, h4⟩ := C97_partial hlen hids hP hin
  have hptr : rowPtr F = rowPtr (blocks.flatMap fun b => b.topo) := by
    have hl : F.length = (blocks.flatMap fun b => b.topo).length := by simpa using congrArg List.length hP.shape
    unfold rowPtr
    rw [hl]
    apply List.map_congr_left
    intro i _
    rw [List.length_flatten, List.length_flatten, List.map_take, List.map_take, hP.shape]
  exact ⟨_, Es, hF, hptr ▸ h1, h4⟩

/-- Without factors every cell receives copies of the data of its nodes. -/
theorem C97_copied {data : List M} {T : Topo} {ids : List Nat} (hin : ∀ r ∈ T, ∀ n ∈ r, n < data.length) :
    ∃ E, cellPull data T ids (.missing : Factors K) = some E ∧ E.map List.length = T.map List.length ∧
      ∀ c j n, nodeAt T c j = some n → nodeAt E c j = data[n]? := by
  have h1 : ∀ c j n, nodeAt T c j = some n → nodeAt (T.map (List.map fun _ => (1 : K))) c j = some 1 := by
    intro c j n h
    obtain ⟨r, hr, hj⟩ := Option.bind_eq_some_iff.1 (show T[c]? >>= (fun r => r[j]?) = some n from h)
    change (T.map (List.map fun _ => (1 : K)))[c]? >>= (fun r => r[j]?) = some 1
    rw [List.getElem?_map, hr]
    change (r.map fun _ => (1 : K))[j]? = some 1
    rw [List.getElem?_map, hj]
    rfl
  obtain ⟨E, hE, hs, hv⟩ := distribute_closed (K := K) (data := data) (T := T) (F := T.map (List.map fun _ => (1 : K)))
    (by rintro n ⟨r, hr, hn⟩; exact hin r hr n hn) (fun c j n h => ⟨1, h1 c j n h⟩)
  refine ⟨E, hE, hs, fun c j n h => ?_⟩
  have hn : n < data.length := by
    rw [nodeAt] at h
    obtain ⟨r, hr, hj⟩ := Option.bind_eq_some_iff.1 h
    exact hin r (List.mem_of_getElem? hr) n (List.mem_of_getElem? hj)
  rw [hv c j n h, h1 c j n h]
  simp [hn]

/-- The value of a cell, times its measure, is the sum of the data of its nodes; so the total over a mesh remains. -/
theorem C97_homogenize [DecidableEq K] {data : List (List M)} {measure : List K} (hl : measure.length = data.length)
    (hm : ∀ m ∈ measure, m ≠ 0) :
    ∃ R, homogenize data measure = some R ∧ R.length = data.length ∧
      (∀ (i : Nat) (d : List M) (m : K) (r : M), data[i]? = some d → measure[i]? = some m → R[i]? = some r → m • r = d.sum) ∧
      (List.zipWith (fun m r => m • r) measure R).sum = data.flatten.sum := by
  have hc : homogenize data measure = (data.zip measure).mapM fun x => some (x.2⁻¹ • x.1.sum) := by
    unfold homogenize
    apply zipIdx_mapM_zip hl
    intro i a b _ hb
    simp [hb, hm b (List.mem_of_getElem? hb)]
  have hR : homogenize data measure = some ((data.zip measure).map fun x => x.2⁻¹ • x.1.sum) := by
    rw [hc]
    exact mapM_some (g := fun x : List M × K => x.2⁻¹ • x.1.sum) fun x _ => rfl
  refine ⟨_, hR, by simp [hl], ?_, ?_⟩
  · intro i d m r h1 h2 h3
    simp only [List.getElem?_map, List.zip, List.getElem?_zipWith, h1, h2] at h3
    rw [← Option.some.inj h3, smul_inv_smul₀ (hm m (List.mem_of_getElem? h2))]
  · clear hc hR
    induction data generalizing measure with
    | nil => simp
    | cons d data ih =>
      cases measure with
      | nil => simp at hl
      | cons m measure =>
        simp only [List.zip_cons_cons, List.map_cons, List.zipWith_cons_cons, List.sum_cons, List.flatten_cons,
          List.sum_append]
        rw [ih (by simpa using hl) fun x hx => hm x (List.mem_cons_of_mem _ hx),
          smul_inv_smul₀ (hm m List.mem_cons_self)]

/-- With as many nodes as the measure says, and equal data at the nodes of a cell, the cell receives this value. -/
theorem C97_homogenize_constant [DecidableEq K] [CharZero K] {vals : List M} {T : Topo} (hl : vals.length = T.length)
    (hT : ∀ r ∈ T, r ≠ []) :
    homogenize (cellScalars T vals) (T.map fun r => (r.length : K)) = some vals := by
  unfold homogenize cellScalars
  rw [zipIdx_mapM_zip (r := T.map fun r => (r.length : K)) (g' := fun x : List M × K => some (x.2⁻¹ • x.1.sum)) (by simp [hl])]
  · rw [mapM_some (g := fun x : List M × K => x.2⁻¹ • x.1.sum) fun x _ => rfl]
    congr 1
    apply List.ext_getElem
    · simp [hl]
    · intro i h1 h2
      simp only [List.getElem_map, List.getElem_zip, List.getElem_zipWith]
      have hi : i < T.length := by omega
      have h0 : ((T[i].length : Nat) : K) ≠ 0 := by
        have := hT _ (List.getElem_mem hi)
        simpa using this
      rw [List.map_const', List.sum_replicate, ← Nat.cast_smul_eq_nsmul K, inv_smul_smul₀ h0]
  · intro i a b _ hb
    rw [List.getElem?_map, Option.map_eq_some_iff] at hb
    obtain ⟨r, hr, rfl⟩ := hb
    have h0 : ((r.length : Nat) : K) ≠ 0 := by
      have := hT _ (List.mem_of_getElem? hr)
      simpa using this
    simp [hr, hT _ (List.mem_of_getElem? hr)]

end

/-! ## a case -/

/-- A triangle and a quadrilateral with two nodes in common, areas 1 and 3. -/
def pullMesh : List PullBlock := [⟨[0], [[0, 1, 2]]⟩, ⟨[1], [[2, 1, 3, 4]]⟩]

example : (∀ b ∈ pullMesh, b.ids.length = b.topo.length) ∧
    (pullMesh.flatMap fun b => b.ids) = List.range (pullMesh.flatMap fun b => b.topo).length := by decide

example : ndf (K := ℚ) (pullMesh.flatMap fun b => b.topo) [1, 3] = some [[1, 1/4, 1/4], [3/4, 3/4, 1, 1]] := by
  decide +kernel

example : (pullMesh.mapM fun b => cellPull (K := ℚ) (M := ℚ) [8, 4, 12, 1, 2] b.topo b.ids
      (.csr [1, 1/4, 1/4, 3/4, 3/4, 1, 1] [0, 3, 7])) =
    some [[[8, 1, 3]], [[9, 3, 1, 2]]] := by decide +kernel

example : homogenize (K := ℚ) (M := ℚ) [[8, 1, 3], [9, 3, 1]] [2, 13] = some [6, 1] := by decide +kernel

/-! ## what fails -/

/-- The factors of a mesh of triangles are a dense array. Handed over to the second block as they are, the rows of the
first block are used: the data of the nodes is not recovered. -/
theorem C97_dense_false :
    ∃ (blocks : List PullBlock) (w : List ℚ) (F : List (List ℚ)) (data : List ℚ) (Es : List (List (List ℚ)))
      (n : Nat) (ps : List (Nat × Nat)),
      (∀ b ∈ blocks, b.ids.length = b.topo.length) ∧
      (blocks.flatMap fun b => b.ids) = List.range (blocks.flatMap fun b => b.topo).length ∧
      ndf (blocks.flatMap fun b => b.topo) w = some F ∧ IsPartition (blocks.flatMap fun b => b.topo) w F ∧
      (blocks.mapM fun b => cellPull data b.topo b.ids (.dense F)) = some Es ∧
      IncidenceList (blocks.flatMap fun b => b.topo) n ps ∧ UsesNode (blocks.flatMap fun b => b.topo) n ∧
      some ((ps.map fun p => (nodeAt Es.flatten p.1 p.2).getD 0).sum) ≠ data[n]? := by
  let T : Topo := [[0, 1, 2], [2, 1, 3]]
  obtain ⟨F, hF, hP⟩ := C24_partition (K := ℚ) (topo := T) (w := [1, 3]) (by decide) (by decide) (by decide) (by simp)
  have hF' : ndf (K := ℚ) T [1, 3] = some [[1, 1/4, 1/4], [3/4, 3/4, 1]] := by decide +kernel
  rw [hF'] at hF
  cases Option.some.inj hF
  refine ⟨[⟨[0], [[0, 1, 2]]⟩, ⟨[1], [[2, 1, 3]]⟩], [1, 3], _, [4, 4, 4, 4], [[[4, 1, 1]], [[4, 1, 1]]], 1, [(0, 1), (1, 1)],
    by decide, by decide, hF', hP, by decide +kernel, incidence_atNode T 1, ⟨[0, 1, 2], by decide, by decide⟩, by decide +kernel⟩

/-- Ids that are not the places of the cells - here those of two blocks that both start from zero, as before
`lock_ids` or renumbering - name the wrong rows. -/
theorem C97_ids_false :
    ∃ (blocks : List PullBlock) (w : List ℚ) (F : List (List ℚ)) (data : List ℚ) (Es : List (List (List ℚ)))
      (n : Nat) (ps : List (Nat × Nat)),
      (∀ b ∈ blocks, b.ids = List.range b.topo.length) ∧
      ndf (blocks.flatMap fun b => b.topo) w = some F ∧ IsPartition (blocks.flatMap fun b => b.topo) w F ∧
      (blocks.mapM fun b => cellPull data b.topo b.ids (.csr F.flatten (rowPtr F))) = some Es ∧
      IncidenceList (blocks.flatMap fun b => b.topo) n ps ∧ UsesNode (blocks.flatMap fun b => b.topo) n ∧
      some ((ps.map fun p => (nodeAt Es.flatten p.1 p.2).getD 0).sum) ≠ data[n]? := by
  let T : Topo := [[0, 1, 2, 3], [2, 1, 4]]
  obtain ⟨F, hF, hP⟩ := C24_partition (K := ℚ) (topo := T) (w := [1, 3]) (by decide) (by decide) (by decide) (by simp)
  have hF' : ndf (K := ℚ) T [1, 3] = some [[1, 1/4, 1/4, 1], [3/4, 3/4, 1]] := by decide +kernel
  rw [hF'] at hF
  cases Option.some.inj hF
  refine ⟨[⟨[0], [[0, 1, 2, 3]]⟩, ⟨[0], [[2, 1, 4]]⟩], [1, 3], _, [4, 4, 4, 4, 4], [[[4, 1, 1, 4]], [[4, 1, 1]]], 1,
    [(0, 1), (1, 1)], by decide, hF', hP, by decide +kernel, incidence_atNode T 1, ⟨[0, 1, 2, 3], by decide, by decide⟩,
    by decide +kernel⟩

end PM
