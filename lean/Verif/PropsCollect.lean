import Verif.PropsFactors

/-!
# C25: distributing and collecting cell data
-/

namespace PM

/-! ## lemmas -/

section
variable {K M : Type} [Field K] [AddCommGroup M] [Module K M]

theorem addW_apply (w : List (Nat × M)) (m : Nat → M) (n : Nat) :
    addW w m n = m n + ((w.filter fun x => x.1 == n).map Prod.snd).sum := by
  unfold addW
  induction w generalizing m with
  | nil => simp
  | cons x w ih =>
    rw [List.foldl_cons, ih, List.filter_cons]
    by_cases h : x.1 = n
    · subst h
      rw [Function.update_self, if_pos (by simp), List.map_cons, List.sum_cons, add_assoc]
    · rw [Function.update_of_ne (Ne.symm h), if_neg (by simpa using h)]

theorem entriesOf_append (a b : Topo) :
    entriesOf (a ++ b) = entriesOf a ++ (entriesOf b).map fun e => ⟨e.cell + a.length, e.pos, e.node⟩ := by
  unfold entriesOf
  rw [List.zipIdx_append, List.flatMap_append, List.map_flatMap]
  congr 1
  rw [Nat.zero_add, List.zipIdx_eq_map_add, List.flatMap_map]
  apply List.flatMap_congr
  intro x _
  rw [List.map_map]
  apply List.map_congr_left
  intro y _
  simp [Nat.add_comm]

theorem nodeAt_append_left {α : Type} {a b : List (List α)} {c j : Nat} (h : c < a.length) :
    nodeAt (a ++ b) c j = nodeAt a c j := by
  rw [nodeAt, nodeAt, List.getElem?_append_left h]

theorem nodeAt_append_right {α : Type} {a b : List (List α)} {c j : Nat} :
    nodeAt (a ++ b) (c + a.length) j = nodeAt b c j := by
  rw [nodeAt, nodeAt, List.getElem?_append_right (by omega), Nat.add_sub_cancel]

theorem mapM_congr' {α β : Type} {l : List α} {f g : α → Option β} (h : ∀ x ∈ l, f x = g x) : l.mapM f = l.mapM g := by
  induction l with
  | nil => rfl
  | cons a l ih =>
    rw [List.mapM_cons, List.mapM_cons, h a List.mem_cons_self, ih fun x hx => h x (List.mem_cons_of_mem _ hx)]

theorem mapM_map' {α β γ : Type} (l : List α) (f : α → β) (g : β → Option γ) :
    (l.map f).mapM g = l.mapM fun x => g (f x) := by
  induction l with
  | nil => rfl
  | cons a l ih => rw [List.map_cons, List.mapM_cons, List.mapM_cons, ih]

/-- Shapes of the arrays of a block agree. -/
structure BlockOK (b : CBlock M) : Prop where
  ids : b.ids.length = b.topo.length
  data : b.data.map List.length = b.topo.map List.length

omit [AddCommGroup M] in
theorem BlockOK.len {b : CBlock M} (h : BlockOK b) : b.data.length = b.topo.length := by
  simpa using congrArg List.length h.data

theorem collectW_append {b : CBlock M} (h : BlockOK b) (D : List (List M)) (T : Topo) (ids : List Nat)
    (F : List (List K)) :
    collectW (b.data ++ D) (b.topo ++ T) (b.ids ++ ids) F =
      (collectW b.data b.topo b.ids F) >>= fun x => (collectW D T ids F).map fun y => x ++ y := by
  unfold collectW
  rw [entriesOf_append, List.mapM_append, mapM_map']
  rw [mapM_congr' (l := entriesOf b.topo) (g := fun e => b.ids[e.cell]? >>= fun c => nodeAt F c e.pos >>= fun f =>
    (nodeAt b.data e.cell e.pos).map fun v => (e.node, f • v))]
  · rw [mapM_congr' (l := entriesOf T) (g := fun e => ids[e.cell]? >>= fun c => nodeAt F c e.pos >>= fun f =>
      (nodeAt D e.cell e.pos).map fun v => (e.node, f • v))]
    · generalize List.mapM (m := Option) _ (entriesOf b.topo) = u
      generalize List.mapM (m := Option) _ (entriesOf T) = v
      cases u with
      | none => rfl
      | some x => cases v <;> rfl
    · intro e _
      dsimp only
      rw [List.getElem?_append_right (by rw [h.ids]; omega), h.ids, Nat.add_sub_cancel]
      rw [← h.len, nodeAt_append_right]
  · intro e he
    have hc := cell_lt_of_mem_entriesOf he
    rw [List.getElem?_append_left (by rw [h.ids]; exact hc), nodeAt_append_left (by rw [h.len]; exact hc)]

/-- Collecting block by block is collecting from the stacked arrays. -/
theorem pullW_eq {blocks : List (CBlock M)} (h : ∀ b ∈ blocks, BlockOK b) (F : List (List K)) :
    pullW blocks F = collectW (blocks.flatMap fun b => b.data) (blocks.flatMap fun b => b.topo)
      (blocks.flatMap fun b => b.ids) F := by
  induction blocks with
  | nil => rfl
  | cons b bs ih =>
    rw [List.flatMap_cons, List.flatMap_cons, List.flatMap_cons, collectW_append (h b List.mem_cons_self),
      ← ih fun x hx => h x (List.mem_cons_of_mem _ hx)]
    unfold pullW
    rw [List.mapM_cons]
    cases collectW b.data b.topo b.ids F with
    | none => rfl
    | some x =>
      generalize List.mapM (m := Option) _ bs = v
      cases v <;> rfl

end

/-! ## the property -/

section
variable {K M : Type} [Field K] [AddCommGroup M] [Module K M]

/-- The topology, the data and the ids of all blocks, stacked. -/
def allTopo (blocks : List (CBlock M)) : Topo := blocks.flatMap fun b => b.topo
def allData (blocks : List (CBlock M)) : List (List M) := blocks.flatMap fun b => b.data
def allIds (blocks : List (CBlock M)) : List Nat := blocks.flatMap fun b => b.ids

/-- `R` holds for each of the `nP` points the sum of the data `D` at its places in the cells, multiplied by the
factors `f` of these places. -/
def IsWeightedSum (T : Topo) (f : Nat → Nat → K) (D : List (List M)) (nP : Nat) (R : List M) : Prop :=
  R.length = nP ∧ ∀ n ps, n < nP → IncidenceList T n ps →
    R[n]? = some ((ps.map fun p => f p.1 p.2 • (nodeAt D p.1 p.2).getD 0).sum)

/-- The additions may be made in any order (the loop over the nodes of a cell is parallel). -/
theorem C25_order {w w' : List (Nat × M)} (h : w.Perm w') (m : Nat → M) : addW w' m = addW w m := by
  funext n
  rw [addW_apply, addW_apply]
  congr 1
  exact ((h.filter _).map _).sum_eq.symm

/-- **C25** what `PointData.pull` computes, for arbitrary factors and ids. -/
theorem C25_pull {blocks : List (CBlock M)} (hne : blocks ≠ []) (hb : ∀ b ∈ blocks, BlockOK b) {nP : Nat}
    (hin : ∀ n, UsesNode (allTopo blocks) n → n < nP) {F : List (List K)} {f : Nat → Nat → K}
    (hf : ∀ c j n, nodeAt (allTopo blocks) c j = some n →
      ∃ id, (allIds blocks)[c]? = some id ∧ nodeAt F id j = some (f c j)) :
    ∃ R, pullPoints nP blocks F = some R ∧ IsWeightedSum (allTopo blocks) f (allData blocks) nP R := by
  have hshape : (allData blocks).map List.length = (allTopo blocks).map List.length := by
    unfold allData allTopo
    rw [List.map_flatMap, List.map_flatMap]
    exact List.flatMap_congr fun b h => (hb b h).data
  have hD : ∀ c j n, nodeAt (allTopo blocks) c j = some n → ∃ v, nodeAt (allData blocks) c j = some v := by
    intro c j n h
    rw [nodeAt] at h ⊢
    cases ht : (allTopo blocks)[c]? with
    | none => rw [ht] at h; cases h
    | some r =>
      rw [ht] at h
      change r[j]? = some n at h
      have hj := (List.getElem?_eq_some_iff.1 h).1
      have hl := congrArg (fun l : List Nat => l[c]?) hshape
      simp only [List.getElem?_map, ht, Option.map_some] at hl
      obtain ⟨d, hd, hdl⟩ := Option.map_eq_some_iff.1 hl
      rw [hd]
      have hjd : j < d.length := by omega
      exact ⟨d[j], List.getElem?_eq_getElem hjd⟩
  set w := (entriesOf (allTopo blocks)).map fun e =>
    (e.node, f e.cell e.pos • (nodeAt (allData blocks) e.cell e.pos).getD 0) with hw
  have h1 : pullW blocks F = some w := by
    rw [pullW_eq hb]
    apply mapM_some
    intro e he
    have hn := mem_entriesOf.1 he
    obtain ⟨id, h1, h2⟩ := hf _ _ _ hn
    obtain ⟨v, h3⟩ := hD _ _ _ hn
    change ((allIds blocks)[e.cell]? >>= fun c => nodeAt F c e.pos >>= fun f =>
      (nodeAt (allData blocks) e.cell e.pos).map fun v => (e.node, f • v)) = _
    rw [h1]
    change (nodeAt F id e.pos >>= _) = _
    rw [h2, h3]
    rfl
  have h2 : ∀ x ∈ w, x.1 < nP := by
    intro x hx
    obtain ⟨e, he, rfl⟩ := List.mem_map.1 hx
    apply hin
    have := mem_flatten_of_nodeAt (mem_entriesOf.1 he)
    rw [List.mem_flatten] at this
    exact this
  refine ⟨toArr nP (addW w fun _ => 0), ?_, by simp, ?_⟩
  · rw [pullPoints, h1]
    exact if_neg (by rintro (h | h); exacts [hne h, h h2])
  · intro n ps hn hps
    rw [toArr_getElem? _ hn, addW_apply, zero_add, hps.unique, hw, List.filter_map, List.map_map, List.map_map]
    rfl

end

section
variable {K M : Type} [Field K] [LinearOrder K] [IsStrictOrderedRing K] [AddCommGroup M] [Module K M]

/-- **C25** `PointData.pull` with the default factors, when the ids of the cells are `0, 1, 2, ...` in the order of
the blocks: the weighted sum with factors that are a partition of one at each node (C24). -/
theorem C25_pull_default_partial {blocks : List (CBlock M)} (hb : ∀ b ∈ blocks, BlockOK b)
    (hid : allIds blocks = List.range (allTopo blocks).length) {nP : Nat}
    (hin : ∀ n, UsesNode (allTopo blocks) n → n < nP) {w : List K} (hl : w.length = (allTopo blocks).length)
    (hne : (allTopo blocks).flatten ≠ []) (hnd : ∀ r ∈ allTopo blocks, r.Nodup) (hw : ∀ x ∈ w, 0 < x) :
    ∃ F R, pullDefault nP blocks w = some R ∧ IsPartition (allTopo blocks) w F ∧
      IsWeightedSum (allTopo blocks) (fun c j => (nodeAt F c j).getD 0) (allData blocks) nP R := by
  obtain ⟨F, hF, hP⟩ := C24_partition hl hne hnd hw
  have hF' : F = List.zipWith (fun row wi => row.map fun n => wi / nodalW (allTopo blocks) w n) (allTopo blocks) w := by
    rw [ndf, if_neg (by rintro (h | h); exacts [hne h, by omega])] at hF
    exact (Option.some.inj hF).symm
  have hbl : blocks ≠ [] := by rintro rfl; exact hne rfl
  obtain ⟨R, h1, h2⟩ := C25_pull hbl hb hin (F := F) (f := fun c j => (nodeAt F c j).getD 0) (by
    intro c j n h
    have hc : c < (allTopo blocks).length := by
      by_contra hc
      rw [nodeAt, List.getElem?_eq_none (by omega)] at h; cases h
    refine ⟨c, by rw [hid, List.getElem?_range hc], ?_⟩
    rw [hF', ndf_get hl h]; rfl)
  refine ⟨F, R, ?_, hP, h2⟩
  rw [pullDefault, show (blocks.flatMap fun b => b.topo) = allTopo blocks from rfl, hF]
  exact h1

omit [LinearOrder K] [IsStrictOrderedRing K] in
theorem sum_smul_const {β : Type} (l : List β) (f : β → K) (v : M) : (l.map fun x => f x • v).sum = (l.map f).sum • v := by
  induction l with
  | nil => simp
  | cons a l ih => simp only [List.map_cons, List.sum_cons, ih, add_smul]

omit [IsStrictOrderedRing K] in
/-- **C25** a node at all of whose places the same value `v` is found gets `v`; in particular constant fields are
reproduced. A point that belongs to no cell gets zero. -/
theorem C25_constant {T : Topo} {w : List K} {F : List (List K)} (hP : IsPartition T w F) {D : List (List M)}
    {nP : Nat} {R : List M} (hR : IsWeightedSum T (fun c j => (nodeAt F c j).getD 0) D nP R) {n : Nat} (hn : n < nP) :
    (∀ v, UsesNode T n → (∀ c j, nodeAt T c j = some n → nodeAt D c j = some v) → R[n]? = some v) ∧
    (¬ UsesNode T n → R[n]? = some 0) := by
  have hps := incidence_atNode T n
  set ps := (atNode (entriesOf T) n).map fun e => (e.cell, e.pos) with hpsd
  have h1 := hR.2 n ps hn hps
  constructor
  · rintro v ⟨r, hr, hnr⟩ hv
    obtain ⟨c, j, h⟩ := exists_nodeAt_of_mem (List.mem_flatten.2 ⟨r, hr, hnr⟩)
    have hne : ps ≠ [] := List.ne_nil_of_mem ((hps.exact c j).2 h)
    rw [h1]
    congr 1
    have : (ps.map fun p => (nodeAt F p.1 p.2).getD 0 • (nodeAt D p.1 p.2).getD 0) =
        ps.map fun p => (nodeAt F p.1 p.2).getD 0 • v := by
      apply List.map_congr_left
      intro p hp
      rw [hv p.1 p.2 ((hps.exact p.1 p.2).1 hp)]; rfl
    rw [this, sum_smul_const, hP.sum_one n ps hps hne, one_smul]
  · intro hu
    have : ps = [] := by
      rw [List.eq_nil_iff_forall_not_mem]
      rintro ⟨c, j⟩ hp
      have := mem_flatten_of_nodeAt ((hps.exact c j).1 hp)
      rw [List.mem_flatten] at this
      exact hu this
    rw [h1, this]; rfl

/-- **C25** the value at a node is between the smallest and the largest contribution to it. -/
theorem C25_bounds {T : Topo} {w : List K} {F : List (List K)} (hP : IsPartition T w F) {D : List (List K)}
    {nP : Nat} {R : List K} (hR : IsWeightedSum T (fun c j => (nodeAt F c j).getD 0) D nP R) {n : Nat} (hn : n < nP)
    (hu : UsesNode T n) {lo hi : K}
    (hD : ∀ c j, nodeAt T c j = some n → ∃ v, nodeAt D c j = some v ∧ lo ≤ v ∧ v ≤ hi) :
    ∃ v, R[n]? = some v ∧ lo ≤ v ∧ v ≤ hi := by
  have hps := incidence_atNode T n
  set ps := (atNode (entriesOf T) n).map fun e => (e.cell, e.pos) with hpsd
  refine ⟨_, hR.2 n ps hn hps, ?_⟩
  obtain ⟨r, hr, hnr⟩ := hu
  obtain ⟨c, j, h⟩ := exists_nodeAt_of_mem (List.mem_flatten.2 ⟨r, hr, hnr⟩)
  have hne : ps ≠ [] := List.ne_nil_of_mem ((hps.exact c j).2 h)
  have h1 := hP.sum_one n ps hps hne
  have hfpos : ∀ c j, 0 ≤ (nodeAt F c j).getD 0 := by
    intro c j
    cases hF : nodeAt F c j with
    | none => simp
    | some x =>
      rw [nodeAt] at hF
      cases hc : F[c]? with
      | none => rw [hc] at hF; cases hF
      | some r =>
        rw [hc] at hF
        change r[j]? = some x at hF
        exact (hP.pos r (List.mem_of_getElem? hc) x (List.mem_of_getElem? hF)).1.le
  have key : ∀ qs : List (Nat × Nat), (∀ q ∈ qs, q ∈ ps) →
      lo * (qs.map fun p => (nodeAt F p.1 p.2).getD 0).sum ≤
        (qs.map fun p => (nodeAt F p.1 p.2).getD 0 • (nodeAt D p.1 p.2).getD 0).sum ∧
      (qs.map fun p => (nodeAt F p.1 p.2).getD 0 • (nodeAt D p.1 p.2).getD 0).sum ≤
        hi * (qs.map fun p => (nodeAt F p.1 p.2).getD 0).sum := by
    intro qs hq
    induction qs with
    | nil => simp
    | cons q qs ih =>
      obtain ⟨i1, i2⟩ := ih fun x hx => hq x (List.mem_cons_of_mem _ hx)
      obtain ⟨v, hv, h3, h4⟩ := hD q.1 q.2 ((hps.exact q.1 q.2).1 (hq q List.mem_cons_self))
      have h5 := hfpos q.1 q.2
      simp only [smul_eq_mul] at i1 i2
      simp only [List.map_cons, List.sum_cons, mul_add, hv, Option.getD_some, smul_eq_mul]
      constructor
      · have := mul_le_mul_of_nonneg_left h3 h5; linarith [mul_comm lo ((nodeAt F q.1 q.2).getD 0)]
      · have := mul_le_mul_of_nonneg_left h4 h5; linarith [mul_comm hi ((nodeAt F q.1 q.2).getD 0)]
  have := key ps fun _ h => h
  rw [h1, mul_one, mul_one] at this
  exact this

omit [LinearOrder K] [IsStrictOrderedRing K] [Module K M] [Field K] in
/-- Summing over the places node by node. -/
theorem sum_by_node (es : List Entry) (g : Entry → M) {nP : Nat} (h : ∀ e ∈ es, e.node < nP) :
    ((List.range nP).map fun n => ((atNode es n).map g).sum).sum = (es.map g).sum := by
  induction es with
  | nil => simp [atNode]
  | cons e es ih =>
    have hlt := h e List.mem_cons_self
    have h0 := ih fun x hx => h x (List.mem_cons_of_mem _ hx)
    rw [List.map_cons, List.sum_cons, ← h0]
    have hstep : ∀ n, ((atNode (e :: es) n).map g).sum = (if e.node = n then g e else 0) + ((atNode es n).map g).sum := by
      intro n
      unfold atNode
      rw [List.filter_cons]
      by_cases hn : e.node = n
      · rw [if_pos (by simpa using hn), if_pos hn, List.map_cons, List.sum_cons]
      · rw [if_neg (by simpa using hn), if_neg hn, zero_add]
    rw [List.map_congr_left fun n _ => hstep n, List.sum_map_add]
    congr 1
    have : ∀ k, e.node < k → ((List.range k).map fun n => if e.node = n then g e else 0).sum = g e := by
      intro k
      induction k with
      | zero => intro h; omega
      | succ k ihk =>
        intro hk
        rw [List.range_succ, List.map_append, List.sum_append]
        by_cases he : e.node = k
        · have hz : ((List.range k).map fun n => if e.node = n then g e else 0).sum = 0 := by
            apply List.sum_eq_zero
            intro x hx
            obtain ⟨n, hn, rfl⟩ := List.mem_map.1 hx
            rw [if_neg]
            have := List.mem_range.1 hn
            omega
          rw [hz]; simp [he]
        · rw [ihk (by omega)]; simp [he]
    exact this nP hlt

omit [LinearOrder K] [IsStrictOrderedRing K] in
/-- **C25** totals: the sum over all nodes of the collected data is the sum of all weighted contributions. -/
theorem C25_totals {T : Topo} {f : Nat → Nat → K} {D : List (List M)} {nP : Nat} {R : List M}
    (hR : IsWeightedSum T f D nP R) (hin : ∀ n, UsesNode T n → n < nP) :
    R.sum = ((entriesOf T).map fun e => f e.cell e.pos • (nodeAt D e.cell e.pos).getD 0).sum := by
  have hmem : ∀ e ∈ entriesOf T, e.node < nP := by
    intro e he
    apply hin
    have := mem_flatten_of_nodeAt (mem_entriesOf.1 he)
    rw [List.mem_flatten] at this
    exact this
  rw [← sum_by_node _ _ hmem]
  congr 1
  apply List.ext_getElem?
  intro n
  by_cases hn : n < nP
  · rw [hR.2 n _ hn (incidence_atNode T n), List.getElem?_map, List.getElem?_range hn, List.map_map]
    rfl
  · rw [List.getElem?_eq_none (by rw [hR.1]; omega), List.getElem?_eq_none (by simp; omega)]

omit [LinearOrder K] [IsStrictOrderedRing K] in
theorem distribute_closed {data : List M} {T : Topo} {F : List (List K)} (hin : ∀ n, UsesNode T n → n < data.length)
    (hF : ∀ c j n, nodeAt T c j = some n → ∃ f, nodeAt F c j = some f) :
    ∃ E, distribute data T F = some E ∧ E.map List.length = T.map List.length ∧
      ∀ c j n, nodeAt T c j = some n → nodeAt E c j = some ((nodeAt F c j).getD 0 • data.getD n 0) := by
  have hrow : ∀ x ∈ T.zipIdx, (x.1.zipIdx.mapM fun y => data[y.1]? >>= fun v => (nodeAt F x.2 y.2).map fun f => f • v) =
      some (x.1.zipIdx.map fun y => (nodeAt F x.2 y.2).getD 0 • data.getD y.1 0) := by
    intro x hx
    apply mapM_some
    intro y hy
    have h1 : T[x.2]? = some x.1 := by
      obtain ⟨a, b⟩ := x; exact List.mem_zipIdx_iff_getElem?.1 hx
    have h2 : x.1[y.2]? = some y.1 := by
      obtain ⟨a, b⟩ := y; exact List.mem_zipIdx_iff_getElem?.1 hy
    have h3 : nodeAt T x.2 y.2 = some y.1 := by rw [nodeAt, h1]; exact h2
    have h4 : y.1 < data.length := hin _ ⟨x.1, List.mem_of_getElem? h1, List.mem_of_getElem? h2⟩
    obtain ⟨f, h5⟩ := hF _ _ _ h3
    rw [List.getElem?_eq_getElem h4, h5, List.getD_eq_getElem?_getD, List.getElem?_eq_getElem h4]
    rfl
  refine ⟨T.zipIdx.map fun x => x.1.zipIdx.map fun y => (nodeAt F x.2 y.2).getD 0 • data.getD y.1 0, ?_, ?_, ?_⟩
  · exact mapM_some hrow
  · apply List.ext_getElem
    · simp
    · intro i h1 h2; simp
  · intro c j n h
    rw [nodeAt] at h
    cases ht : T[c]? with
    | none => rw [ht] at h; cases h
    | some r =>
      rw [ht] at h
      change r[j]? = some n at h
      rw [nodeAt, List.getElem?_map, List.getElem?_zipIdx, ht]
      change (List.map _ (List.zipIdx r))[j]? = _
      rw [List.getElem?_map, List.getElem?_zipIdx, h]
      simp

omit [IsStrictOrderedRing K] in
/-- **C25** distributing nodal data with the factors: the parts of the cells at a node add up to the value at the
node, so the distribution conserves the total over the nodes used. -/
theorem C25_distribute {T : Topo} {w : List K} {F : List (List K)} (hP : IsPartition T w F) {data : List M}
    (hin : ∀ n, UsesNode T n → n < data.length) :
    ∃ E, distribute data T F = some E ∧
      (∀ n ps, UsesNode T n → IncidenceList T n ps →
        some ((ps.map fun p => (nodeAt E p.1 p.2).getD 0).sum) = data[n]?) ∧
      ((entriesOf T).map fun e => (nodeAt E e.cell e.pos).getD 0).sum =
        (((List.range data.length).filter fun n => n ∈ T.flatten).map fun n => data.getD n 0).sum := by
  have hF : ∀ c j n, nodeAt T c j = some n → ∃ f, nodeAt F c j = some f := by
    intro c j n h
    rw [nodeAt] at h ⊢
    cases ht : T[c]? with
    | none => rw [ht] at h; cases h
    | some r =>
      rw [ht] at h
      change r[j]? = some n at h
      have hj := (List.getElem?_eq_some_iff.1 h).1
      have hl := congrArg (fun l : List Nat => l[c]?) hP.shape
      simp only [List.getElem?_map, ht, Option.map_some] at hl
      obtain ⟨d, hd, hdl⟩ := Option.map_eq_some_iff.1 hl
      rw [hd]
      have hjd : j < d.length := by omega
      exact ⟨d[j], List.getElem?_eq_getElem hjd⟩
  obtain ⟨E, hE, hs, hv⟩ := distribute_closed hin hF
  have hnode : ∀ n, UsesNode T n → ((atNode (entriesOf T) n).map fun e => (nodeAt E e.cell e.pos).getD 0).sum = data.getD n 0 := by
    intro n hu
    have hps := incidence_atNode T n
    have hc : ((atNode (entriesOf T) n).map fun e => (nodeAt E e.cell e.pos).getD 0) =
        (atNode (entriesOf T) n).map fun e => (nodeAt F e.cell e.pos).getD 0 • data.getD n 0 := by
      apply List.map_congr_left
      intro e he
      have h1 := List.mem_filter.1 he
      have h2 := mem_entriesOf.1 h1.1
      have h3 : e.node = n := by simpa using h1.2
      rw [h3] at h2
      rw [hv _ _ _ h2]; rfl
    rw [hc, sum_smul_const]
    have hne : ((atNode (entriesOf T) n).map fun e => (e.cell, e.pos)) ≠ [] := by
      obtain ⟨r, hr, hnr⟩ := hu
      obtain ⟨c, j, h⟩ := exists_nodeAt_of_mem (List.mem_flatten.2 ⟨r, hr, hnr⟩)
      exact List.ne_nil_of_mem ((hps.exact c j).2 h)
    have := hP.sum_one n _ hps hne
    rw [List.map_map] at this
    change ((atNode (entriesOf T) n).map fun e => (nodeAt F e.cell e.pos).getD 0).sum = 1 at this
    rw [this, one_smul]
  refine ⟨E, hE, ?_, ?_⟩
  · intro n ps hu hps
    rw [hps.unique, List.map_map]
    change some ((atNode (entriesOf T) n).map fun e => (nodeAt E e.cell e.pos).getD 0).sum = _
    have hn := hin n hu
    rw [hnode n hu, List.getD_eq_getElem?_getD, List.getElem?_eq_getElem hn]
    rfl
  · have hmem : ∀ e ∈ entriesOf T, e.node < data.length := by
      intro e he
      apply hin
      have := mem_flatten_of_nodeAt (mem_entriesOf.1 he)
      rw [List.mem_flatten] at this
      exact this
    rw [← sum_by_node _ _ hmem]
    have : ∀ k, ((List.range k).map fun n => ((atNode (entriesOf T) n).map fun e => (nodeAt E e.cell e.pos).getD 0).sum).sum =
        (((List.range k).filter fun n => n ∈ T.flatten).map fun n => data.getD n 0).sum := by
      intro k
      induction k with
      | zero => rfl
      | succ k ih =>
        rw [List.range_succ, List.map_append, List.sum_append, List.filter_append, List.map_append, List.sum_append, ih]
        congr 1
        by_cases hk : k ∈ T.flatten
        · simp only [List.map_cons, List.map_nil, List.sum_cons, List.sum_nil, add_zero, List.filter_cons,
            List.filter_nil, hk, decide_true, if_true]
          exact hnode k (List.mem_flatten.1 hk)
        · have hnil : atNode (entriesOf T) k = [] := by
            rw [List.eq_nil_iff_forall_not_mem]
            intro e he
            have h1 := List.mem_filter.1 he
            have h3 : e.node = k := by simpa using h1.2
            exact hk (h3 ▸ mem_flatten_of_nodeAt (mem_entriesOf.1 h1.1))
          have hf : (List.filter (fun n => decide (n ∈ T.flatten)) [k]) = [] := by
            rw [List.filter_cons, if_neg (by simpa using hk)]; rfl
          rw [hf, List.map_cons, hnil]; simp
    exact this _

/-- **C25** round trip: nodal data pulled to the cells (`CellData.pull`) and pulled back to the points
(`PointData.pull`) are unchanged at every node that belongs to a cell. -/
theorem C25_round_trip_partial {blocks : List (CBlock M)} {data : List M} (hb : ∀ b ∈ blocks, b.ids.length = b.topo.length)
    (hE : ∀ b ∈ blocks, pullCells (K := K) data b.topo = some b.data)
    (hid : allIds blocks = List.range (allTopo blocks).length)
    (hin : ∀ n, UsesNode (allTopo blocks) n → n < data.length) {w : List K}
    (hl : w.length = (allTopo blocks).length) (hne : (allTopo blocks).flatten ≠ [])
    (hnd : ∀ r ∈ allTopo blocks, r.Nodup) (hw : ∀ x ∈ w, 0 < x) :
    ∃ R, pullDefault data.length blocks w = some R ∧ R.length = data.length ∧
      ∀ n, UsesNode (allTopo blocks) n → R[n]? = data[n]? := by
  have hblk : ∀ b ∈ blocks, b.data.map List.length = b.topo.map List.length ∧
      ∀ c j n, nodeAt b.topo c j = some n → nodeAt b.data c j = some (data.getD n 0) := by
    intro b hbm
    have hone : ∀ c j n, nodeAt b.topo c j = some n → nodeAt (b.topo.map (List.map fun _ => (1 : K))) c j = some 1 := by
      intro c j n h
      rw [nodeAt] at h ⊢
      rw [List.getElem?_map]
      cases ht : b.topo[c]? with
      | none => rw [ht] at h; cases h
      | some r =>
        rw [ht] at h
        change r[j]? = some n at h
        change (r.map _)[j]? = _
        rw [List.getElem?_map, h]; rfl
    obtain ⟨E, h1, h2, h3⟩ := distribute_closed (K := K) (data := data) (T := b.topo)
      (F := b.topo.map (List.map fun _ => (1 : K)))
      (by
        rintro n ⟨r, hr, hn⟩
        exact hin n ⟨r, List.mem_flatMap.2 ⟨b, hbm, hr⟩, hn⟩)
      (fun c j n h => ⟨1, hone c j n h⟩)
    have : E = b.data := by
      have := hE b hbm
      rw [pullCells, h1] at this
      exact Option.some.inj this
    subst this
    refine ⟨h2, ?_⟩
    intro c j n h
    rw [h3 c j n h, hone c j n h]
    simp
  have hok : ∀ b ∈ blocks, BlockOK b := fun b h => ⟨hb b h, (hblk b h).1⟩
  obtain ⟨F, R, h1, h2, h3⟩ := C25_pull_default_partial hok hid hin hl hne hnd hw
  refine ⟨R, h1, h3.1, ?_⟩
  intro n hu
  have hn := hin n hu
  have hD : ∀ bs : List (CBlock M), (∀ b ∈ bs, b ∈ blocks) → ∀ c j n, nodeAt (allTopo bs) c j = some n →
      nodeAt (allData bs) c j = some (data.getD n 0) := by
    intro bs hbs
    induction bs with
    | nil => intro c j n h; simp [allTopo, nodeAt] at h
    | cons b bs ih =>
      intro c j n h
      have hbm := hbs b List.mem_cons_self
      have e1 : allTopo (b :: bs) = b.topo ++ allTopo bs := rfl
      have e2 : allData (b :: bs) = b.data ++ allData bs := rfl
      rw [e1] at h
      rw [e2]
      have hlen := (hok b hbm).len
      by_cases hc : c < b.topo.length
      · rw [nodeAt_append_left hc] at h
        rw [nodeAt_append_left (by omega)]
        exact (hblk b hbm).2 c j n h
      · obtain ⟨k, rfl⟩ : ∃ k, c = k + b.topo.length := ⟨c - b.topo.length, by omega⟩
        rw [nodeAt_append_right] at h
        rw [← hlen, nodeAt_append_right]
        exact ih (fun x hx => hbs x (List.mem_cons_of_mem _ hx)) k j n h
  rw [(C25_constant h2 h3 hn).1 (data.getD n 0) hu (hD blocks (fun _ h => h) · · n),
    List.getD_eq_getElem?_getD, List.getElem?_eq_getElem hn]
  rfl

/-- Two blocks: a line and two lines, with weights 1, 3, 2. -/
example : pullDefault (K := ℚ) (M := ℚ) 4 [⟨[0], [[0, 1]], [[5, 5]]⟩, ⟨[1, 2], [[1, 2], [2, 0]], [[1, 1], [2, 2]]⟩]
    [1, 3, 2] = some [3, 2, 7/5, 0] := by decide +kernel

/-- **C25** is false when data are distributed *and* collected with the same factors: the result is the datum times
the sum of the squares of the factors. -/
theorem C25_same_factors_false :
    ∃ (T : Topo) (w : List ℚ) (F : List (List ℚ)) (data : List ℚ) (E : List (List ℚ)) (R : List ℚ),
      ndf T w = some F ∧ IsPartition T w F ∧ distribute data T F = some E ∧
      pullPoints 3 [⟨[0, 1], T, E⟩] F = some R ∧ R ≠ data := by
  have hl : ([1, 1] : List ℚ).length = ([[0, 1], [1, 2]] : Topo).length := rfl
  refine ⟨[[0, 1], [1, 2]], [1, 1], [[1, 1/2], [1/2, 1]], [1, 1, 1], [[1, 1/2], [1/2, 1]], [1, 1/2, 1],
    by decide +kernel, ?_, by decide +kernel, by decide +kernel, by decide +kernel⟩
  obtain ⟨F, h1, h2⟩ := C24_partition hl (by decide) (by decide) (by simp)
  have : F = [[1, 1/2], [1/2, 1]] := by
    have e : ndf ([[0, 1], [1, 2]] : Topo) ([1, 1] : List ℚ) = some [[1, 1/2], [1/2, 1]] := by decide +kernel
    rw [e] at h1
    exact (Option.some.inj h1).symm
  exact this ▸ h2

/-- **C25** fails when the ids of the cells are not their positions in the walk over the blocks: the factors are
stacked in the order of the blocks but looked up by id. With the ids of two equal cells' blocks exchanged a constant
field is not reproduced; with the first of two blocks deleted (the ids of the other start at 1) the look-up runs out
of the factors. -/
theorem C25_ids_false :
    (pullDefault (K := ℚ) (M := ℚ) 3 [⟨[1], [[0, 1]], [[1, 1]]⟩, ⟨[0], [[1, 2]], [[1, 1]]⟩] [1, 3] ≠ some [1, 1, 1]) ∧
    pullDefault (K := ℚ) (M := ℚ) 2 [⟨[1], [[0, 1]], [[1, 1]]⟩] [1] = none := by decide +kernel

end

end PM
