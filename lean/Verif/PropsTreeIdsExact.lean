import Verif.PropsIds
import Verif.PropsStateExact

/-!
# C40: exactly when blocks that are added lead to cells with equal ids
-/

namespace PM

/-- Only blocks without blocks beneath them are deleted. -/
def DeletesLeaves (t : CTree) : List TreeOp → Prop
  | [] => True
  | .del path :: ops => (∀ b ∈ t.blocks, path.isPrefixOf b.path = true → b.path = path) ∧ DeletesLeaves (TreeOp.step t (.del path)) ops
  | op :: ops => DeletesLeaves (TreeOp.step t op) ops

theorem allIds_add (t : CTree) (path : List Nat) (n : Nat) :
    CTree.allIds (TreeOp.step t (.add path n)) = t.allIds ++ (t.m.generate n).1 := by
  simp [CTree.allIds, TreeOp.step]

theorem tree_run {ops : List TreeOp} {t : CTree} (hi : TreeInv t) (h : SingleOps t ops) : TreeInv (ops.foldl TreeOp.step t) := by
  induction ops generalizing t with
  | nil => exact hi
  | cons op ops ih =>
    rw [List.foldl_cons]
    cases op with
    | add path n =>
      rw [SingleOps] at h
      exact ih (tree_add_inv hi h.1 h.2.1) h.2.2
    | del path =>
      rw [SingleOps] at h
      exact ih (tree_del_inv hi path) h
    | graft path n ns => exact absurd h (by simp [SingleOps])

theorem tree_full {ops : List TreeOp} {t : CTree} (hi : TreeInv t) (hf : IdFull ⟨t.m, t.allIds⟩) (h : SingleOps t ops) (hd : DeletesLeaves t ops) :
    IdFull ⟨(ops.foldl TreeOp.step t).m, (ops.foldl TreeOp.step t).allIds⟩ := by
  induction ops generalizing t with
  | nil => exact hf
  | cons op ops ih =>
    rw [List.foldl_cons]
    cases op with
    | add path n =>
      rw [SingleOps] at h
      refine ih (tree_add_inv hi h.1 h.2.1) ?_ h.2.2 hd
      rw [allIds_add]
      exact gen_full hf h.2.1
    | del path =>
      rw [SingleOps] at h
      refine ih (tree_del_inv hi path) ?_ h hd.2
      have hleaf := hd.1
      obtain ⟨f0, f1, f2⟩ := hf
      have hl : ∀ i, i ∈ (TreeOp.step t (.del path)).allIds → i ∈ t.allIds := by
        intro i hi'
        exact (sublist_flatMap List.filter_sublist _).subset hi'
      refine ⟨f0, ?_, ?_⟩
      · intro i a b
        rcases List.mem_append.1 (f1 i a b) with q | q
        · obtain ⟨c, hc, hic⟩ := List.mem_flatMap.1 q
          by_cases hp : path.isPrefixOf c.path = true
          · refine List.mem_append_right _ (List.mem_append_right _ (List.mem_flatMap.2 ⟨c, ?_, hic⟩))
            exact List.mem_filter.2 ⟨hc, by simpa using hleaf c hc hp⟩
          · exact List.mem_append_left _ (List.mem_flatMap.2 ⟨c, List.mem_filter.2 ⟨hc, by rw [Bool.eq_false_of_not_eq_true hp]; rfl⟩, hic⟩)
        · exact List.mem_append_right _ (List.mem_append_left _ q)
      · intro i hi'
        rcases List.mem_append.1 hi' with q | q
        · exact f2 i (List.mem_append_left _ (hl i q))
        · rcases List.mem_append.1 q with q | q
          · exact f2 i (List.mem_append_right _ q)
          · obtain ⟨c, hc, hic⟩ := List.mem_flatMap.1 q
            exact f2 i (List.mem_append_left _ (List.mem_flatMap.2 ⟨c, (List.mem_filter.1 hc).1, hic⟩))
    | graft path n ns => exact absurd h (by simp [SingleOps])

theorem fresh_path (l : List (List Nat)) : ∃ p, p ∉ l := by
  obtain ⟨p, hp⟩ := Infinite.exists_notMem_finset l.toFinset
  exact ⟨p, by simpa using hp⟩

/-- **C40** after blocks were added without short requests and blocks without blocks beneath them were deleted, a block of `n` cells can be added
without cells ever getting equal ids from further blocks added in the same way, if and only if `n` is one or not below the number of queued ids. Every
smaller block leads to cells with equal ids. -/
theorem C40_add_exact {ops : List TreeOp} (hs : SingleOps {} ops) (hd : DeletesLeaves {} ops) {path : List Nat}
    (hp : path ∉ (runTree ops).blocks.map IdBlock.path) (n : Nat) :
    (n = 1 ∨ (runTree ops).m.queue.length ≤ n) ↔
      ∀ post, SingleOps (runTree (ops ++ [.add path n])) post → (runTree (ops ++ .add path n :: post)).allIds.Nodup := by
  have h0 : TreeInv ({} : CTree) := ⟨by simp [CTree.allIds], by simp [CTree.allIds], by simp⟩
  have hi := tree_run h0 hs
  have hf := tree_full h0 ⟨by simp, fun i a b => absurd a (not_le.2 b), by simp [CTree.allIds]⟩ hs hd
  have e1 : runTree (ops ++ [.add path n]) = TreeOp.step (runTree ops) (.add path n) := by simp [runTree]
  have e2 : ∀ post, runTree (ops ++ .add path n :: post) = post.foldl TreeOp.step (TreeOp.step (runTree ops) (.add path n)) := by
    simp [runTree]
  simp only [e1, e2]
  change TreeInv (runTree ops) at hi
  change IdFull ⟨(runTree ops).m, (runTree ops).allIds⟩ at hf
  generalize runTree ops = t at *
  clear hs hd e1 e2
  constructor
  · intro hn post hpost
    exact (List.nodup_append.1 (tree_run (tree_add_inv hi hp hn) hpost).nodup).1
  · intro h
    by_contra hn
    obtain ⟨⟨q, nx⟩, bl⟩ := t
    obtain ⟨i1, i2, -⟩ := hi
    obtain ⟨f0, f1, f2⟩ := hf
    simp only [not_or, not_le] at hn i1 i2 f0 f1 f2
    obtain ⟨hn1, hnq⟩ := hn
    have hq : 0 < q.length := by omega
    have hg : IM.generate ⟨q, nx⟩ n = (q.take n, ⟨q.drop n, nx + ((n : Int) - q.length)⟩) := by
      simp only [IM.generate]
      rw [if_pos hq, if_neg hn1, if_pos (by omega)]
    have hqn : (q.length : Int) ≤ nx := by
      have hnd : q.Nodup := (List.nodup_append.1 i1).2.1
      have hsub : q ⊆ rangeI 0 nx.toNat := fun i hi => mem_rangeI.2
        ⟨f2 i (List.mem_append_right _ hi), by have := i2 i (List.mem_append_right _ hi); omega⟩
      have := (hnd.subperm hsub).length_le
      rw [length_rangeI] at this
      omega
    have hd : 0 < (q.drop n).length := by rw [List.length_drop]; omega
    have hg2 : (IM.generate ⟨q.drop n, nx + ((n : Int) - q.length)⟩ (q.drop n).length).2 = ⟨[], nx + ((n : Int) - q.length)⟩ ∧
        ∀ i ∈ q.drop n, i ∈ (IM.generate ⟨q.drop n, nx + ((n : Int) - q.length)⟩ (q.drop n).length).1 := by
      generalize q.drop n = r at hd
      simp only [IM.generate]
      rw [if_pos hd]
      by_cases h1 : r.length = 1
      · obtain ⟨x, rfl⟩ := List.length_eq_one_iff.1 h1
        rw [if_pos h1]
        simp
      · rw [if_neg h1, if_pos le_rfl]
        simp
    set t1 := TreeOp.step ⟨⟨q, nx⟩, bl⟩ (.add path n) with ht1
    have m1 : t1.m = ⟨q.drop n, nx + ((n : Int) - q.length)⟩ := by rw [ht1]; simp only [TreeOp.step, hg]
    obtain ⟨p1, hp1⟩ := fresh_path (t1.blocks.map IdBlock.path)
    set t2 := TreeOp.step t1 (.add p1 (q.drop n).length) with ht2
    have m2 : t2.m = ⟨[], nx + ((n : Int) - q.length)⟩ := by rw [ht2]; simp only [TreeOp.step, m1]; exact hg2.1
    obtain ⟨p2, hp2⟩ := fresh_path (t2.blocks.map IdBlock.path)
    have hN := h [.add p1 (q.drop n).length, .add p2 1] (by
      simp only [SingleOps]
      refine ⟨hp1, Or.inr ?_, hp2, Or.inl trivial, trivial⟩
      rw [m1])
    rw [List.foldl_cons, List.foldl_cons, List.foldl_nil, ← ht2, allIds_add, m2] at hN
    have hgen : (IM.generate ⟨[], nx + ((n : Int) - q.length)⟩ 1).1 = [nx + ((n : Int) - q.length)] := by simp [IM.generate, rangeI]
    rw [hgen] at hN
    refine (List.nodup_append.1 hN).2.2 (nx + ((n : Int) - q.length)) ?_ _ (List.mem_singleton.2 rfl) rfl
    rw [ht2, allIds_add, ht1, allIds_add, ← ht1, m1]
    simp only [hg]
    rcases List.mem_append.1 (f1 (nx + ((n : Int) - q.length)) (by omega) (by omega)) with h | h
    · exact List.mem_append_left _ (List.mem_append_left _ h)
    · have h : nx + ((n : Int) - q.length) ∈ q.take n ++ q.drop n := by rwa [List.take_append_drop]
      rcases List.mem_append.1 h with h | h
      · exact List.mem_append_left _ (List.mem_append_right _ h)
      · exact List.mem_append_right _ (hg2.2 _ h)

/-! ## meshes built before -/

/-- The ids of a mesh built separately are consecutive numbers. -/
theorem buildIds_flatten (a : Int) (ns : List Nat) : (buildIds ⟨[], a⟩ ns).flatten = rangeI a ns.sum := by
  induction ns generalizing a with
  | nil => simp [buildIds, rangeI]
  | cons n ns ih =>
    have hg : IM.generate ⟨[], a⟩ n = (rangeI a n, ⟨[], a + n⟩) := by simp [IM.generate]
    rw [buildIds, hg, List.flatten_cons, ih, List.sum_cons]
    simp only [rangeI, List.range_add, List.map_append, List.map_map]
    congr 1
    apply List.map_congr_left
    intro k _
    simp only [Function.comp]
    push_cast
    ring

theorem nested_ids (path : List Nat) (l : List (List Int)) : (nested path l).flatMap IdBlock.ids = l.flatten := by
  simp only [nested, List.flatMap_map]
  rw [← List.flatMap_id, show l.flatMap id = (l.zipIdx.map Prod.fst).flatMap id by simp, List.flatMap_map]
  rfl

theorem buildIds_eq (a : Int) (ns : List Nat) : buildIds ⟨[], a⟩ ns =
    (List.range ns.length).map fun k => (List.range (ns.getD k 0)).map fun j => a + (((ns.take k).sum : Nat) + (j : Nat)) := by
  induction ns generalizing a with
  | nil => rfl
  | cons n ns ih =>
    have hg : IM.generate ⟨[], a⟩ n = (rangeI a n, ⟨[], a + n⟩) := by simp [IM.generate]
    rw [buildIds, hg, ih, List.length_cons, List.range_succ_eq_map, List.map_cons, List.map_map]
    congr 1
    · simp [rangeI]
    · apply List.map_congr_left
      intro k _
      simp only [Function.comp, List.getD_cons_succ, List.take_succ_cons, List.sum_cons]
      apply List.map_congr_left
      intro j _
      push_cast
      ring

/-- **C40** which block has which ids after a mesh built before is assigned: the blocks that were there, then the top of the new mesh with ids of
the tree, then the blocks beneath it, each at its own path with the consecutive numbers that follow those of the blocks before it in the mesh it
was built in. -/
theorem C40_graft_blocks (ops : List TreeOp) (path : List Nat) (n : Nat) (ns : List Nat) :
    (runTree (ops ++ [.graft path n ns])).blocks = (runTree (ops ++ [.add path n])).blocks ++
      (List.range ns.length).map fun k =>
        ⟨path ++ [k], (List.range (ns.getD k 0)).map fun j => (n : Int) + (((ns.take k).sum : Nat) + (j : Nat))⟩ := by
  have e1 : runTree (ops ++ [.add path n]) = TreeOp.step (runTree ops) (.add path n) := by simp [runTree]
  have e2 : runTree (ops ++ [.graft path n ns]) = TreeOp.step (runTree ops) (.graft path n ns) := by simp [runTree]
  have hg : IM.generate {} n = (rangeI 0 n, ⟨[], 0 + n⟩) := by simp [IM.generate]
  rw [e1, e2]
  simp only [TreeOp.step]
  rw [buildIds, hg, List.tail_cons, zero_add, buildIds_eq, nested, List.append_assoc, List.singleton_append]
  congr 2
  apply List.ext_getElem
  · simp
  · intro i h1 h2
    simp

theorem nodup_rangeI' (a : Int) (n : Nat) : (rangeI a n).Nodup := by
  apply List.Nodup.map _ List.nodup_range
  intro x y h
  simpa using h

/-- **C40** a mesh with blocks beneath it that was built before is added: the ids of all cells are different if and only if no cell of the tree, and
none of the block at the top of the new mesh, has one of the ids from `n` to `n + sum - 1`, which the blocks beneath keep from their own numbering. -/
theorem C40_graft_exact {ops : List TreeOp} (hs : SingleOps {} ops) {path : List Nat} (hp : path ∉ (runTree ops).blocks.map IdBlock.path) {n : Nat}
    (hn : n = 1 ∨ (runTree ops).m.queue.length ≤ n) (ns : List Nat) :
    (runTree (ops ++ [.graft path n ns])).allIds.Nodup ↔
      ∀ i ∈ (runTree (ops ++ [.add path n])).allIds, ¬ ((n : Int) ≤ i ∧ i < n + ns.sum) := by
  have h0 : TreeInv ({} : CTree) := ⟨by simp [CTree.allIds], by simp [CTree.allIds], by simp⟩
  have hi : TreeInv (runTree ops) := tree_run h0 hs
  have e1 : runTree (ops ++ [.add path n]) = TreeOp.step (runTree ops) (.add path n) := by simp [runTree]
  have e2 : runTree (ops ++ [.graft path n ns]) = TreeOp.step (runTree ops) (.graft path n ns) := by simp [runTree]
  rw [e1, e2]
  have hA := (List.nodup_append.1 (tree_add_inv hi hp hn).nodup).1
  have hb : (buildIds {} (n :: ns)).tail.flatten = rangeI n ns.sum := by
    have hg : IM.generate {} n = (rangeI 0 n, ⟨[], 0 + n⟩) := by simp [IM.generate]
    rw [buildIds, hg, List.tail_cons, buildIds_flatten, zero_add]
  have e3 : CTree.allIds (TreeOp.step (runTree ops) (.graft path n ns)) =
      CTree.allIds (TreeOp.step (runTree ops) (.add path n)) ++ rangeI n ns.sum := by
    rw [allIds_add, ← hb, ← nested_ids path]
    simp [CTree.allIds, TreeOp.step]
  rw [e3, List.nodup_append]
  constructor
  · rintro ⟨-, -, h⟩ i hi' hr
    exact h i hi' i (mem_rangeI.2 hr) rfl
  · intro h
    refine ⟨hA, nodup_rangeI' _ _, ?_⟩
    rintro a ha b hb' rfl
    exact h a ha (mem_rangeI.1 hb')

/-- The hypotheses are met: three ids are queued. With a mesh of 1 + 2 cells on top of a tree of 2 cells, ids repeat; on an empty tree they do not. -/
example : SingleOps {} [.add [0] 3, .add [1] 1, .del [0]] ∧ DeletesLeaves {} [.add [0] 3, .add [1] 1, .del [0]] ∧
    (runTree [.add [0] 3, .add [1] 1, .del [0]]).m.queue.length = 3 ∧
    (runTree [.add [0] 2, .graft [1] 1 [2]]).allIds = [0, 1, 2, 1, 2] ∧ (runTree [.graft [1] 1 [2]]).allIds = [0, 1, 2] := by
  refine ⟨?_, ?_, by decide, by decide, by decide⟩
  · simp only [SingleOps]; decide
  · simp only [DeletesLeaves]; decide

end PM
