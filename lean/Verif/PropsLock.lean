import Verif.Lock
import Verif.PropsIds
import Mathlib.Data.List.Perm.Subperm
import Mathlib.Algebra.BigOperators.Group.List.Basic

/-!
# C109: cells of locked and of renumbered meshes
-/

namespace PM

/-! ## specification -/

/-- `r` names for each of the cells a block that contains it now; it is the only one if no two cells have the same number. -/
def Names (blocks : List IdBlock) (cids : List Int) (r : List (Int × List Nat)) : Prop :=
  r.length = cids.length ∧ ∀ (k : Nat) (c : Int), cids[k]? = some c → ∃ b ∈ blocks, r[k]? = some (c, b.path) ∧ c ∈ b.ids ∧
    ((blocks.flatMap IdBlock.ids).Nodup → ∀ b' ∈ blocks, c ∈ b'.ids → b' = b)

/-- Every question about cells of the mesh is answered with the blocks that contain them now, and no other question is. -/
def LooksUp (s : LMesh) : Prop :=
  (∀ cids, s.tree.blocks ≠ [] → (∀ c ∈ cids, ∃ b ∈ s.tree.blocks, c ∈ b.ids) → ∃ r, lookup s cids = some r ∧ Names s.tree.blocks cids r) ∧
  (∀ cids c, c ∈ cids → (∀ b ∈ s.tree.blocks, c ∉ b.ids) → lookup s cids = none) ∧
  (s.tree.blocks ≠ [] → ∃ (cids : List Int) (r : List (Int × List Nat)), lookupAll s = some r ∧ cids.Nodup ∧
    (∀ c, c ∈ cids ↔ ∃ b ∈ s.tree.blocks, c ∈ b.ids) ∧ Names s.tree.blocks cids r)

/-- `to_standard_form` is not called while there are mappers. -/
def NoStale (s : LMesh) : List LockOp → Prop
  | [] => True
  | op :: ops => (∀ w, op = .standard w → s.maps = none) ∧ NoStale ((op.step s).getD s) ops

/-- The blocks of `l` hold the numbers `a`, `a + 1`, ... one after the other. -/
def Consecutive (a : Int) : List IdBlock → Prop
  | [] => True
  | b :: l => b.ids = rangeI a b.ids.length ∧ Consecutive (a + b.ids.length) l

/-! ## lookups -/

theorem lookup_some {s : LMesh} (h : s.maps.getD s.tree.blocks = s.tree.blocks) {cids : List Int} (hne : s.tree.blocks ≠ [])
    (hc : ∀ c ∈ cids, ∃ b ∈ s.tree.blocks, c ∈ b.ids) : ∃ r, lookup s cids = some r ∧ Names s.tree.blocks cids r := by
  obtain ⟨r, h1, h2, h3⟩ := C52_found hc hne
  refine ⟨r.map fun q => (q.1, q.2.path), by rw [lookup, h, h1]; rfl, by simpa using h2, ?_⟩
  intro k c hk
  have hlt : k < r.length := by rw [h2]; exact (List.getElem?_eq_some_iff.1 hk).1
  obtain ⟨e1, e2, e3, e4⟩ := h3 k c _ hk (List.getElem?_eq_getElem hlt)
  exact ⟨r[k].2, e2, by rw [List.getElem?_map, List.getElem?_eq_getElem hlt, Option.map_some, e1], e3, e4⟩

theorem looksUp_of {s : LMesh} (h : s.maps.getD s.tree.blocks = s.tree.blocks) : LooksUp s := by
  refine ⟨fun cids hne hc => lookup_some h hne hc, ?_, ?_⟩
  · intro cids c hc hn
    rw [lookup, h, C52_unknown hc hn]
    rfl
  · intro hne
    have hm : ∀ c, c ∈ ((cidToBid s.tree.blocks).map Prod.fst).dedup ↔ ∃ b ∈ s.tree.blocks, c ∈ b.ids := by
      intro c
      rw [List.mem_dedup, List.mem_map]
      constructor
      · rintro ⟨⟨c', bid⟩, hq, rfl⟩
        obtain ⟨b, hb, hcb⟩ := cidToBid_mem.1 hq
        exact ⟨b, List.mem_of_getElem? hb, hcb⟩
      · rintro ⟨b, hb, hcb⟩
        obtain ⟨i, hi⟩ := List.mem_iff_getElem?.1 hb
        exact ⟨(c, i), cidToBid_mem.2 ⟨b, hi, hcb⟩, rfl⟩
    obtain ⟨r, h1, h2⟩ := lookup_some h hne (fun c hc => (hm c).1 hc)
    refine ⟨_, r, ?_, List.nodup_dedup _, hm, h2⟩
    rw [lookupAll, h, h1]

/-- While there are mappers the mesh is locked and they are those of its blocks. -/
def MapsOk (s : LMesh) : Prop := ∀ b, s.maps = some b → s.locked = true ∧ b = s.tree.blocks

theorem step_mapsOk {s s' : LMesh} {op : LockOp} (h : MapsOk s) (ho : ∀ w, op = .standard w → s.maps = none)
    (hs : op.step s = some s') : MapsOk s' := by
  cases op with
  | edit op =>
    simp only [LockOp.step] at hs
    split at hs
    · simp at hs
    · rename_i hl
      obtain rfl := Option.some.inj hs
      intro b hb
      exact absurd (h b hb).1 hl
  | lock m =>
    cases m with
    | false =>
      obtain rfl := Option.some.inj hs
      exact fun b hb => ⟨rfl, (h b hb).2⟩
    | true =>
      simp only [LockOp.step] at hs
      split at hs
      · obtain rfl := Option.some.inj hs
        exact fun b hb => ⟨rfl, (h b hb).2⟩
      · split at hs
        · simp at hs
        · obtain rfl := Option.some.inj hs
          exact fun b hb => ⟨rfl, (Option.some.inj hb).symm⟩
  | unlock =>
    obtain rfl := Option.some.inj hs
    intro b hb
    simp at hb
  | standard w =>
    simp only [LockOp.step] at hs
    split at hs
    · simp at hs
    · obtain rfl := Option.some.inj hs
      intro b hb
      simp only [ho w rfl, reduceCtorEq] at hb

theorem run_mapsOk {ops : List LockOp} {s : LMesh} (h : MapsOk s) (ho : NoStale s ops) :
    MapsOk (ops.foldl (fun s op => (op.step s).getD s) s) := by
  induction ops generalizing s with
  | nil => exact h
  | cons op ops ih =>
    rw [List.foldl_cons]
    apply ih _ ho.2
    cases hs : op.step s with
    | none => exact h
    | some s' => exact step_mapsOk h ho.1 hs

/-- **C109** after every history of locking, unlocking, setting and deleting blocks, with or without mappers, in which
`to_standard_form` is not called while there are mappers, `blocks_of_cells` names the blocks that contain the cells now.
Missing: the other histories, for which it is false (`C109_stale_false`). -/
theorem C109_lookup_partial (ops : List LockOp) (h : NoStale {} ops) : LooksUp (runLock ops) := by
  apply looksUp_of
  have := run_mapsOk (s := {}) (by intro b hb; simp at hb) h
  change MapsOk (runLock ops) at this
  cases hm : (runLock ops).maps with
  | none => rfl
  | some b => rw [(this b hm).2]; rfl

/-- **C109** unlocking drops the mappers: after it every answer is right, whatever happened before. -/
theorem C109_unlock (ops : List LockOp) : LooksUp (runLock (ops ++ [.unlock])) := by
  apply looksUp_of
  simp [runLock, LockOp.step]

/-- **C109** a locked mesh refuses to set and delete blocks and keeps them until it is unlocked; locking and unlocking change
no block. -/
theorem C109_locked (s : LMesh) :
    (s.locked = true → ∀ op, LockOp.step s (.edit op) = none) ∧
    (s.locked = false → ∀ op, ∃ s', LockOp.step s (.edit op) = some s') ∧
    (∀ m s', LockOp.step s (.lock m) = some s' → s'.locked = true ∧ s'.tree = s.tree) ∧
    (∀ s', LockOp.step s .unlock = some s' → s'.locked = false ∧ s'.tree = s.tree) := by
  refine ⟨fun h op => by simp [LockOp.step, h], fun h op => ⟨_, by simp [LockOp.step, h]; rfl⟩, ?_, ?_⟩
  · intro m s' h
    cases m with
    | false => obtain rfl := Option.some.inj h; exact ⟨rfl, rfl⟩
    | true =>
      simp only [LockOp.step] at h
      split at h
      · obtain rfl := Option.some.inj h; exact ⟨rfl, rfl⟩
      · split at h
        · simp at h
        · obtain rfl := Option.some.inj h; exact ⟨rfl, rfl⟩
  · intro s' h
    obtain rfl := Option.some.inj h
    exact ⟨rfl, rfl⟩

/-! ## standard form -/

theorem gen_empty (a : Int) (n : Nat) : IM.generate ⟨[], a⟩ n = (rangeI a n, ⟨[], a + n⟩) := by
  simp [IM.generate]

theorem renumber_spec (a : Int) (walk : List IdBlock) :
    let l := List.zipWith (fun (b : IdBlock) (ids : List Int) => (⟨b.path, ids⟩ : IdBlock)) walk
      (buildIds ⟨[], a⟩ (walk.map fun b => b.ids.length))
    l.map IdBlock.path = walk.map IdBlock.path ∧ (l.map fun b => b.ids.length) = (walk.map fun b => b.ids.length) ∧
      Consecutive a l ∧ l.flatMap IdBlock.ids = rangeI a (walk.map fun b => b.ids.length).sum := by
  induction walk generalizing a with
  | nil => exact ⟨rfl, rfl, trivial, rfl⟩
  | cons b walk ih =>
    simp only [List.map_cons, buildIds, gen_empty, List.zipWith_cons_cons, length_rangeI, Consecutive, List.flatMap_cons,
      List.sum_cons]
    obtain ⟨h1, h2, h3, h4⟩ := ih (a + b.ids.length)
    refine ⟨by rw [h1], by rw [h2], ⟨trivial, h3⟩, ?_⟩
    rw [h4]
    simp only [rangeI, List.range_add, List.map_append, List.map_map]
    congr 1
    apply List.map_congr_left
    intro k _
    simp only [Function.comp_apply, Nat.cast_add]
    omega

/-- **C109** `to_standard_form` keeps the blocks and their numbers of cells and numbers the cells from 0 on, block after block in
the order of the walk; all numbers differ. -/
theorem C109_standard {s s' : LMesh} {walk : List IdBlock} (h : LockOp.step s (.standard walk) = some s') :
    walk.Perm s.tree.blocks ∧ s'.tree.blocks.map IdBlock.path = walk.map IdBlock.path ∧
      (s'.tree.blocks.map fun b => b.ids.length) = (walk.map fun b => b.ids.length) ∧
      Consecutive 0 s'.tree.blocks ∧ s'.tree.allIds = rangeI 0 (s.tree.allIds.length) ∧ s'.tree.allIds.Nodup := by
  simp only [LockOp.step] at h
  split at h
  · simp at h
  · rename_i hp
    obtain rfl := Option.some.inj h
    have hp' : walk.Perm s.tree.blocks := by
      simp only [Bool.or_eq_true, Bool.not_eq_true', not_or, Bool.not_eq_false] at hp
      exact List.isPerm_iff.1 hp.2
    obtain ⟨h1, h2, h3, h4⟩ := renumber_spec 0 walk
    have e : (walk.map fun b => b.ids.length).sum = s.tree.allIds.length := by
      rw [CTree.allIds, List.length_flatMap]
      exact (hp'.map _).sum_eq
    rw [e] at h4
    refine ⟨hp', h1, h2, h3, h4, ?_⟩
    change ((renumbered walk).flatMap IdBlock.ids).Nodup
    unfold renumbered
    rw [h4]
    exact nodup_rangeI _ _

/-- (negation) Mappers are not dropped by `to_standard_form`, which gives the cells new numbers: of three blocks the first is
deleted, the mesh is locked with mappers and brought to standard form. Cell 1 is now in the last block; the answer is the other
one. -/
theorem C109_stale_false : ¬ ∀ ops, LooksUp (runLock ops) := by
  intro h
  have h1 := (h [.edit (.add [0] 1), .edit (.add [1] 1), .edit (.add [2] 1), .edit (.del [0]), .lock true,
    .standard [⟨[1], [1]⟩, ⟨[2], [2]⟩]]).1 [1] (by decide) (by decide)
  obtain ⟨r, hr, hn⟩ := h1
  have e : r = [(1, [1])] := by
    have : lookup (runLock [.edit (.add [0] 1), .edit (.add [1] 1), .edit (.add [2] 1), .edit (.del [0]), .lock true,
      .standard [⟨[1], [1]⟩, ⟨[2], [2]⟩]]) [1] = some [(1, [1])] := by decide
    rw [this] at hr
    exact (Option.some.inj hr).symm
  subst e
  obtain ⟨b, hb, hk, hc, -⟩ := hn.2 0 1 rfl
  have hb' : b ∈ ([⟨[1], [0]⟩, ⟨[2], [1]⟩] : List IdBlock) := by
    have : (runLock [.edit (.add [0] 1), .edit (.add [1] 1), .edit (.add [2] 1), .edit (.del [0]), .lock true,
      .standard [⟨[1], [1]⟩, ⟨[2], [2]⟩]]).tree.blocks = [⟨[1], [0]⟩, ⟨[2], [1]⟩] := by decide
    rw [this] at hb
    exact hb
  simp only [List.mem_cons, List.not_mem_nil, or_false] at hb'
  rcases hb' with rfl | rfl
  · simp at hc
  · simp at hk

/-! ## unique numbers -/

/-- (negation) `to_standard_form` numbers the cells anew but the mesh goes on with the manager it had: a block added afterwards
gets the number of a cell that exists. -/
theorem C109_unique_false : ¬ (runLock [.edit (.add [0] 1), .edit (.add [1] 1), .edit (.del [0]), .standard [⟨[1], [1]⟩],
    .edit (.add [2] 1)]).tree.allIds.Nodup := by
  decide

/-- Blocks are added one by one, as in `C40_partial`; the mesh is brought to standard form only if no number of a deleted cell
waits for its next use. -/
def SafeOp (s : LMesh) : LockOp → Prop
  | .edit op => s.locked = false → SingleOps s.tree [op]
  | .standard _ => s.tree.m.queue = []
  | .lock _ => True
  | .unlock => True

/-- The same for a history. -/
def SafeOps (s : LMesh) : List LockOp → Prop
  | [] => True
  | op :: ops => SafeOp s op ∧ SafeOps ((op.step s).getD s) ops

/-- The invariant of trees, with numbers that are not negative. -/
structure LockInv (t : CTree) : Prop where
  inv : TreeInv t
  nonneg : ∀ i ∈ t.allIds ++ t.m.queue, 0 ≤ i
  next : 0 ≤ t.m.next

theorem generate_nonneg {m : IM} (hq : ∀ i ∈ m.queue, 0 ≤ i) (hx : 0 ≤ m.next) {n : Nat} (hn : n = 1 ∨ m.queue.length ≤ n) :
    (∀ i ∈ (m.generate n).1, 0 ≤ i) ∧ (∀ i ∈ (m.generate n).2.queue, 0 ≤ i) ∧ 0 ≤ (m.generate n).2.next := by
  obtain ⟨q, nx⟩ := m
  simp only at hq hx hn
  simp only [IM.generate]
  split
  · rename_i h0
    split
    · refine ⟨?_, fun i hi => hq i (List.dropLast_subset _ hi), hx⟩
      intro i hi
      rw [List.mem_singleton] at hi
      subst hi
      cases q with
      | nil => simp at h0
      | cons a q => rw [List.getLastD_cons]; exact hq _ (by
          rcases List.eq_nil_or_concat q with rfl | ⟨l, b, rfl⟩
          · simp
          · simp)
    · rename_i hn1
      have hqn : q.length ≤ n := by rcases hn with h | h; exact absurd h hn1; exact h
      split
      · exact ⟨fun i hi => hq i (List.take_subset _ _ hi), fun i hi => hq i (List.drop_subset _ _ hi), by simp only; omega⟩
      · refine ⟨?_, by simp, by simp only; omega⟩
        intro i hi
        rcases List.mem_append.1 hi with hi | hi
        · exact hq i hi
        · have := (mem_rangeI.1 hi).1; omega
  · refine ⟨?_, hq, by simp only; omega⟩
    intro i hi
    have := (mem_rangeI.1 hi).1
    omega

theorem lockInv_edit {t : CTree} (h : LockInv t) {op : TreeOp} (ho : SingleOps t [op]) : LockInv (op.step t) := by
  cases op with
  | add path n =>
    obtain ⟨h1, h2, -⟩ := ho
    obtain ⟨g1, g2, g3⟩ := generate_nonneg (fun i hi => h.nonneg i (List.mem_append_right _ hi)) h.next h2
    refine ⟨tree_add_inv h.inv h1 h2, ?_, g3⟩
    intro i hi
    rcases List.mem_append.1 hi with hi | hi
    · have e : CTree.allIds (TreeOp.step t (.add path n)) = t.allIds ++ (t.m.generate n).1 := by
        simp [CTree.allIds, TreeOp.step]
      rw [e] at hi
      rcases List.mem_append.1 hi with hi | hi
      · exact h.nonneg i (List.mem_append_left _ hi)
      · exact g1 i hi
    · exact g2 i hi
  | del path =>
    refine ⟨tree_del_inv h.inv path, ?_, h.next⟩
    intro i hi
    rcases List.mem_append.1 hi with hi | hi
    · exact h.nonneg i (List.mem_append_left _ ((sublist_flatMap List.filter_sublist _).subset hi))
    · rcases List.mem_append.1 hi with hi | hi
      · exact h.nonneg i (List.mem_append_right _ hi)
      · exact h.nonneg i (List.mem_append_left _ ((sublist_flatMap List.filter_sublist _).subset hi))
  | graft path n ns => exact absurd ho (by simp [SingleOps])

theorem lockInv_step {s s' : LMesh} {op : LockOp} (h : LockInv s.tree) (hs : op.step s = some s')
    (ho : SafeOp s op) : LockInv s'.tree := by
  cases op with
  | edit op =>
    simp only [LockOp.step] at hs
    split at hs
    · simp at hs
    · rename_i hl
      obtain rfl := Option.some.inj hs
      exact lockInv_edit h (ho (by simpa using hl))
  | lock m => rw [((C109_locked s).2.2.1 m s' hs).2]; exact h
  | unlock => rw [((C109_locked s).2.2.2 s' hs).2]; exact h
  | standard w =>
    obtain ⟨hp, h1, -, -, h4, h5⟩ := C109_standard hs
    rw [SafeOp] at ho
    have hm : s'.tree.m = s.tree.m := by
      simp only [LockOp.step] at hs
      split at hs
      · simp at hs
      · obtain rfl := Option.some.inj hs
        rfl
    have hlen : (s.tree.allIds.length : Int) ≤ s.tree.m.next := by
      have hsub : s.tree.allIds ⊆ rangeI 0 s.tree.m.next.toNat := by
        intro i hi
        have := h.inv.lt i (List.mem_append_left _ hi)
        have := h.nonneg i (List.mem_append_left _ hi)
        have := h.next
        exact mem_rangeI.2 ⟨by omega, by omega⟩
      have := (List.subperm_of_subset (List.nodup_append.1 h.inv.nodup).1 hsub).length_le
      rw [length_rangeI] at this
      have := h.next
      omega
    refine ⟨⟨?_, ?_, ?_⟩, ?_, by rw [hm]; exact h.next⟩
    · rw [hm, ho, List.append_nil]; exact h5
    · rw [hm, ho, List.append_nil, h4]
      intro i hi
      have := (mem_rangeI.1 hi).2
      omega
    · rw [h1]; exact (hp.map _).nodup_iff.2 h.inv.paths
    · rw [hm, ho, List.append_nil, h4]
      intro i hi
      exact (mem_rangeI.1 hi).1

/-- **C109**, what holds of the numbers of the cells: they all differ if blocks are added one by one and deleted as in
`C40_partial`, and the mesh is brought to standard form only when no number of a deleted cell is queued, however it is locked and
unlocked. Missing: standard form after deletions (`C109_unique_false`). -/
theorem C109_unique_partial (ops : List LockOp) (h : SafeOps {} ops) : (runLock ops).tree.allIds.Nodup := by
  have h0 : LockInv ({} : LMesh).tree :=
    ⟨⟨by simp [CTree.allIds], by simp [CTree.allIds], by simp⟩, by simp [CTree.allIds], by decide⟩
  suffices LockInv (runLock ops).tree from (List.nodup_append.1 this.inv.nodup).1
  unfold runLock
  generalize ({} : LMesh) = s at *
  induction ops generalizing s with
  | nil => exact h0
  | cons op ops ih =>
    rw [List.foldl_cons]
    apply ih _ h.2
    cases hs : op.step s with
    | none => exact h0
    | some s' => exact lockInv_step h0 hs h.1

/-- A mesh is filled, brought to standard form, locked with mappers, refuses a block, and is unlocked and extended. -/
def lockHistory : List LockOp := [.edit (.add [0] 2), .edit (.add [1] 1), .edit (.add [0, 1] 1),
  .standard [⟨[0], [0, 1]⟩, ⟨[0, 1], [3]⟩, ⟨[1], [2]⟩], .lock true, .edit (.add [5] 9)]

example : (runLock lockHistory).tree.blocks = [⟨[0], [0, 1]⟩, ⟨[0, 1], [2]⟩, ⟨[1], [3]⟩] := by decide
example : lookup (runLock lockHistory) [3, 0] = some [(3, [1]), (0, [0])] := by decide
example : lookup (runLock lockHistory) [4] = none := by decide
example : lookupAll (runLock lockHistory) = some [(0, [0]), (1, [0]), (2, [0, 1]), (3, [1])] := by decide
example : NoStale {} lockHistory := by
  simp only [NoStale, lockHistory]
  refine ⟨?_, ?_, ?_, ?_, ?_, ?_, trivial⟩ <;> intro w hw <;> first | rfl | cases hw
example : SafeOps {} lockHistory := by
  simp only [SafeOps, SafeOp, lockHistory, SingleOps]
  decide
example : (runLock (lockHistory ++ [.unlock, .edit (.add [5] 2)])).tree.allIds = [0, 1, 2, 3, 4, 5] := by decide

end PM
