import Verif.Ids
import Verif.TopoLemmas

/-!
# C39, C40, C52: ids of cells
-/

namespace PM

/-! ## C39 -/

/-- The ids a history hands out at each request. -/
def Fresh (st : IdState) (n : Nat) : Prop :=
  (st.m.generate n).1.length = n ∧ (st.m.generate n).1.Nodup ∧ ∀ i ∈ (st.m.generate n).1, i ∉ st.live

/-- Clients recycle ids in use, each once. -/
def WellUsed (st : IdState) : List IdOp → Prop
  | [] => True
  | .gen n :: ops => WellUsed (IdOp.step st (.gen n)) ops
  | .back ids :: ops => ids.Nodup ∧ (∀ i ∈ ids, i ∈ st.live) ∧ WellUsed (IdOp.step st (.back ids)) ops

/-- No request for several (or no) ids asks for less than are queued. -/
def NoShortRequest (st : IdState) : List IdOp → Prop
  | [] => True
  | .gen n :: ops => (n = 1 ∨ st.m.queue.length ≤ n) ∧ NoShortRequest (IdOp.step st (.gen n)) ops
  | .back ids :: ops => NoShortRequest (IdOp.step st (.back ids)) ops

/-- The invariant: queued and used ids are different and below `next`. -/
def IdInv (st : IdState) : Prop := (st.live ++ st.m.queue).Nodup ∧ ∀ i ∈ st.live ++ st.m.queue, i < st.m.next

theorem mem_rangeI {a i : Int} {n : Nat} : i ∈ rangeI a n ↔ a ≤ i ∧ i < a + n := by
  simp only [rangeI, List.mem_map, List.mem_range]
  constructor
  · rintro ⟨k, hk, rfl⟩; omega
  · rintro ⟨h1, h2⟩; exact ⟨(i - a).toNat, by omega, by omega⟩

theorem nodup_rangeI (a : Int) (n : Nat) : (rangeI a n).Nodup := by
  apply List.Nodup.map _ List.nodup_range
  intro x y h
  simpa using h

theorem length_rangeI (a : Int) (n : Nat) : (rangeI a n).length = n := by simp [rangeI]

/-- What one request does to the invariant. -/
theorem gen_inv {st : IdState} (h : IdInv st) {n : Nat} (hn : n = 1 ∨ st.m.queue.length ≤ n) :
    Fresh st n ∧ IdInv (IdOp.step st (.gen n)) := by
  obtain ⟨⟨q, nx⟩, live⟩ := st
  obtain ⟨h1, h2⟩ := h
  simp only at h1 h2 hn
  rw [List.nodup_append] at h1
  obtain ⟨hl, hq, hd⟩ := h1
  by_cases h0 : 0 < q.length
  · by_cases hn1 : n = 1
    · subst hn1
      have hne : q ≠ [] := List.length_pos_iff.1 h0
      obtain ⟨q', x, rfl⟩ : ∃ q' x, q = q' ++ [x] := ⟨q.dropLast, q.getLast hne, (List.dropLast_concat_getLast hne).symm⟩
      have hg : IM.generate ⟨q' ++ [x], nx⟩ 1 = ([x], ⟨q', nx⟩) := by simp [IM.generate]
      have hq' := List.nodup_append.1 hq
      refine ⟨⟨by rw [hg]; rfl, by rw [hg]; simp, ?_⟩, ?_, ?_⟩
      · rw [hg]
        intro i hi hil
        rw [List.mem_singleton] at hi
        subst hi
        exact hd i hil i (by simp) rfl
      · simp only [IdOp.step, hg]
        rw [List.append_assoc, List.nodup_append]
        refine ⟨hl, ?_, ?_⟩
        · rw [List.singleton_append, List.nodup_cons]
          exact ⟨fun hx => hq'.2.2 x hx x (by simp) rfl, hq'.1⟩
        · intro a ha b hb
          apply hd a ha b
          simp only [List.mem_append, List.mem_cons, List.not_mem_nil, or_false] at hb ⊢
          exact hb.symm
      · simp only [IdOp.step, hg]
        intro i hi
        apply h2 i
        simp only [List.mem_append, List.mem_cons, List.not_mem_nil, or_false] at hi ⊢
        tauto
    · have hqn : q.length ≤ n := by rcases hn with h | h; exact absurd h hn1; exact h
      have hlt : ∀ a ∈ q, a < nx := fun a ha => h2 a (by simp [ha])
      have hg : IM.generate ⟨q, nx⟩ n = (q ++ rangeI nx (n - q.length), ⟨[], nx + ((n : Int) - q.length)⟩) := by
        simp only [IM.generate]
        rw [if_pos h0, if_neg hn1]
        by_cases he : q.length ≥ n
        · have : n = q.length := by omega
          subst this
          rw [if_pos he]
          simp [rangeI]
        · rw [if_neg he]
      refine ⟨⟨?_, ?_, ?_⟩, ?_, ?_⟩
      · rw [hg]; simp only [List.length_append, length_rangeI]; omega
      · rw [hg]
        simp only
        rw [List.nodup_append]
        refine ⟨hq, nodup_rangeI _ _, ?_⟩
        rintro a ha b hb rfl
        have := hlt a ha
        have := (mem_rangeI.1 hb).1
        omega
      · rw [hg]
        intro i hi hil
        rcases List.mem_append.1 hi with hi | hi
        · exact hd i hil i hi rfl
        · have := h2 i (by simp [hil])
          have := (mem_rangeI.1 hi).1
          omega
      · simp only [IdOp.step, hg, List.append_nil]
        rw [List.nodup_append, List.nodup_append]
        refine ⟨hl, ⟨hq, nodup_rangeI _ _, ?_⟩, ?_⟩
        · rintro a ha b hb rfl
          have := hlt a ha
          have := (mem_rangeI.1 hb).1
          omega
        · rintro a ha b hb rfl
          rcases List.mem_append.1 hb with hb | hb
          · exact hd a ha a hb rfl
          · have := h2 a (by simp [ha])
            have := (mem_rangeI.1 hb).1
            omega
      · simp only [IdOp.step, hg, List.append_nil]
        intro i hi
        rcases List.mem_append.1 hi with hi | hi
        · have := h2 i (by simp [hi])
          omega
        · rcases List.mem_append.1 hi with hi | hi
          · have := hlt i hi; omega
          · have := (mem_rangeI.1 hi).2; omega
  · have : q = [] := List.eq_nil_of_length_eq_zero (by omega)
    subst this
    have hg : IM.generate ⟨[], nx⟩ n = (rangeI nx n, ⟨[], nx + n⟩) := by simp [IM.generate]
    refine ⟨⟨?_, ?_, ?_⟩, ?_, ?_⟩
    · rw [hg]; exact length_rangeI _ _
    · rw [hg]; exact nodup_rangeI _ _
    · rw [hg]
      intro i hi hil
      have := h2 i (by simp [hil])
      have := (mem_rangeI.1 hi).1
      omega
    · simp only [IdOp.step, hg, List.append_nil]
      rw [List.nodup_append]
      refine ⟨hl, nodup_rangeI _ _, ?_⟩
      rintro a ha b hb rfl
      have := h2 a (by simp [ha])
      have := (mem_rangeI.1 hb).1
      omega
    · simp only [IdOp.step, hg, List.append_nil]
      intro i hi
      rcases List.mem_append.1 hi with hi | hi
      · have := h2 i (by simp [hi])
        omega
      · have := (mem_rangeI.1 hi).2; omega

theorem rec_inv {st : IdState} (h : IdInv st) {ids : List Int} (hnd : ids.Nodup) (hl : ∀ i ∈ ids, i ∈ st.live) :
    IdInv (IdOp.step st (.back ids)) := by
  obtain ⟨⟨q, nx⟩, live⟩ := st
  obtain ⟨h1, h2⟩ := h
  simp only at h1 h2 hl
  rw [List.nodup_append] at h1
  obtain ⟨hnl, hnq, hd⟩ := h1
  constructor
  · simp only [IdOp.step, IM.recycle]
    rw [List.nodup_append, List.nodup_append]
    refine ⟨hnl.filter _, ⟨hnq, hnd, ?_⟩, ?_⟩
    · rintro a ha b hb rfl
      exact hd a (hl a hb) a ha rfl
    · rintro a ha b hb rfl
      rw [List.mem_filter] at ha
      rcases List.mem_append.1 hb with hb | hb
      · exact hd a ha.1 a hb rfl
      · simp [hb] at ha
  · simp only [IdOp.step, IM.recycle]
    intro i hi
    rcases List.mem_append.1 hi with hi | hi
    · exact h2 i (List.mem_append_left _ (List.mem_filter.1 hi).1)
    · rcases List.mem_append.1 hi with hi | hi
      · exact h2 i (List.mem_append_right _ hi)
      · exact h2 i (List.mem_append_left _ (hl i hi))

/-- **C39**, what holds: over any history in which no request for several (or no) ids asks for less than are queued,
every request yields the right number of different ids, none of them in use. Missing: the other histories, for which the
claim is false, see `C39_false`. -/
theorem C39_partial (pre post : List IdOp) (n : Nat) (hw : WellUsed {} (pre ++ .gen n :: post))
    (hs : NoShortRequest {} (pre ++ .gen n :: post)) : Fresh (runIds {} pre) n := by
  have h0 : IdInv ({} : IdState) := ⟨by simp, by simp⟩
  generalize ({} : IdState) = st at *
  induction pre generalizing st with
  | nil =>
    rw [List.nil_append, NoShortRequest] at hs
    exact (gen_inv h0 hs.1).1
  | cons op pre ih =>
    rw [List.cons_append] at hw hs
    cases op with
    | gen k =>
      rw [WellUsed] at hw
      rw [NoShortRequest] at hs
      exact ih _ hw hs.2 (gen_inv h0 hs.1).2
    | back ids =>
      rw [WellUsed] at hw
      rw [NoShortRequest] at hs
      exact ih _ hw.2.2 hs (rec_inv h0 hw.1 hw.2.1)

/-- Even then, single requests and requests larger than the queue reuse recycled ids: a concrete history. -/
example : (IM.generate (runIds {} [.gen 3, .back [0, 2]]).m 4).1 = [0, 2, 3, 4] ∧
    WellUsed {} [.gen 3, .back [0, 2], .gen 4] ∧ NoShortRequest {} [.gen 3, .back [0, 2], .gen 4] := by
  refine ⟨by decide, ?_, ?_⟩
  · simp only [WellUsed]; exact ⟨by decide, by decide, trivial⟩
  · simp only [NoShortRequest]; exact ⟨by decide, by decide, trivial⟩

/-- **C39** is false: after recycling three ids, a request for two of them lowers `next`, and soon an id in use is handed
out again. -/
theorem C39_false : ∃ ops : List IdOp, WellUsed {} ops ∧ ∃ n, ¬ Fresh (runIds {} ops) n := by
  refine ⟨[.gen 3, .gen 1, .back [0, 1, 2], .gen 2, .gen 1], ?_, 1, ?_⟩
  · simp only [WellUsed]; exact ⟨by decide, by decide, trivial⟩
  · rintro ⟨-, -, h⟩
    exact h 3 (by decide) (by decide)

/-! ## C40 -/

/-- All ids of the tree. -/
def CTree.allIds (t : CTree) : List Int := t.blocks.flatMap IdBlock.ids

/-- Operations that add and delete single blocks, at paths not used before. -/
def SingleOps (t : CTree) : List TreeOp → Prop
  | [] => True
  | .add path n :: ops => path ∉ t.blocks.map IdBlock.path ∧ (n = 1 ∨ t.m.queue.length ≤ n) ∧
      SingleOps (TreeOp.step t (.add path n)) ops
  | .del path :: ops => SingleOps (TreeOp.step t (.del path)) ops
  | .graft _ _ _ :: _ => False

/-- The invariant of trees. -/
structure TreeInv (t : CTree) : Prop where
  nodup : (t.allIds ++ t.m.queue).Nodup
  lt : ∀ i ∈ t.allIds ++ t.m.queue, i < t.m.next
  paths : (t.blocks.map IdBlock.path).Nodup

theorem filter_path_le_one {l : List IdBlock} (h : (l.map IdBlock.path).Nodup) (p : List Nat) :
    (l.filter fun b => b.path == p) = [] ∨ ∃ b ∈ l, b.path = p ∧ (l.filter fun b => b.path == p) = [b] := by
  induction l with
  | nil => left; rfl
  | cons b l ih =>
    rw [List.map_cons, List.nodup_cons] at h
    by_cases hb : b.path = p
    · right
      refine ⟨b, List.mem_cons_self, hb, ?_⟩
      rw [List.filter_cons_of_pos (by simpa using hb)]
      congr 1
      rw [List.filter_eq_nil_iff]
      intro c hc hcp
      rw [beq_iff_eq] at hcp
      exact h.1 (by rw [hb, ← hcp]; exact List.mem_map_of_mem hc)
    · rw [List.filter_cons_of_neg (by simpa using hb)]
      rcases ih h.2 with h' | ⟨c, hc, h1, h2⟩
      · left; exact h'
      · right; exact ⟨c, List.mem_cons_of_mem _ hc, h1, h2⟩

theorem sublist_flatMap {α β : Type} {l l' : List α} (h : l.Sublist l') (f : α → List β) :
    (l.flatMap f).Sublist (l'.flatMap f) := by
  induction h with
  | slnil => exact List.Sublist.refl _
  | cons a _ ih => exact ih.trans (List.sublist_append_right _ _)
  | cons_cons a _ ih => exact (List.Sublist.refl _).append ih

/-- If all ids are different, different blocks share none. -/
theorem ids_disjoint {l : List IdBlock} (h : (l.flatMap IdBlock.ids).Nodup) {x y : IdBlock} (hx : x ∈ l) (hy : y ∈ l)
    (hne : x ≠ y) {i : Int} (h1 : i ∈ x.ids) (h2 : i ∈ y.ids) : False := by
  induction l with
  | nil => simp at hx
  | cons b l ih =>
    rw [List.flatMap_cons, List.nodup_append] at h
    rcases List.mem_cons.1 hx with rfl | hx'
    · rcases List.mem_cons.1 hy with rfl | hy'
      · exact hne rfl
      · exact h.2.2 i h1 i (List.mem_flatMap.2 ⟨y, hy', h2⟩) rfl
    · rcases List.mem_cons.1 hy with rfl | hy'
      · exact h.2.2 i h2 i (List.mem_flatMap.2 ⟨x, hx', h1⟩) rfl
      · exact ih h.2.1 hx' hy'

theorem tree_add_inv {t : CTree} (h : TreeInv t) {path : List Nat} {n : Nat} (hp : path ∉ t.blocks.map IdBlock.path)
    (hn : n = 1 ∨ t.m.queue.length ≤ n) : TreeInv (TreeOp.step t (.add path n)) := by
  have hi : IdInv ⟨t.m, t.allIds⟩ := ⟨h.nodup, h.lt⟩
  obtain ⟨-, h1, h2⟩ := gen_inv hi hn
  have e : CTree.allIds (TreeOp.step t (.add path n)) = t.allIds ++ (t.m.generate n).1 := by
    simp [CTree.allIds, TreeOp.step]
  refine ⟨?_, ?_, ?_⟩
  · rw [e]; exact h1
  · rw [e]; exact h2
  · simp only [TreeOp.step, List.map_append, List.map_cons, List.map_nil]
    rw [List.nodup_append]
    refine ⟨h.paths, by simp, ?_⟩
    rintro a ha b hb rfl
    rw [List.mem_singleton] at hb
    subst hb
    exact hp ha

theorem isPrefixOf_self (p : List Nat) : p.isPrefixOf p = true := by
  induction p with
  | nil => rfl
  | cons a p ih => simp [ih]

theorem tree_del_inv {t : CTree} (h : TreeInv t) (path : List Nat) : TreeInv (TreeOp.step t (.del path)) := by
  have hn := List.nodup_append.1 h.nodup
  have hsub : (CTree.allIds (TreeOp.step t (.del path))).Sublist t.allIds :=
    sublist_flatMap List.filter_sublist _
  rcases filter_path_le_one h.paths path with hf | ⟨b, hb, hbp, hf⟩
  · have e : (TreeOp.step t (.del path)).m = t.m := by simp [TreeOp.step, hf, IM.recycle]
    refine ⟨?_, ?_, ?_⟩
    · rw [e, List.nodup_append]
      exact ⟨hn.1.sublist hsub, hn.2.1, fun a ha b hb => hn.2.2 a (hsub.subset ha) b hb⟩
    · rw [e]
      intro i hi
      apply h.lt i
      rcases List.mem_append.1 hi with hi | hi
      · exact List.mem_append_left _ (hsub.subset hi)
      · exact List.mem_append_right _ hi
    · exact h.paths.sublist (List.filter_sublist.map _)
  · have e : (TreeOp.step t (.del path)).m = ⟨t.m.queue ++ b.ids, t.m.next⟩ := by simp [TreeOp.step, hf, IM.recycle]
    have hbi : ∀ i ∈ b.ids, i ∈ t.allIds := fun i hi => List.mem_flatMap.2 ⟨b, hb, hi⟩
    have hsep : ∀ i ∈ b.ids, i ∉ CTree.allIds (TreeOp.step t (.del path)) := by
      intro i hi hc
      obtain ⟨c, hc, hic⟩ := List.mem_flatMap.1 hc
      simp only [TreeOp.step, List.mem_filter] at hc
      have hne : c ≠ b := by
        rintro rfl
        rw [hbp, isPrefixOf_self] at hc
        simp at hc
      exact ids_disjoint hn.1 hc.1 hb hne hic hi
    refine ⟨?_, ?_, ?_⟩
    · rw [e, List.nodup_append, List.nodup_append]
      refine ⟨hn.1.sublist hsub, ⟨hn.2.1, (List.nodup_flatMap.1 hn.1).1 b hb, ?_⟩, ?_⟩
      · rintro a ha c hc rfl
        exact hn.2.2 a (hbi a hc) a ha rfl
      · rintro a ha c hc rfl
        rcases List.mem_append.1 hc with hc | hc
        · exact hn.2.2 a (hsub.subset ha) a hc rfl
        · exact hsep a hc ha
    · rw [e]
      intro i hi
      apply h.lt i
      rcases List.mem_append.1 hi with hi | hi
      · exact List.mem_append_left _ (hsub.subset hi)
      · rcases List.mem_append.1 hi with hi | hi
        · exact List.mem_append_right _ hi
        · exact List.mem_append_left _ (hbi i hi)
    · exact h.paths.sublist (List.filter_sublist.map _)

/-- **C40**, what holds: blocks added one by one to (any place of) a tree, and deleted, if no block of several (or no)
cells is smaller than the number of queued ids. Missing: the other histories (`C40_queue_false`) and meshes built
before they are added (`C40_graft_false`), for which the claim is false. -/
theorem C40_partial (ops : List TreeOp) (h : SingleOps {} ops) : (runTree ops).allIds.Nodup := by
  have h0 : TreeInv ({} : CTree) := ⟨by simp [CTree.allIds], by simp [CTree.allIds], by simp⟩
  suffices TreeInv (runTree ops) from (List.nodup_append.1 this.nodup).1
  unfold runTree
  generalize ({} : CTree) = t at *
  induction ops generalizing t with
  | nil => exact h0
  | cons op ops ih =>
    rw [List.foldl_cons]
    cases op with
    | add path n =>
      rw [SingleOps] at h
      exact ih _ h.2.2 (tree_add_inv h0 h.1 h.2.1)
    | del path =>
      rw [SingleOps] at h
      exact ih _ h (tree_del_inv h0 path)
    | graft path n ns => exact absurd h (by simp [SingleOps])

/-- A history to which this applies: nested blocks, a deletion, reuse of ids. -/
example : (runTree [.add [0] 2, .add [0, 1] 3, .add [1] 1, .del [0], .add [2] 4]).allIds = [5, 0, 1, 6, 7] ∧
    SingleOps {} [.add [0] 2, .add [0, 1] 3, .add [1] 1, .del [0], .add [2] 4] := by
  refine ⟨by decide, ?_⟩
  simp only [SingleOps]
  decide

/-- **C40** is false: a small block added after a large one was deleted. -/
theorem C40_queue_false : ¬ (runTree [.add [0] 3, .add [1] 1, .del [0], .add [2] 2, .add [3] 1, .add [4] 1]).allIds.Nodup := by
  decide

/-- **C40** is false for meshes built before they are added: only the block at the top gets new ids. -/
theorem C40_graft_false : ¬ (runTree [.add [0] 2, .graft [1] 1 [2]]).allIds.Nodup := by decide

/-! ## C52 -/

/-- The number given to a cell is that of a block containing it. -/
theorem cidToBid_mem {blocks : List IdBlock} {c : Int} {bid : Nat} :
    (c, bid) ∈ cidToBid blocks ↔ ∃ b, blocks[bid]? = some b ∧ c ∈ b.ids := by
  simp only [cidToBid, List.mem_flatMap, List.mem_map, Prod.mk.injEq, Prod.exists, List.mem_zipIdx_iff_getElem?]
  constructor
  · rintro ⟨b, i, h, c', hc, rfl, rfl⟩; exact ⟨b, h, hc⟩
  · rintro ⟨b, h, hc⟩; exact ⟨b, bid, h, c, hc, rfl, rfl⟩

theorem dictGet_some {α β : Type} [BEq α] [LawfulBEq α] {d : List (α × β)} {a : α} {b : β} (h : dictGet d a = some b) :
    (a, b) ∈ d := by
  rw [dictGet, Option.map_eq_some_iff] at h
  obtain ⟨⟨a', b'⟩, h1, rfl⟩ := h
  have := List.find?_some h1
  simp only [beq_iff_eq] at this
  subst this
  exact List.mem_reverse.1 (List.mem_of_find?_eq_some h1)

theorem dictGet_isSome {α β : Type} [BEq α] [LawfulBEq α] {d : List (α × β)} {a : α} {b : β} (h : (a, b) ∈ d) :
    ∃ b', dictGet d a = some b' := by
  have : (d.reverse.find? fun q => q.1 == a).isSome := by
    rw [List.find?_isSome]
    exact ⟨(a, b), List.mem_reverse.2 h, by simp⟩
  obtain ⟨q, hq⟩ := Option.isSome_iff_exists.1 this
  exact ⟨q.2, by rw [dictGet, hq]; rfl⟩

/-- **C52** every cell id in the tree is answered, with a block of the tree that contains the cell with this id; if ids
are unique (C40) it is the only one. -/
theorem C52_found {blocks : List IdBlock} {cids : List Int} (h : ∀ c ∈ cids, ∃ b ∈ blocks, c ∈ b.ids) (hne : blocks ≠ []) :
    ∃ r, blocksOfCells blocks cids = some r ∧ r.length = cids.length ∧
      ∀ (k : Nat) (c : Int) (q : Int × IdBlock), cids[k]? = some c → r[k]? = some q →
        q.1 = c ∧ q.2 ∈ blocks ∧ c ∈ q.2.ids ∧
        ((blocks.flatMap IdBlock.ids).Nodup → ∀ b ∈ blocks, c ∈ b.ids → b = q.2) := by
  rw [blocksOfCells, if_neg (by simpa using hne)]
  apply mapM_exists (P := fun _ c (q : Int × IdBlock) => q.1 = c ∧ q.2 ∈ blocks ∧ c ∈ q.2.ids ∧
        ((blocks.flatMap IdBlock.ids).Nodup → ∀ b ∈ blocks, c ∈ b.ids → b = q.2))
  intro k c hc
  obtain ⟨b, hb, hcb⟩ := h c (List.mem_of_getElem? hc)
  obtain ⟨i, hi⟩ := List.mem_iff_getElem?.1 hb
  obtain ⟨j, hj⟩ := dictGet_isSome (cidToBid_mem.2 ⟨b, hi, hcb⟩)
  obtain ⟨b', hb', hcb'⟩ := cidToBid_mem.1 (dictGet_some hj)
  refine ⟨(c, b'), by rw [hj, Option.bind_some, hb']; rfl, rfl, List.mem_of_getElem? hb', hcb', ?_⟩
  intro hn x hx hcx
  by_contra hne'
  exact ids_disjoint hn hx (List.mem_of_getElem? hb') hne' hcx hcb'

/-- **C52** other ids are refused. -/
theorem C52_unknown {blocks : List IdBlock} {cids : List Int} {c : Int} (hc : c ∈ cids) (h : ∀ b ∈ blocks, c ∉ b.ids) :
    blocksOfCells blocks cids = none := by
  rw [blocksOfCells]
  split
  · rfl
  · apply mapM_none hc
    cases hd : dictGet (cidToBid blocks) c with
    | none => rfl
    | some j =>
      obtain ⟨b, hb, hcb⟩ := cidToBid_mem.1 (dictGet_some hd)
      exact absurd hcb (h b (List.mem_of_getElem? hb))

/-- Two blocks. -/
example : blocksOfCells [⟨[0], [0, 1]⟩, ⟨[1], [2]⟩] [2, 0] = some [(2, ⟨[1], [2]⟩), (0, ⟨[0], [0, 1]⟩)] := by decide

end PM
