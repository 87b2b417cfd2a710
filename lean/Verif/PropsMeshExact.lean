import Verif.PropsMotion

/-!
# C42, C43: exact accounts of `nummrg` for nested blocks and of moving blocks without points
-/

namespace PM

variable {P D : Type}

/-! ## specification -/

/-- `used` lists the nodes of the cells, every one once, in increasing order. -/
structure UsedNodes (T : Topo) (used : List Nat) : Prop where
  sorted : used.Pairwise (· < ·)
  all : ∀ n, n ∈ used ↔ UsesNode T n

/-- The number of nodes of the list below `n`, if `n` is one of them. -/
def rankIn (used : List Nat) (n : Nat) : Option Nat := if n ∈ used then some (used.filter fun a => a < n).length else none

/-- The new number of a node that is renumbered `k` times with the same table. -/
def rankTimes (used : List Nat) : Nat → Nat → Option Nat
  | 0, n => some n
  | k + 1, n => (rankIn used n).bind (rankTimes used k)

/-- The number of cell blocks from the root down to the block, itself included. -/
def cellBlocksAbove (m : List (MBlock P D)) (b : MBlock P D) : Nat :=
  (m.filter fun a => a.cells.isSome && decide (a.path <:+ b.path)).length

/-! ## lists -/

theorem UsedNodes.eq {T : Topo} {u : List Nat} (h : UsedNodes T u) : npUnique T.flatten = u := by
  refine List.Perm.eq_of_pairwise (le := (· < ·)) (fun a b _ _ h1 h2 => absurd h1 (by omega)) (sorted_npUnique _) h.sorted ?_
  refine (List.perm_ext_iff_of_nodup (nodup_npUnique _) (h.sorted.imp fun h => Nat.ne_of_lt h)).2 fun n => ?_
  rw [mem_npUnique, h.all, List.mem_flatten]
  rfl

theorem usedNodes_npUnique (T : Topo) : UsedNodes T (npUnique T.flatten) := by
  refine ⟨sorted_npUnique _, fun n => ?_⟩
  rw [mem_npUnique, List.mem_flatten]
  rfl

theorem idxOf_sorted {u : List Nat} (h : u.Pairwise (· < ·)) {n : Nat} (hn : n ∈ u) : u.idxOf n = (u.filter fun a => a < n).length := by
  induction u with
  | nil => simp at hn
  | cons a u ih =>
    obtain ⟨h1, h2⟩ := List.pairwise_cons.1 h
    rcases List.mem_cons.1 hn with rfl | hn'
    · rw [List.idxOf_cons_self, List.filter_cons_of_neg (by simp), eq_comm, List.length_eq_zero_iff, List.filter_eq_nil_iff]
      intro b hb
      have := h1 b hb
      simp only [decide_eq_true_eq]
      omega
    · have := h1 n hn'
      rw [List.idxOf_cons_ne _ (by omega), ih h2 hn', List.filter_cons_of_pos (by simpa using this)]
      rfl

theorem get?_rankIn {u : List Nat} (h : u.Pairwise (· < ·)) (n : Nat) : (IMap.dict (indsToInvmapAsDict u)).get? n = rankIn u n := by
  show (indsToInvmapAsDict u).get? n = _
  rw [invmap_get? (h.imp fun h => Nat.ne_of_lt h), rankIn]
  split
  · rename_i hn
    rw [idxOf_sorted h hn]
  · rfl

theorem mapM_fuse {α β γ : Type} (f : α → Option β) (g : β → Option γ) (l : List α) :
    (l.mapM f).bind (fun l' => l'.mapM g) = l.mapM fun a => (f a).bind g := by
  induction l with
  | nil => rfl
  | cons a l ih =>
    rw [List.mapM_cons, List.mapM_cons, ← ih]
    cases f a with
    | none => rfl
    | some b =>
      cases l.mapM f with
      | none => cases hb : g b <;> simp [hb]
      | some l' => simp

theorem mapM_some_id {α : Type} (l : List α) : (l.mapM fun a => some a) = some l := by
  have := mapM_some (f := fun a : α => some a) (g := fun a => a) (l := l) fun _ _ => rfl
  rwa [List.map_id'] at this

/-! ## renumbering several times -/

/-- A block renumbered `k` times. -/
def rewireTimes (imap : IMap) : Nat → MBlock P D → Option (MBlock P D)
  | 0, b => some b
  | k + 1, b => (rewireBlock imap b).bind (rewireTimes imap k)

theorem rewireBlock_path {imap : IMap} {b b' : MBlock P D} (h : rewireBlock imap b = some b') : b'.path = b.path := by
  unfold rewireBlock at h
  split at h
  · cases h; rfl
  · obtain ⟨t, -, rfl⟩ := Option.map_eq_some_iff.1 h
    rfl

theorem rewireFold (imap : IMap) (ps : List (List Nat)) (m : List (MBlock P D)) :
    ps.foldlM (fun m p => rewireDeep imap p m) m =
      m.mapM fun b => rewireTimes imap (ps.filter fun p => decide (p <:+ b.path)).length b := by
  induction ps generalizing m with
  | nil =>
    rw [List.foldlM_nil]
    exact (mapM_some_id m).symm
  | cons p ps ih =>
    rw [List.foldlM_cons]
    have : (rewireDeep imap p m >>= fun m => ps.foldlM (fun m p => rewireDeep imap p m) m) =
        (rewireDeep imap p m).bind fun l' => l'.mapM fun b => rewireTimes imap (ps.filter fun p => decide (p <:+ b.path)).length b := by
      congr 1
      funext l'
      exact ih l'
    rw [this, rewireDeep, mapM_fuse]
    congr 1
    funext b
    by_cases hp : p <:+ b.path
    · rw [if_pos hp, List.filter_cons_of_pos (by simpa using hp), List.length_cons, rewireTimes]
      cases hb : rewireBlock imap b with
      | none => rfl
      | some b' => simp only [Option.bind_some, rewireBlock_path hb]
    · rw [if_neg hp, List.filter_cons_of_neg (by simpa using hp), Option.bind_some]

theorem rewireTimes_none {imap : IMap} {b : MBlock P D} (h : b.cells = none) (k : Nat) : rewireTimes imap k b = some b := by
  induction k with
  | zero => rfl
  | succ k ih =>
    have : rewireBlock imap b = some b := by unfold rewireBlock; rw [h]
    rw [rewireTimes, this, Option.bind_some, ih]

theorem rewireTimes_cells {u : List Nat} (h : u.Pairwise (· < ·)) {b : MBlock P D} {c : CData D} (hc : b.cells = some c) (k : Nat) :
    rewireTimes (.dict (indsToInvmapAsDict u)) k b =
      (c.topo.mapM fun (row : List Nat) => row.mapM (rankTimes u k)).map fun t => { b with cells := some { c with topo := t } } := by
  induction k generalizing b c with
  | zero =>
    have : (c.topo.mapM fun (row : List Nat) => row.mapM (rankTimes u 0)) = some c.topo := by
      have : (fun row : List Nat => row.mapM (rankTimes u 0)) = fun row => some row := by
        funext row
        exact mapM_some_id row
      rw [this, mapM_some_id]
    rw [this, rewireTimes, Option.map_some]
    congr 1
    cases b
    simp only at hc
    rw [hc]
  | succ k ih =>
    have e1 : rewireBlock (.dict (indsToInvmapAsDict u)) b =
        (c.topo.mapM fun (row : List Nat) => row.mapM (rankIn u)).map fun t => { b with cells := some { c with topo := t } } := by
      unfold rewireBlock
      rw [hc]
      show (rewire c.topo _ false).map _ = _
      have : rewire c.topo (.dict (indsToInvmapAsDict u)) false = c.topo.mapM fun (row : List Nat) => row.mapM (rankIn u) := by
        show (c.topo.mapM fun (row : List Nat) => row.mapM (IMap.dict (indsToInvmapAsDict u)).get?) = _
        congr 1
        funext row
        congr 1
        funext n
        exact get?_rankIn h n
      rw [this]
    have e2 : (c.topo.mapM fun (row : List Nat) => row.mapM (rankTimes u (k + 1))) =
        (c.topo.mapM fun (row : List Nat) => row.mapM (rankIn u)).bind fun t => t.mapM fun (row : List Nat) => row.mapM (rankTimes u k) := by
      rw [mapM_fuse]
      congr 1
      funext row
      rw [mapM_fuse]
      rfl
    rw [rewireTimes, e1, e2]
    cases c.topo.mapM fun (row : List Nat) => row.mapM (rankIn u) with
    | none => rfl
    | some t =>
      simp only [Option.map_some, Option.bind_some]
      exact ih (b := { b with cells := some { c with topo := t } }) rfl

theorem mapM2_some {f : Nat → Option Nat} {T T' : Topo} : (T.mapM fun (row : List Nat) => row.mapM f) = some T' ↔
    T'.map List.length = T.map List.length ∧ ∀ k j n, nodeAt T k j = some n → ∃ n', f n = some n' ∧ nodeAt T' k j = some n' := by
  constructor
  · intro h
    constructor
    · refine List.ext_getElem? fun i => ?_
      rw [List.getElem?_map, List.getElem?_map]
      cases hT : T[i]? with
      | none =>
        have := mapM_length h
        rw [List.getElem?_eq_none_iff] at hT
        rw [List.getElem?_eq_none_iff.2 (by omega)]
      | some row =>
        obtain ⟨r', h1, h2⟩ := mapM_get h hT
        rw [h2, Option.map_some, Option.map_some, mapM_length h1]
    · intro k j n hn
      unfold nodeAt at hn
      obtain ⟨row, hr, hj⟩ := Option.bind_eq_some_iff.1 hn
      obtain ⟨r', h1, h2⟩ := mapM_get h hr
      obtain ⟨n', h3, h4⟩ := mapM_get h1 hj
      exact ⟨n', h3, by unfold nodeAt; rw [h2]; exact h4⟩
  · rintro ⟨hl, h⟩
    rw [mapM_eq_some_iff, List.forall₂_iff_get]
    have l0 : T'.length = T.length := by have := congrArg List.length hl; simpa using this
    refine ⟨l0.symm, fun i h1 h2 => ?_⟩
    rw [mapM_eq_some_iff, List.forall₂_iff_get]
    have l1 : T'[i].length = T[i].length := by
      have := congrArg (fun l => l[i]?) hl
      simpa [h1, h2] using this
    refine ⟨l1.symm, fun j h3 h4 => ?_⟩
    simp only [List.get_eq_getElem] at h3 h4 ⊢
    obtain ⟨n', e1, e2⟩ := h i j T[i][j] (by simp [nodeAt, h1, h3])
    rw [e1]
    simp only [nodeAt, List.getElem?_eq_getElem h2] at e2
    have e3 : T'[i][j]? = some n' := e2
    rw [List.getElem?_eq_getElem h4] at e3
    exact e3.symm

theorem mapM2_none {f : Nat → Option Nat} {T : Topo} : (T.mapM fun (row : List Nat) => row.mapM f) = none ↔
    ∃ n, UsesNode T n ∧ f n = none := by
  constructor
  · intro h
    by_contra hn
    push Not at hn
    have : ∀ row ∈ T, row.mapM f = some (row.map fun n => (f n).getD 0) := by
      intro row hr
      refine mapM_some fun n hnr => ?_
      obtain ⟨y, hy⟩ := Option.ne_none_iff_exists'.1 (hn n ⟨row, hr, hnr⟩)
      rw [hy]
      rfl
    rw [mapM_some this] at h
    cases h
  · rintro ⟨n, ⟨row, hr, hnr⟩, hf⟩
    exact mapM_none hr (mapM_none hnr hf)

/-- **C42** (exact account) `nummrg` of any tree: the points that are used remain, in their order, and the nodes of a block are replaced
by their places among the used nodes as many times as there are cell blocks from the root down to it. It raises exactly if one of these
replacements meets a number that is not used. -/
theorem C42_exact {m : List (MBlock P D)} (hm : MeshTree m) {q : PData P D} (hq : ptsAt m [] = some q)
    (hid : q.id = List.range q.x.length) {used : List Nat} (hu : UsedNodes (meshTopo m) used) (hr : ∀ n ∈ used, n < q.x.length) :
    (nummrg m = none ↔ ∃ b ∈ m, ∃ c, b.cells = some c ∧ ∃ n, UsesNode c.topo n ∧ rankTimes used (cellBlocksAbove m b) n = none) ∧
    ∀ m', nummrg m = some m' → m'.map MBlock.path = m.map MBlock.path ∧
      (∃ Q, ptsAt m' [] = some Q ∧ Q.id = List.range used.length ∧ Q.x.length = used.length ∧
        ∀ (i n : Nat), used[i]? = some n → Q.x[i]? = q.x[n]?) ∧
      ∀ (i : Nat) (b : MBlock P D), m[i]? = some b → ∃ b', m'[i]? = some b' ∧ (b.path ≠ [] → b'.pts = b.pts) ∧
        (b.cells = none → b'.cells = none) ∧ ∀ c, b.cells = some c → ∃ c', b'.cells = some c' ∧ c' = { c with topo := c'.topo } ∧
          c'.topo.map List.length = c.topo.map List.length ∧
          ∀ k j n, nodeAt c.topo k j = some n → ∃ n', rankTimes used (cellBlocksAbove m b) n = some n' ∧ nodeAt c'.topo k j = some n' := by
  obtain ⟨X, hX, hXl, hXg⟩ := gather?_some (a := q.x) hr
  have hI : gather? q.id used = some used := by rw [hid]; exact gather?_range hr
  obtain ⟨Q, hQ⟩ : ∃ Q : PData P D, Q = ⟨X, List.range X.length, fun f => (q.fields f).bind fun d => gather? d used⟩ := ⟨_, rfl⟩
  have hcount : ∀ b, ((cellPaths m).filter fun p => decide (p <:+ b.path)).length = cellBlocksAbove m b := by
    intro b
    unfold cellPaths cellBlocksAbove
    rw [List.filter_map, List.length_map, List.filter_filter]
    congr 2
    funext a
    simp only [Function.comp]
    rw [Bool.and_comm]
  have hnum : nummrg m = (m.mapM fun b => rewireTimes (.dict (indsToInvmapAsDict used)) (cellBlocksAbove m b) b).map (setRoot Q) := by
    unfold nummrg
    rw [hq]
    simp only [Option.bind_some, PData.rows]
    rw [hu.eq, hX]
    simp only [Option.bind_some, hI, Option.map_some]
    rw [rewireFold, hQ]
    congr 2
    funext b
    rw [hcount]
  rw [hnum]
  constructor
  · rw [Option.map_eq_none_iff]
    constructor
    · intro h
      by_contra hn
      push Not at hn
      have : ∀ b ∈ m, ∃ b', rewireTimes (.dict (indsToInvmapAsDict used)) (cellBlocksAbove m b) b = some b' := by
        intro b hb
        cases hc : b.cells with
        | none => exact ⟨b, rewireTimes_none hc _⟩
        | some c =>
          rw [rewireTimes_cells hu.sorted hc]
          cases e : c.topo.mapM fun (row : List Nat) => row.mapM (rankTimes used (cellBlocksAbove m b)) with
          | none =>
            obtain ⟨n, h1, h2⟩ := mapM2_none.1 e
            exact absurd h2 (hn b hb c hc n h1)
          | some t => exact ⟨_, rfl⟩
      choose! F hF using this
      rw [mapM_some hF] at h
      cases h
    · rintro ⟨b, hb, c, hc, n, h1, h2⟩
      refine mapM_none hb ?_
      rw [rewireTimes_cells hu.sorted hc, mapM2_none.2 ⟨n, h1, h2⟩]
      rfl
  · intro m' hm'
    obtain ⟨l, hl, rfl⟩ := Option.map_eq_some_iff.1 hm'
    have hstep : ∀ (i : Nat) (b : MBlock P D), m[i]? = some b → ∃ b1, l[i]? = some b1 ∧ b1.path = b.path ∧ b1.pts = b.pts ∧
        (b.cells = none → b1.cells = none) ∧ ∀ c, b.cells = some c → ∃ c', b1.cells = some c' ∧ c' = { c with topo := c'.topo } ∧
          c'.topo.map List.length = c.topo.map List.length ∧
          ∀ k j n, nodeAt c.topo k j = some n → ∃ n', rankTimes used (cellBlocksAbove m b) n = some n' ∧ nodeAt c'.topo k j = some n' := by
      intro i b hi
      obtain ⟨b1, h1, h2⟩ := mapM_get hl hi
      refine ⟨b1, h2, ?_⟩
      cases hc : b.cells with
      | none =>
        rw [rewireTimes_none hc] at h1
        cases h1
        exact ⟨rfl, rfl, fun _ => hc, fun c h => by cases h⟩
      | some c =>
        rw [rewireTimes_cells hu.sorted hc] at h1
        obtain ⟨t, ht, rfl⟩ := Option.map_eq_some_iff.1 h1
        refine And.intro rfl (And.intro rfl (And.intro (fun h => absurd h (by simp)) fun c0 h => ?_))
        obtain rfl := Option.some.inj h
        exact ⟨_, rfl, rfl, mapM2_some.1 ht⟩
    have hpl : l.map MBlock.path = m.map MBlock.path := by
      refine List.ext_getElem? fun i => ?_
      rw [List.getElem?_map, List.getElem?_map]
      cases hi : m[i]? with
      | none =>
        have := mapM_length hl
        rw [List.getElem?_eq_none_iff] at hi
        rw [List.getElem?_eq_none_iff.2 (by omega)]
      | some b =>
        obtain ⟨b1, h1, h2, -⟩ := hstep i b hi
        rw [h1, Option.map_some, Option.map_some, h2]
    have hps : (setRoot Q l).map MBlock.path = m.map MBlock.path := by
      rw [← hpl, setRoot, List.map_map]
      apply List.map_congr_left
      intro b _
      simp only [Function.comp]
      split <;> rfl
    refine ⟨hps, ⟨Q, ?_, by rw [hQ, hXl], by rw [hQ, hXl], fun i n hn => by rw [hQ]; exact hXg i n hn⟩, ?_⟩
    · obtain ⟨r, rest, hroot, hrp⟩ := hm.root
      have h0 : m[0]? = some r := by rw [hroot]; rfl
      obtain ⟨b1, h1, h2, -⟩ := hstep 0 r h0
      have hmem : ({ b1 with pts := some Q } : MBlock P D) ∈ setRoot Q l := by
        refine List.mem_map.2 ⟨b1, List.mem_of_getElem? h1, ?_⟩
        rw [if_pos (h2.trans hrp)]
      have := ptsAt_of_mem (by rw [hps]; exact hm.nodup) hmem
      have e : ({ b1 with pts := some Q } : MBlock P D).path = [] := h2.trans hrp
      rw [e] at this
      exact this
    · intro i b hi
      obtain ⟨b1, h1, h2, h3, h4, h5⟩ := hstep i b hi
      refine ⟨if b1.path = [] then { b1 with pts := some Q } else b1, ?_, ?_, ?_, ?_⟩
      · rw [setRoot, List.getElem?_map, h1]
        rfl
      · intro hne
        rw [if_neg (by rw [h2]; exact hne), h3]
      · intro hc
        split
        · exact h4 hc
        · exact h4 hc
      · intro c hc
        obtain ⟨c', e1, e2⟩ := h5 c hc
        refine ⟨c', ?_, e2⟩
        split
        · exact e1
        · exact e1

/-- The hypotheses of `C42_exact` hold for the nested mesh of `C42_false`, where the inner block is renumbered twice. -/
example : ∃ used, UsedNodes (meshTopo nestedMesh) used ∧ (∀ n ∈ used, n < 4) ∧
    nestedMesh.map (fun b => cellBlocksAbove nestedMesh b) = [1, 2] ∧ rankTimes used 2 2 = some 0 ∧ rankTimes used 1 2 = some 1 :=
  ⟨_, usedNodes_npUnique _, by decide +kernel, by decide +kernel, by decide +kernel, by decide +kernel⟩

/-! ## moving blocks without points -/

theorem sourcePath_of {m : List (MBlock P D)} {s p : List Nat} (hs : (ptsAt m s).isSome) (hp : s <:+ p)
    (hnear : ∀ t, (ptsAt m t).isSome → t <:+ p → t <:+ s) : sourcePath m p = some s := by
  induction p with
  | nil =>
    obtain rfl : s = [] := List.suffix_nil.1 hp
    exact sourcePath_self hs
  | cons k p ih =>
    rcases List.suffix_cons_iff.1 hp with rfl | h
    · exact sourcePath_self hs
    · unfold sourcePath
      split
      · rename_i h1
        have h2 := hnear _ h1 List.suffix_rfl
        have := h2.length_le
        have := h.length_le
        simp at *
        omega
      · exact ih h fun t ht htp => hnear t ht (htp.trans (List.suffix_cons _ _))

theorem ptsAt_mem {m : List (MBlock P D)} {t : List Nat} (h : (ptsAt m t).isSome) : ∃ b ∈ m, b.path = t ∧ b.pts.isSome := by
  unfold ptsAt at h
  cases hb : blockAt m t with
  | none => rw [hb] at h; cases h
  | some b =>
    rw [hb] at h
    unfold blockAt at hb
    exact ⟨b, List.mem_of_find?_eq_some hb, by simpa using List.find?_some hb, h⟩

/-- **C43** (exact account) moving, rotating a block without points of its own whose source `s` has no other points beneath: the array of
the points of the *source* is replaced by the moved points of the nodes that the block uses, in increasing order of their numbers. If the
library refuses arrays of another length this works exactly if the block uses all points of the source. -/
theorem C43_block_exact {m : List (MBlock P D)} (hm : MeshTree m) {s : MBlock P D} {q : PData P D} (hs : s ∈ m)
    (hq : s.pts = some q) (hnest : ∀ b ∈ m, b.pts.isSome → s.path <:+ b.path → b = s) {p : List Nat} (hp : s.path <:+ p)
    (hps : p ≠ s.path) (hnear : ∀ b ∈ m, b.pts.isSome → b.path <:+ p → b.path <:+ s.path) {used : List Nat}
    (hu : UsedNodes (topoBeneath m p) used) (hr : ∀ n ∈ used, n < q.x.length) (strict : Bool) (g : P → P) :
    (applyMotion strict g p m = none ↔ strict = true ∧ ∃ n < q.x.length, ¬ UsesNode (topoBeneath m p) n) ∧
    ∀ m', applyMotion strict g p m = some m' → m'.length = m.length ∧
      ∀ (i : Nat) (b : MBlock P D), m[i]? = some b →
        ∃ b', m'[i]? = some b' ∧ b'.path = b.path ∧ b'.cells = b.cells ∧ (b.path ≠ s.path → b' = b) ∧
          (b.path = s.path → ∃ Q, b'.pts = some Q ∧ Q = { q with x := Q.x } ∧ Q.x.length = used.length ∧
            ∀ (k n : Nat), used[k]? = some n → Q.x[k]? = (q.x[n]?).map g) := by
  have hsrc : sourcePath m p = some s.path := by
    refine sourcePath_of (by rw [ptsAt_of_mem hm.nodup hs, hq]; rfl) hp fun t ht htp => ?_
    obtain ⟨b, hb, rfl, hbs⟩ := ptsAt_mem ht
    exact hnear b hb hbs htp
  obtain ⟨X, hX, hXl, hXg⟩ := gather?_some (a := q.x) hr
  have hmv : movedPoints m p = some (s.path, X) := by
    unfold movedPoints
    rw [hsrc, Option.bind_some, if_neg (fun e => hps e.symm), pointsBeneath_eq hm.nodup hs hq hnest, hu.eq, hX]
    rfl
  have happ : applyMotion strict g p m = setX strict s.path (X.map g) m := by
    unfold applyMotion
    rw [hmv]
    rfl
  have hnd : used.Nodup := hu.sorted.imp fun h => Nat.ne_of_lt h
  have hlen : used.length = q.x.length ↔ ∀ n < q.x.length, UsesNode (topoBeneath m p) n := by
    have hsub : used.toFinset ⊆ Finset.range q.x.length := fun n hn => Finset.mem_range.2 (hr n (List.mem_toFinset.1 hn))
    have hcard : used.toFinset.card = used.length := List.toFinset_card_of_nodup hnd
    constructor
    · intro h n hn
      have : used.toFinset = Finset.range q.x.length :=
        Finset.eq_of_subset_of_card_le hsub (by rw [hcard, h, Finset.card_range])
      have h2 : n ∈ used.toFinset := by rw [this]; exact Finset.mem_range.2 hn
      exact (hu.all n).1 (List.mem_toFinset.1 h2)
    · intro h
      have : used.toFinset = Finset.range q.x.length :=
        Finset.Subset.antisymm hsub fun n hn => List.mem_toFinset.2 ((hu.all n).2 (h n (Finset.mem_range.1 hn)))
      rw [← hcard, this, Finset.card_range]
  have hXg' : (X.map g).length = used.length := by rw [List.length_map, hXl]
  have hset : ¬ (strict = true ∧ used.length ≠ q.x.length) →
      setX strict s.path (X.map g) m =
        some (m.map fun b => if b.path = s.path then { b with pts := some { q with x := X.map g } } else b) := by
    intro hok
    unfold setX
    apply mapM_some
    intro b hb
    by_cases e : b.path = s.path
    · have h1 := blockAt_of_mem hm.nodup hb
      rw [e, blockAt_of_mem hm.nodup hs] at h1
      have : s = b := Option.some.inj h1
      subst this
      have hif : assignX strict q (X.map g) = some { q with x := X.map g } := by
        unfold assignX
        rw [if_neg]
        rw [hXg']
        intro h
        simp only [Bool.and_eq_true, bne_iff_ne] at h
        exact hok h
      simp [hq, hif]
    · simp [e]
  constructor
  · rw [happ]
    constructor
    · intro h
      by_contra hn
      have hok : ¬ (strict = true ∧ used.length ≠ q.x.length) := by
        rintro ⟨h1, h2⟩
        apply hn
        refine ⟨h1, ?_⟩
        by_contra h3
        push Not at h3
        exact h2 (hlen.2 h3)
      rw [hset hok] at h
      cases h
    · rintro ⟨h1, n, hn, h2⟩
      unfold setX
      refine mapM_none hs ?_
      have : used.length ≠ q.x.length := fun e => h2 (hlen.1 e n hn)
      have hif : assignX strict q (X.map g) = none := by
        unfold assignX
        rw [if_pos]
        rw [hXg', h1]
        simpa using this
      simp [hq, hif]
  · intro m' hm'
    rw [happ] at hm'
    have hok : ¬ (strict = true ∧ used.length ≠ q.x.length) := by
      rintro ⟨h1, h2⟩
      have : setX strict s.path (X.map g) m = none := by
        unfold setX
        refine mapM_none hs ?_
        have hif : assignX strict q (X.map g) = none := by
          unfold assignX
          rw [if_pos]
          rw [hXg', h1]
          simpa using h2
        simp [hq, hif]
      rw [this] at hm'
      cases hm'
    rw [hset hok] at hm'
    obtain rfl := Option.some.inj hm'
    refine ⟨List.length_map _, fun i b hi => ?_⟩
    refine ⟨if b.path = s.path then { b with pts := some { q with x := X.map g } } else b, ?_, ?_⟩
    · rw [List.getElem?_map, hi]
      rfl
    · split
      · rename_i e
        refine ⟨rfl, rfl, fun h => absurd e h, fun _ => ⟨_, rfl, rfl, hXg', fun k n hk => ?_⟩⟩
        rw [List.getElem?_map, hXg k n hk]
      · rename_i e
        exact ⟨rfl, rfl, fun _ => rfl, fun h => absurd h e⟩

/-- **C43** a block without points of its own that uses all points of its source: all of them undergo the motion, nothing else changes. -/
theorem C43_block_partial {m : List (MBlock P D)} (hm : MeshTree m) {s : MBlock P D} {q : PData P D} (hs : s ∈ m)
    (hq : s.pts = some q) (hnest : ∀ b ∈ m, b.pts.isSome → s.path <:+ b.path → b = s) {p : List Nat} (hp : s.path <:+ p)
    (hps : p ≠ s.path) (hnear : ∀ b ∈ m, b.pts.isSome → b.path <:+ p → b.path <:+ s.path)
    (hu : ∀ n, UsesNode (topoBeneath m p) n ↔ n < q.x.length) (strict : Bool) (g : P → P) :
    ∃ m', applyMotion strict g p m = some m' ∧ m'.length = m.length ∧
      ∀ (i : Nat) (b : MBlock P D), m[i]? = some b →
        ∃ b', m'[i]? = some b' ∧ b'.path = b.path ∧ b'.cells = b.cells ∧
          (b.path = s.path → b'.pts = some { q with x := q.x.map g }) ∧ (b.path ≠ s.path → b' = b) := by
  have hU : UsedNodes (topoBeneath m p) (List.range q.x.length) :=
    ⟨List.pairwise_lt_range, fun n => by rw [List.mem_range, hu]⟩
  obtain ⟨h1, h2⟩ := C43_block_exact hm hs hq hnest hp hps hnear hU (fun n hn => List.mem_range.1 hn) strict g
  cases h : applyMotion strict g p m with
  | none =>
    obtain ⟨-, n, hn, h3⟩ := h1.1 h
    exact absurd ((hu n).2 hn) h3
  | some m' =>
    obtain ⟨hl, h3⟩ := h2 m' h
    refine ⟨m', rfl, hl, fun i b hi => ?_⟩
    obtain ⟨b', e1, e2, e3, e4, e5⟩ := h3 i b hi
    refine ⟨b', e1, e2, e3, fun hb => ?_, e4⟩
    obtain ⟨Q, f1, f2, f3, f4⟩ := e5 hb
    have : Q.x = q.x.map g := by
      refine List.ext_getElem? fun k => ?_
      rw [List.getElem?_map]
      by_cases hk : k < q.x.length
      · exact f4 k k (by rw [List.getElem?_range hk])
      · rw [List.length_range] at f3
        rw [List.getElem?_eq_none_iff.2 (by omega), List.getElem?_eq_none_iff.2 (by omega)]
        rfl
    rw [f1, f2, this]

/-- A source with three points and a block without points that uses two of them. -/
example : MeshTree (P := Nat) (D := Nat)
      [⟨[], .ambient, some ⟨[10, 20, 30], [0, 1, 2], fun _ => none⟩, none⟩, ⟨[0], .ambient, none, some ⟨[[2, 1]], [0], fun _ => none⟩⟩] ∧
    UsedNodes (topoBeneath (P := Nat) (D := Nat)
      [⟨[], .ambient, some ⟨[10, 20, 30], [0, 1, 2], fun _ => none⟩, none⟩, ⟨[0], .ambient, none, some ⟨[[2, 1]], [0], fun _ => none⟩⟩] [0]) [1, 2] ∧
    (applyMotion (P := Nat) (D := Nat) false (· + 1) [0]
      [⟨[], .ambient, some ⟨[10, 20, 30], [0, 1, 2], fun _ => none⟩, none⟩, ⟨[0], .ambient, none, some ⟨[[2, 1]], [0], fun _ => none⟩⟩]).map view =
      some [(some [21, 31], none), (none, some [[2, 1]])] := by
  refine ⟨⟨⟨_, _, rfl, rfl⟩, by simp⟩, ?_, by decide +kernel⟩
  have := usedNodes_npUnique (topoBeneath (P := Nat) (D := Nat)
      [⟨[], .ambient, some ⟨[10, 20, 30], [0, 1, 2], fun _ => none⟩, none⟩, ⟨[0], .ambient, none, some ⟨[[2, 1]], [0], fun _ => none⟩⟩] [0])
  exact this

end PM
